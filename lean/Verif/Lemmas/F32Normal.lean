import Verif.Lemmas.F32Local

/-!
# The matrix for normals in float arithmetic
-/

set_option exponentiation.threshold 300

namespace Zcm

open WithLp F32
open scoped RealInnerProductSpace Matrix

section

variable {m : M3 F32}

theorem columnOf_apply (m : M3 F32) (c r : Fin 3) : columnOf m c r = ((entry m c r).val : ℝ) := rfl

theorem det_columns (m : M3 F32) : ((exactMat m).det : ℝ) = triple (columnOf m 0) (columnOf m 1) (columnOf m 2) := by
  unfold triple
  simp only [columnOf_apply]
  rw [Matrix.det_fin_three]
  simp only [exactMat, Matrix.of_apply]
  push_cast
  ring

theorem termSize_columns (m : M3 F32) : ((termSize (exactMat m) : ℚ) : ℝ) ≤ 1.7321 * (‖columnOf m 0‖ * ‖columnOf m 1‖ * ‖columnOf m 2‖) := by
  refine le_trans (le_of_eq ?_) (triple_terms_le (columnOf m 0) (columnOf m 1) (columnOf m 2))
  simp only [columnOf_apply]
  rw [termSize_three]
  simp [exactMat]

theorem minorSize_columns (m : M3 F32) (i j : Fin 3) :
    ((minorSize (exactMat m) i j : ℚ) : ℝ) * ‖columnOf m i‖ ≤ ‖columnOf m 0‖ * ‖columnOf m 1‖ * ‖columnOf m 2‖ := by
  have X := fun (c d : Fin 3) (r s : Fin 3) (h : r ≠ s) => crosswise_le (columnOf m c) (columnOf m d) h
  simp only [columnOf_apply] at X
  have x1 := X 0 1 0 1 (by decide)
  have x2 := X 0 1 0 2 (by decide)
  have x3 := X 0 1 1 2 (by decide)
  have x4 := X 0 2 0 1 (by decide)
  have x5 := X 0 2 0 2 (by decide)
  have x6 := X 0 2 1 2 (by decide)
  have x7 := X 1 2 0 1 (by decide)
  have x8 := X 1 2 0 2 (by decide)
  have x9 := X 1 2 1 2 (by decide)
  clear X
  have n0 := norm_nonneg (columnOf m 0)
  have n1 := norm_nonneg (columnOf m 1)
  have n2 := norm_nonneg (columnOf m 2)
  rw [minorSize, termSize_two]
  have key : ∀ {a b c t : ℝ}, 0 ≤ a → t ≤ b * c → t * a ≤ a * b * c := fun ha ht => by nlinarith
  fin_cases i
  · refine key n0 ?_
    fin_cases j <;> simp [Fin.succAbove, exactMat] at * <;> linarith
  · show _ * ‖columnOf m 1‖ ≤ _
    refine le_trans (key n1 (b := ‖columnOf m 0‖) (c := ‖columnOf m 2‖) ?_) (le_of_eq (by ring))
    fin_cases j <;> simp [Fin.succAbove, exactMat] at * <;> linarith
  · show _ * ‖columnOf m 2‖ ≤ _
    refine le_trans (key n2 (b := ‖columnOf m 0‖) (c := ‖columnOf m 1‖) ?_) (le_of_eq (by ring))
    fin_cases j <;> simp [Fin.succAbove, exactMat] at * <;> linarith

theorem NearlyBox.volume {a : Fin 3 → Space} (h : NearlyBox a) : 1 / 2 ^ 48 ≤ ‖a 0‖ * ‖a 1‖ * ‖a 2‖ := by
  have h0 := h.low 0
  have h1 := h.low 1
  have h2 := h.low 2
  calc (1 / 2 ^ 48 : ℝ) = 1 / 2 ^ 16 * (1 / 2 ^ 16) * (1 / 2 ^ 16) := by norm_num
    _ ≤ _ := by gcongr

theorem NearlyBox.det_ge (h : NearlyBox (columnOf m)) : 0.9998 * (‖columnOf m 0‖ * ‖columnOf m 1‖ * ‖columnOf m 2‖) ≤ ((|(exactMat m).det| : ℚ) : ℝ) := by
  rw [Rat.cast_abs, det_columns]
  exact triple_ge (h.ortho 0 1 (by decide)) (h.ortho 0 2 (by decide)) (h.ortho 1 2 (by decide))

theorem NearlyBox.bounded (h : NearlyBox (columnOf m)) (f : FiniteMat m) : BoundedBy m (2 ^ 20) := by
  intro c r
  refine ⟨f c r, ?_⟩
  have := (coord_le_norm3 (columnOf m c) r).trans (h.high c)
  rw [columnOf_apply] at this
  have e : ((|(entry m c r).val| : ℚ) : ℝ) ≤ ((2 ^ 20 : ℚ) : ℝ) := by push_cast; exact this
  exact (Rat.cast_le (K := ℝ)).1 e

theorem NearlyBox.invertible (h : NearlyBox (columnOf m)) : Invertible32 (exactMat m) (2 ^ 20) := by
  have d := h.det_ge
  have v := h.volume
  have t := termSize_columns m
  have k1 : ((termSize (exactMat m) : ℚ) : ℝ) ≤ 2 ^ 18 * ((|(exactMat m).det| : ℚ) : ℝ) := by linarith
  have k2 : ((2 : ℝ) ^ 20) ^ 2 ≤ 2 ^ 110 * ((|(exactMat m).det| : ℚ) : ℝ) := by
    have : (1 : ℝ) / 2 ^ 49 ≤ ((|(exactMat m).det| : ℚ) : ℝ) := by
      refine le_trans ?_ d
      refine le_trans ?_ (mul_le_mul_of_nonneg_left v (by norm_num))
      norm_num
    refine le_trans ?_ (mul_le_mul_of_nonneg_left this (by norm_num))
    norm_num
  exact ⟨by exact_mod_cast k1, by exact_mod_cast k2⟩

theorem NearlyBox.det_ne (h : NearlyBox (columnOf m)) : (exactMat m).det ≠ 0 := by
  intro e
  have := h.det_ge
  have v := h.volume
  rw [e, abs_zero, Rat.cast_zero] at this
  have : (0 : ℝ) < 1 / 2 ^ 48 := by norm_num
  linarith

theorem NearlyBox.pos {a : Fin 3 → Space} (h : NearlyBox a) (i : Fin 3) : 0 < ‖a i‖ := lt_of_lt_of_le (by norm_num) (h.low i)

/-- an approximate entry of the inverse of a mat3 with nearly perpendicular columns -/
theorem NearlyBox.entry (h : NearlyBox (columnOf m)) (f : FiniteMat m) {i j : Fin 3} {x : F32} (E : InverseEntry (exactMat m) (2 ^ 20) i j x) :
    |(x.val : ℝ) - ((exactMat m)⁻¹ i j : ℚ)| ≤ 55.6 / 2 ^ 24 * (1 / ‖columnOf m i‖) ∧
    |(((exactMat m)⁻¹ i j : ℚ) : ℝ)| ≤ 1.00021 * (1 / ‖columnOf m i‖) := by
  have p := h.pos i
  have V0 : 0 < ‖columnOf m 0‖ * ‖columnOf m 1‖ * ‖columnOf m 2‖ := lt_of_lt_of_le (by norm_num) h.volume
  have q : ((minorSize (exactMat m) i j : ℚ) : ℝ) ≤ 1 / ‖columnOf m i‖ * (‖columnOf m 0‖ * ‖columnOf m 1‖ * ‖columnOf m 2‖) := by
    rw [one_div, inv_mul_eq_div, le_div_iff₀ p]
    exact minorSize_columns m i j
  have b := inverse_entry_real E h.volume (termSize_columns m) h.det_ge q
  have a : |(exactMat m).adjugate i j| ≤ minorSize (exactMat m) i j :=
    (ready3 (by norm_num) (by norm_num) (det3 (by norm_num) (by norm_num) (h.bounded f)) (h.bounded f) i j h.invertible.2 h.invertible.1).a_le
  refine ⟨b.trans ?_, inv_le_of_minor V0 a h.det_ge q⟩
  have : 1 / 2 ^ 20 ≤ 1 / ‖columnOf m i‖ := one_div_le_one_div_of_le p (h.high i)
  have t : (1 : ℝ) / 2 ^ 75 ≤ 0.1 / 2 ^ 24 * (1 / 2 ^ 20) := by norm_num
  nlinarith

theorem norm_le_sum_abs (a : Space) : ‖a‖ ≤ |a 0| + |a 1| + |a 2| := by
  refine le_of_sq_le_sq ?_ (by positivity)
  have e := EuclideanSpace.norm_sq_eq a
  simp only [Fin.sum_univ_three, Real.norm_eq_abs] at e
  rw [e]
  nlinarith [mul_nonneg (abs_nonneg (a 0)) (abs_nonneg (a 1)), mul_nonneg (abs_nonneg (a 0)) (abs_nonneg (a 2)),
    mul_nonneg (abs_nonneg (a 1)) (abs_nonneg (a 2))]

/-- the exact transposed inverse applied to a normal -/
noncomputable def covector (m : M3 F32) (n : Fin 3 → ℝ) : Space := toLp 2 fun r => ∑ c, (((exactMat m)⁻¹ c r : ℚ) : ℝ) * n c

theorem covector_inner (h : (exactMat m).det ≠ 0) (n x : Fin 3 → ℝ) : ⟪covector m n, ∑ c, x c • columnOf m c⟫ = ∑ c, n c * x c := by
  have k := exact_inverse h (v := fun r => ∑ c, ((exactMat m r c : ℚ) : ℝ) * x c) (y := x) fun r => rfl
  have k0 := k 0
  have k1 := k 1
  have k2 := k 2
  simp only [Fin.sum_univ_three] at k0 k1 k2
  rw [PiLp.inner_apply, Fin.sum_univ_three]
  have e : ∀ r, (∑ c, x c • columnOf m c : Space) r = ((exactMat m r 0 : ℚ) : ℝ) * x 0 + ((exactMat m r 1 : ℚ) : ℝ) * x 1 + ((exactMat m r 2 : ℚ) : ℝ) * x 2 := by
    intro r
    rw [Fin.sum_univ_three]
    simp [columnOf_apply, exactMat]
    ring
  have i : ∀ a b : ℝ, ⟪a, b⟫ = b * a := fun a b => rfl
  rw [i, i, i, e, e, e]
  simp only [covector, Fin.sum_univ_three]
  linear_combination n 0 * k0 + n 1 * k1 + n 2 * k2

theorem near_normal {a Z : Space} {W : ℝ} (h : ∀ r, |a r - Z r| ≤ 59.7 / 2 ^ 24 * W + 1 / 2 ^ 147) (W0 : 0 ≤ W) (hW : W ≤ 3 * ‖Z‖)
    (hZ : 1 / 2 ^ 42 ≤ ‖Z‖) : ‖a - Z‖ ≤ 311 / 2 ^ 24 * ‖Z‖ := by
  refine le_of_sq_le_sq ?_ (by positivity)
  have k := norm_le_of_coords (x := a - Z) (e := 59.7 / 2 ^ 24 * W + 1 / 2 ^ 147) h
  refine k.trans ?_
  have t : (1 : ℝ) / 2 ^ 147 ≤ 0.01 / 2 ^ 24 * (1 / 2 ^ 42) := by norm_num
  have b : 59.7 / 2 ^ 24 * W + 1 / 2 ^ 147 ≤ 179.2 / 2 ^ 24 * ‖Z‖ := by linarith
  have e0 : 0 ≤ 59.7 / 2 ^ 24 * W + 1 / 2 ^ 147 := by positivity
  generalize 59.7 / 2 ^ 24 * W + 1 / 2 ^ 147 = e at *
  have b2 : e ^ 2 ≤ (179.2 / 2 ^ 24 * ‖Z‖) ^ 2 := pow_le_pow_left₀ e0 b 2
  have z := sq_nonneg ‖Z‖
  rw [mul_pow] at b2 ⊢
  push_cast
  norm_num at b2 ⊢
  linarith

end

end Zcm
