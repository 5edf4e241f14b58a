import Verif.Lemmas.F32Transform
import Verif.Lemmas.F32Chain
import Verif.Spec.Clip
import Verif.Props.C81
import Verif.Props.C98

/-!
# Applying the inverse of a transform in float arithmetic
-/

set_option exponentiation.threshold 300

namespace Zcm

open WithLp F32
open scoped RealInnerProductSpace Matrix

section

variable {m : M4 F32}

theorem Transform.adj_le (h : Transform m) (i j : Fin 4) : |(exactMat m).adjugate i j| ≤ minorSize (exactMat m) i j :=
  (ready4 (by norm_num) (by norm_num) (det4 (by norm_num) (by norm_num) h.bounded) h.bounded i j h.invertible.2 h.invertible.1).a_le

theorem Transform.entry_near (h : Transform m) {i j : Fin 4} {q : ℝ}
    (hq : ((minorSize (exactMat m) i j : ℚ) : ℝ) ≤ q * (‖axisOf m 0‖ * ‖axisOf m 1‖ * ‖axisOf m 2‖)) :
    (entry (M4.inverse m) j i).IsFin = true ∧
    |((entry (M4.inverse m) j i).val : ℝ) - ((exactMat m)⁻¹ i j : ℚ)| ≤ 55.5 / 2 ^ 24 * q + 1 / 2 ^ 75 ∧
    |(((exactMat m)⁻¹ i j : ℚ) : ℝ)| ≤ 1.00021 * q := by
  have E := C98_inverse_mat4 m (2 ^ 20) (by norm_num) (by norm_num) h.bounded h.invertible i j
  have V0 : 0 < ‖axisOf m 0‖ * ‖axisOf m 1‖ * ‖axisOf m 2‖ := lt_of_lt_of_le (by norm_num) h.volume
  exact ⟨E.1, inverse_entry_real E h.volume h.termSize_le h.det_ge hq, inv_le_of_minor V0 (h.adj_le i j) h.det_ge hq⟩

theorem Transform.pos (h : Transform m) (i : Fin 3) : 0 < ‖axisOf m i.castSucc‖ := lt_of_lt_of_le (by norm_num) (h.box.low i)

theorem Transform.entry_linear (h : Transform m) (i j : Fin 3) :
    (entry (M4.inverse m) j.castSucc i.castSucc).IsFin = true ∧
    |((entry (M4.inverse m) j.castSucc i.castSucc).val : ℝ) - ((exactMat m)⁻¹ i.castSucc j.castSucc : ℚ)| ≤
      55.6 / 2 ^ 24 * (1 / ‖axisOf m i.castSucc‖) ∧
    |(((exactMat m)⁻¹ i.castSucc j.castSucc : ℚ) : ℝ)| ≤ 1.00021 * (1 / ‖axisOf m i.castSucc‖) := by
  have p := h.pos i
  obtain ⟨a, b, c⟩ := h.entry_near (i := i.castSucc) (j := j.castSucc) (q := 1 / ‖axisOf m i.castSucc‖) (by
    rw [one_div, inv_mul_eq_div, le_div_iff₀ p]
    exact h.minorSize_linear i j)
  refine ⟨a, b.trans ?_, c⟩
  have : 1 / 2 ^ 20 ≤ 1 / ‖axisOf m i.castSucc‖ := one_div_le_one_div_of_le p (h.box.high i)
  have t : (1 : ℝ) / 2 ^ 75 ≤ 0.1 / 2 ^ 24 * (1 / 2 ^ 20) := by norm_num
  nlinarith

theorem Transform.entry_translation (h : Transform m) (i : Fin 3) :
    (entry (M4.inverse m) 3 i.castSucc).IsFin = true ∧
    |((entry (M4.inverse m) 3 i.castSucc).val : ℝ) - ((exactMat m)⁻¹ i.castSucc 3 : ℚ)| ≤
      96.2 / 2 ^ 24 * (‖axisOf m 3‖ / ‖axisOf m i.castSucc‖) + 1 / 2 ^ 75 ∧
    |(((exactMat m)⁻¹ i.castSucc 3 : ℚ) : ℝ)| ≤ 1.7326 * (‖axisOf m 3‖ / ‖axisOf m i.castSucc‖) := by
  have p := h.pos i
  obtain ⟨a, b, c⟩ := h.entry_near (i := i.castSucc) (j := 3) (q := 1.7321 * (‖axisOf m 3‖ / ‖axisOf m i.castSucc‖)) (by
    have := minorSize_translation m i
    rw [← le_div_iff₀ p] at this
    refine this.trans (le_of_eq ?_)
    ring)
  have q0 : 0 ≤ ‖axisOf m 3‖ / ‖axisOf m i.castSucc‖ := by positivity
  exact ⟨a, b.trans (by nlinarith), c.trans (by nlinarith)⟩

theorem Transform.entry_last (h : Transform m) (j : Fin 3) :
    (entry (M4.inverse m) j.castSucc 3).IsFin = true ∧
    |((entry (M4.inverse m) j.castSucc 3).val : ℝ) - ((exactMat m)⁻¹ 3 j.castSucc : ℚ)| ≤ 1 / 2 ^ 75 ∧
    |(((exactMat m)⁻¹ 3 j.castSucc : ℚ) : ℝ)| ≤ 0 := by
  obtain ⟨a, b, c⟩ := h.entry_near (i := 3) (j := j.castSucc) (q := 0) (by rw [h.minorSize_last j]; simp)
  exact ⟨a, b.trans (by linarith), c.trans (by linarith)⟩

theorem Transform.entry_corner (h : Transform m) :
    (entry (M4.inverse m) 3 3).IsFin = true ∧
    |((entry (M4.inverse m) 3 3).val : ℝ) - ((exactMat m)⁻¹ 3 3 : ℚ)| ≤ 96.2 / 2 ^ 24 ∧
    |(((exactMat m)⁻¹ 3 3 : ℚ) : ℝ)| ≤ 1.7326 := by
  obtain ⟨a, b, c⟩ := h.entry_near (i := 3) (j := 3) (q := 1.7321) (minorSize_corner m)
  exact ⟨a, b.trans (by norm_num), c.trans (by norm_num)⟩

theorem Transform.det_ne (h : Transform m) : (exactMat m).det ≠ 0 := by
  intro e
  have := h.det_ge
  have v := h.volume
  rw [e, abs_zero, Rat.cast_zero] at this
  have : (0 : ℝ) < 1 / 2 ^ 48 := by norm_num
  linarith

/-- the exact inverse undoes the exact matrix -/
theorem exact_inverse {n : ℕ} {A : Matrix (Fin n) (Fin n) ℚ} (h : A.det ≠ 0) {v y : Fin n → ℝ} (hv : ∀ r, v r = ∑ c, (A r c : ℝ) * y c) (i : Fin n) :
    ∑ j, (A⁻¹ i j : ℝ) * v j = y i := by
  have e : A⁻¹ * A = 1 := Matrix.nonsing_inv_mul A (isUnit_iff_ne_zero.2 h)
  have e' : ∀ c, ∑ j, (A⁻¹ i j : ℝ) * (A j c : ℝ) = if i = c then 1 else 0 := by
    intro c
    have := congrFun (congrFun e i) c
    rw [Matrix.mul_apply, Matrix.one_apply] at this
    have := congrArg (fun x : ℚ => (x : ℝ)) this
    push_cast at this
    rw [this]
    split_ifs <;> simp
  calc ∑ j, (A⁻¹ i j : ℝ) * v j = ∑ j, ∑ c, (A⁻¹ i j : ℝ) * ((A j c : ℝ) * y c) := by
        refine Finset.sum_congr rfl fun j _ => ?_
        rw [hv j, Finset.mul_sum]
    _ = ∑ c, (∑ j, (A⁻¹ i j : ℝ) * (A j c : ℝ)) * y c := by
        rw [Finset.sum_comm]
        refine Finset.sum_congr rfl fun c _ => ?_
        rw [Finset.sum_mul]
        exact Finset.sum_congr rfl fun j _ => by ring
    _ = y i := by simp [e']

/-- a computed scalar product against perturbed coefficients -/
theorem near_perturbed {k : ℕ} (hk : k ≤ 4) {x : F32} {a v : Fin k → F32} (h : AccurateSum x a v) (fa : ∀ i, (a i).IsFin = true) (fv : ∀ i, (v i).IsFin = true)
    {b : Fin k → ℝ} {p e : Fin k → ℝ} (hb : ∀ i, |b i| ≤ p i) (he : ∀ i, |((a i).val : ℝ) - b i| ≤ e i)
    (hT : ∑ i, (p i + e i) * |((v i).val : ℝ)| ≤ 2 ^ 126) :
    Near x (∑ i, b i * (v i).val) (∑ i, (e i + 4.001 / 2 ^ 24 * (p i + e i)) * |((v i).val : ℝ)| + 1 / 2 ^ 147) := by
  have t : ∑ i, |((a i).val : ℝ) * (v i).val| ≤ ∑ i, (p i + e i) * |((v i).val : ℝ)| := by
    refine Finset.sum_le_sum fun i _ => ?_
    rw [abs_mul]
    refine mul_le_mul_of_nonneg_right ?_ (abs_nonneg _)
    have := abs_add_le (b i) ((a i).val - b i)
    rw [add_sub_cancel] at this
    linarith [hb i, he i]
  obtain ⟨f, g⟩ := accurate_real h hk fa fv t hT
  refine ⟨f, ?_⟩
  have d : |∑ i, ((a i).val : ℝ) * (v i).val - ∑ i, b i * ((v i).val : ℝ)| ≤ ∑ i, e i * |((v i).val : ℝ)| := by
    rw [← Finset.sum_sub_distrib]
    refine (Finset.abs_sum_le_sum_abs _ _).trans (Finset.sum_le_sum fun i _ => ?_)
    rw [← sub_mul, abs_mul]
    exact mul_le_mul_of_nonneg_right (he i) (abs_nonneg _)
  have s : ∑ i, (e i + 4.001 / 2 ^ 24 * (p i + e i)) * |((v i).val : ℝ)| = ∑ i, e i * |((v i).val : ℝ)| +
      4.001 / 2 ^ 24 * ∑ i, (p i + e i) * |((v i).val : ℝ)| := by
    rw [Finset.mul_sum, ← Finset.sum_add_distrib]
    exact Finset.sum_congr rfl fun i _ => by ring
  rw [s]
  have := abs_sub_le (x.val : ℝ) (∑ i, ((a i).val : ℝ) * (v i).val) (∑ i, b i * ((v i).val : ℝ))
  linarith

/-- The computed inverse applied to any vector: coordinates 0 to 2. -/
theorem Transform.apply_linear (h : Transform m) {v : V4 F32} (fv : ∀ i, (coord v i).IsFin = true) {S : ℝ}
    (hS : |((coord v 0).val : ℝ)| + |((coord v 1).val : ℝ)| + |((coord v 2).val : ℝ)| ≤ S) (S1 : S ≤ 2 ^ 60)
    (w1 : |((coord v 3).val : ℝ)| ≤ 2) (i : Fin 3) :
    Near (coord (M4.inverse m * v) i.castSucc) (∑ j, ((exactMat m)⁻¹ i.castSucc j : ℝ) * (coord v j).val)
      ((59.7 / 2 ^ 24 * S + 103.2 / 2 ^ 24 * ‖axisOf m 3‖ * |((coord v 3).val : ℝ)|) / ‖axisOf m i.castSucc‖ +
        |((coord v 3).val : ℝ)| / 2 ^ 74 + 1 / 2 ^ 147) := by
  obtain ⟨a0, b0, c0⟩ := h.entry_linear i 0
  obtain ⟨a1, b1, c1⟩ := h.entry_linear i 1
  obtain ⟨a2, b2, c2⟩ := h.entry_linear i 2
  obtain ⟨a3, b3, c3⟩ := h.entry_translation i
  have p := h.pos i
  have l := h.box.low i
  have f := h.far
  have f0 := norm_nonneg (axisOf m 3)
  have r1 : 1 / ‖axisOf m i.castSucc‖ ≤ 2 ^ 16 := by
    rw [div_le_iff₀ p]
    linarith
  have r0 : 0 < 1 / ‖axisOf m i.castSucc‖ := by positivity
  have k1 : ‖axisOf m 3‖ / ‖axisOf m i.castSucc‖ = ‖axisOf m 3‖ * (1 / ‖axisOf m i.castSucc‖) := by ring
  rw [k1] at b3 c3
  have k2 : ∀ y, y / ‖axisOf m i.castSucc‖ = y * (1 / ‖axisOf m i.castSucc‖) := fun y => by ring
  rw [k2]
  generalize 1 / ‖axisOf m i.castSucc‖ = R at *
  generalize ‖axisOf m 3‖ = N at *
  set s0 := |((coord v 0).val : ℝ)|
  set s1 := |((coord v 1).val : ℝ)|
  set s2 := |((coord v 2).val : ℝ)|
  set s3 := |((coord v 3).val : ℝ)|
  have z0 : 0 ≤ s0 := abs_nonneg _
  have z1 : 0 ≤ s1 := abs_nonneg _
  have z2 : 0 ≤ s2 := abs_nonneg _
  have z3 : 0 ≤ s3 := abs_nonneg _
  have NR : N * R ≤ 2 ^ 36 := by
    refine (mul_le_mul f r1 r0.le (by norm_num)).trans (by norm_num)
  have NR0 : 0 ≤ N * R := by positivity
  have SR : S * R ≤ 2 ^ 76 := by
    have S0 : 0 ≤ S := by linarith
    refine (mul_le_mul S1 r1 r0.le (by norm_num)).trans (by norm_num)
  have SR' : (s0 + s1 + s2) * R ≤ S * R := mul_le_mul_of_nonneg_right hS r0.le
  have hT : ∑ j, (![1.00021 * R, 1.00021 * R, 1.00021 * R, 1.7326 * (N * R)] j + ![55.6 / 2 ^ 24 * R, 55.6 / 2 ^ 24 * R, 55.6 / 2 ^ 24 * R, 96.2 / 2 ^ 24 * (N * R) + 1 / 2 ^ 75] j) *
      |((coord v j).val : ℝ)| = (1.00021 + 55.6 / 2 ^ 24) * ((s0 + s1 + s2) * R) + ((1.7326 + 96.2 / 2 ^ 24) * (N * R) + 1 / 2 ^ 75) * s3 := by
    simp only [Fin.sum_univ_four, Matrix.cons_val]
    ring
  have w3 : N * R * s3 ≤ 2 ^ 36 * 2 := mul_le_mul NR w1 z3 (by norm_num)
  have near := near_perturbed le_rfl (C81_mat4_vec (M4.inverse m) v i.castSucc) (fun c => by fin_cases c <;> assumption) fv
    (b := fun j => ((exactMat m)⁻¹ i.castSucc j : ℝ))
    (p := ![1.00021 * R, 1.00021 * R, 1.00021 * R, 1.7326 * (N * R)])
    (e := ![55.6 / 2 ^ 24 * R, 55.6 / 2 ^ 24 * R, 55.6 / 2 ^ 24 * R, 96.2 / 2 ^ 24 * (N * R) + 1 / 2 ^ 75])
    (fun j => by fin_cases j <;> assumption) (fun j => by fin_cases j <;> assumption)
    (by
      rw [hT]
      have t : (1.00021 + 55.6 / 2 ^ 24) * (2 ^ 76 : ℝ) + (1.7326 + 96.2 / 2 ^ 24) * (2 ^ 36 * 2) + 1 / 2 ^ 75 * 2 ≤ 2 ^ 126 := by norm_num
      nlinarith)
  refine ⟨near.1, near.2.trans ?_⟩
  have e : ∑ j, (![55.6 / 2 ^ 24 * R, 55.6 / 2 ^ 24 * R, 55.6 / 2 ^ 24 * R, 96.2 / 2 ^ 24 * (N * R) + 1 / 2 ^ 75] j +
      4.001 / 2 ^ 24 * (![1.00021 * R, 1.00021 * R, 1.00021 * R, 1.7326 * (N * R)] j + ![55.6 / 2 ^ 24 * R, 55.6 / 2 ^ 24 * R, 55.6 / 2 ^ 24 * R, 96.2 / 2 ^ 24 * (N * R) + 1 / 2 ^ 75] j)) *
      |((coord v j).val : ℝ)| = (55.6 / 2 ^ 24 + 4.001 / 2 ^ 24 * (1.00021 + 55.6 / 2 ^ 24)) * ((s0 + s1 + s2) * R) +
      (96.2 / 2 ^ 24 + 4.001 / 2 ^ 24 * (1.7326 + 96.2 / 2 ^ 24)) * (N * R * s3) + (1 + 4.001 / 2 ^ 24) * s3 / 2 ^ 75 := by
    simp only [Fin.sum_univ_four, Matrix.cons_val]
    ring
  rw [e]
  have w0 : 0 ≤ N * R * s3 := by positivity
  have u0 : 0 ≤ (s0 + s1 + s2) * R := by positivity
  nlinarith

/-- The computed inverse applied to any vector: coordinate 3. -/
theorem Transform.apply_last (h : Transform m) {v : V4 F32} (fv : ∀ i, (coord v i).IsFin = true) {S : ℝ}
    (hS : |((coord v 0).val : ℝ)| + |((coord v 1).val : ℝ)| + |((coord v 2).val : ℝ)| ≤ S) (S1 : S ≤ 2 ^ 60)
    (w1 : |((coord v 3).val : ℝ)| ≤ 2) :
    Near (coord (M4.inverse m * v) 3) (∑ j, ((exactMat m)⁻¹ 3 j : ℝ) * (coord v j).val)
      (S / 2 ^ 74 + 103.2 / 2 ^ 24 * |((coord v 3).val : ℝ)| + 1 / 2 ^ 147) := by
  obtain ⟨a0, b0, c0⟩ := h.entry_last 0
  obtain ⟨a1, b1, c1⟩ := h.entry_last 1
  obtain ⟨a2, b2, c2⟩ := h.entry_last 2
  obtain ⟨a3, b3, c3⟩ := h.entry_corner
  set s0 := |((coord v 0).val : ℝ)|
  set s1 := |((coord v 1).val : ℝ)|
  set s2 := |((coord v 2).val : ℝ)|
  set s3 := |((coord v 3).val : ℝ)|
  have z0 : 0 ≤ s0 := abs_nonneg _
  have z1 : 0 ≤ s1 := abs_nonneg _
  have z2 : 0 ≤ s2 := abs_nonneg _
  have z3 : 0 ≤ s3 := abs_nonneg _
  have hT : ∑ j, (![(0 : ℝ), 0, 0, 1.7326] j + ![1 / 2 ^ 75, 1 / 2 ^ 75, 1 / 2 ^ 75, 96.2 / 2 ^ 24] j) *
      |((coord v j).val : ℝ)| = 1 / 2 ^ 75 * (s0 + s1 + s2) + (1.7326 + 96.2 / 2 ^ 24) * s3 := by
    simp only [Fin.sum_univ_four, Matrix.cons_val]
    ring
  have near := near_perturbed le_rfl (C81_mat4_vec (M4.inverse m) v 3) (fun c => by fin_cases c <;> assumption) fv
    (b := fun j => ((exactMat m)⁻¹ 3 j : ℝ)) (p := ![(0 : ℝ), 0, 0, 1.7326]) (e := ![1 / 2 ^ 75, 1 / 2 ^ 75, 1 / 2 ^ 75, 96.2 / 2 ^ 24])
    (fun j => by fin_cases j <;> assumption) (fun j => by fin_cases j <;> assumption)
    (by
      rw [hT]
      have t : 1 / 2 ^ 75 * (2 ^ 60 : ℝ) + (1.7326 + 96.2 / 2 ^ 24) * 2 ≤ 2 ^ 126 := by norm_num
      linarith)
  refine ⟨near.1, near.2.trans ?_⟩
  have e : ∑ j, (![(1 / 2 ^ 75 : ℝ), 1 / 2 ^ 75, 1 / 2 ^ 75, 96.2 / 2 ^ 24] j +
      4.001 / 2 ^ 24 * (![(0 : ℝ), 0, 0, 1.7326] j + ![1 / 2 ^ 75, 1 / 2 ^ 75, 1 / 2 ^ 75, 96.2 / 2 ^ 24] j)) *
      |((coord v j).val : ℝ)| = (1 / 2 ^ 75 + 4.001 / 2 ^ 24 * (1 / 2 ^ 75)) * (s0 + s1 + s2) +
      (96.2 / 2 ^ 24 + 4.001 / 2 ^ 24 * (1.7326 + 96.2 / 2 ^ 24)) * s3 := by
    simp only [Fin.sum_univ_four, Matrix.cons_val]
    ring
  rw [e]
  linarith

theorem placed_apply (m : M4 F32) (x : Fin 3 → ℝ) (r : Fin 3) :
    placed m x r = axisOf m 3 r + (x 0 * axisOf m 0 r + x 1 * axisOf m 1 r + x 2 * axisOf m 2 r) := by
  simp [placed, Fin.sum_univ_three]

/-- the exact local coordinates of a homogeneous vector -/
theorem Transform.local_coords (h : Transform m) {v : Fin 4 → ℝ} {x : Fin 3 → ℝ} {w : ℝ}
    (hv : ∀ r : Fin 3, v r.castSucc = w * axisOf m 3 r + (x 0 * axisOf m 0 r + x 1 * axisOf m 1 r + x 2 * axisOf m 2 r)) (hw : v 3 = w) :
    (∀ i : Fin 3, ∑ j, ((exactMat m)⁻¹ i.castSucc j : ℝ) * v j = x i) ∧ ∑ j, ((exactMat m)⁻¹ 3 j : ℝ) * v j = w := by
  have l0 : (entry m 0 3).val = 0 := h.last 0
  have l1 : (entry m 1 3).val = 0 := h.last 1
  have l2 : (entry m 2 3).val = 0 := h.last 2
  have l3 := h.one
  have k := exact_inverse h.det_ne (v := v) (y := ![x 0, x 1, x 2, w]) (fun r => by
    rw [Fin.sum_univ_four]
    simp only [exactMat, Matrix.of_apply, Matrix.cons_val]
    rcases Fin.eq_castSucc_or_eq_last r with ⟨r, rfl⟩ | rfl
    · rw [hv r]
      simp only [axisOf_apply]
      ring
    · rw [show Fin.last 3 = 3 from rfl, hw, l0, l1, l2, l3]
      simp)
  exact ⟨fun i => by fin_cases i; exacts [k 0, k 1, k 2], k 3⟩

/-- the exact image of a homogeneous vector, rows 0 to 2 -/
noncomputable def imageOf (m : M4 F32) (v : Fin 4 → ℝ) : Space :=
  toLp 2 fun r => v 0 * axisOf m 0 r + v 1 * axisOf m 1 r + v 2 * axisOf m 2 r + v 3 * axisOf m 3 r

/-- `m * v` in float arithmetic -/
theorem Transform.forward (h : Transform m) {v : V4 F32} (fv : ∀ i, (coord v i).IsFin = true) {L : ℝ}
    (hL : ∑ c : Fin 3, ‖axisOf m c.castSucc‖ * |((coord v c.castSucc).val : ℝ)| + ‖axisOf m 3‖ * |((coord v 3).val : ℝ)| ≤ L) (L1 : L ≤ 2 ^ 100)
    (w1 : |((coord v 3).val : ℝ)| ≤ 2) :
    (∀ r : Fin 3, Near (coord (m * v) r.castSucc) (imageOf m (fun j => ((coord v j).val : ℝ)) r) (4.001 / 2 ^ 24 * L + 1 / 2 ^ 147)) ∧
    Near (coord (m * v) 3) (coord v 3).val (4.001 / 2 ^ 24 * |((coord v 3).val : ℝ)| + 1 / 2 ^ 147) := by
  have l0 : (entry m 0 3).val = 0 := h.last 0
  have l1 : (entry m 1 3).val = 0 := h.last 1
  have l2 : (entry m 2 3).val = 0 := h.last 2
  constructor
  · intro r
    have t : ∑ c, |((entry m c r.castSucc).val : ℝ) * (coord v c).val| ≤ L := by
      refine le_trans ?_ hL
      rw [Fin.sum_univ_castSucc]
      refine add_le_add (Finset.sum_le_sum fun c _ => ?_) ?_
      · rw [abs_mul]
        exact mul_le_mul_of_nonneg_right (coord_le_norm3 (axisOf m c.castSucc) r) (abs_nonneg _)
      · rw [abs_mul]
        exact mul_le_mul_of_nonneg_right (coord_le_norm3 (axisOf m 3) r) (abs_nonneg _)
    obtain ⟨f, g⟩ := accurate_real (C81_mat4_vec m v r.castSucc) le_rfl (fun c => h.fin c _) fv t (L1.trans (by norm_num))
    refine ⟨f, le_trans (le_of_eq ?_) g⟩
    congr 2
    rw [Fin.sum_univ_four]
    simp only [imageOf, axisOf_apply]
    ring
  · have e : ∑ c, ((entry m c 3).val : ℝ) * (coord v c).val = (coord v 3).val := by
      rw [Fin.sum_univ_four, l0, l1, l2, h.one]
      simp
    have t : ∑ c, |((entry m c 3).val : ℝ) * (coord v c).val| ≤ |((coord v 3).val : ℝ)| := by
      rw [Fin.sum_univ_four, l0, l1, l2, h.one]
      simp
    have := accurate_real (C81_mat4_vec m v 3) le_rfl (fun c => h.fin c _) fv t (w1.trans (by norm_num))
    rwa [e] at this

theorem imageOf_norm (m : M4 F32) (v : Fin 4 → ℝ) :
    ‖imageOf m v‖ ≤ ∑ c : Fin 3, ‖axisOf m c.castSucc‖ * |v c.castSucc| + ‖axisOf m 3‖ * |v 3| := by
  have e : imageOf m v = v 0 • axisOf m 0 + v 1 • axisOf m 1 + v 2 • axisOf m 2 + v 3 • axisOf m 3 := by
    ext r; simp [imageOf]
  rw [e, Fin.sum_univ_three]
  refine (norm_add_le _ _).trans (add_le_add ((norm_add_le _ _).trans (add_le_add ((norm_add_le _ _).trans (add_le_add ?_ ?_)) ?_)) ?_) <;>
    exact le_of_eq ((norm_smul _ _).trans (mul_comm _ _))

/-- the exact inverse applied to two vectors that are close -/
theorem Transform.inverse_shift (h : Transform m) {v v' : Fin 4 → ℝ} {d w : ℝ} (hd : ∀ r : Fin 3, |v r.castSucc - v' r.castSucc| ≤ d)
    (hw : |v 3 - v' 3| ≤ w) :
    (∀ i : Fin 3, |∑ j, ((exactMat m)⁻¹ i.castSucc j : ℝ) * v j - ∑ j, ((exactMat m)⁻¹ i.castSucc j : ℝ) * v' j| ≤
      (3.0007 * d + 1.7326 * ‖axisOf m 3‖ * w) / ‖axisOf m i.castSucc‖) ∧
    |∑ j, ((exactMat m)⁻¹ 3 j : ℝ) * v j - ∑ j, ((exactMat m)⁻¹ 3 j : ℝ) * v' j| ≤ 1.7326 * w := by
  have d0 : 0 ≤ d := (abs_nonneg _).trans (hd 0)
  have w0 : 0 ≤ w := (abs_nonneg _).trans hw
  have key : ∀ i, |∑ j, ((exactMat m)⁻¹ i j : ℝ) * v j - ∑ j, ((exactMat m)⁻¹ i j : ℝ) * v' j| ≤
      ∑ j : Fin 3, |((exactMat m)⁻¹ i j.castSucc : ℝ)| * d + |((exactMat m)⁻¹ i 3 : ℝ)| * w := by
    intro i
    rw [← Finset.sum_sub_distrib]
    refine (Finset.abs_sum_le_sum_abs _ _).trans ?_
    rw [Fin.sum_univ_castSucc]
    refine add_le_add (Finset.sum_le_sum fun j _ => ?_) ?_
    · rw [← mul_sub, abs_mul]
      exact mul_le_mul_of_nonneg_left (hd j) (abs_nonneg _)
    · rw [← mul_sub, abs_mul]
      exact mul_le_mul_of_nonneg_left hw (abs_nonneg _)
  constructor
  · intro i
    refine (key i.castSucc).trans ?_
    have c0 := mul_le_mul_of_nonneg_right (h.entry_linear i 0).2.2 d0
    have c1 := mul_le_mul_of_nonneg_right (h.entry_linear i 1).2.2 d0
    have c2 := mul_le_mul_of_nonneg_right (h.entry_linear i 2).2.2 d0
    have c3 := mul_le_mul_of_nonneg_right (h.entry_translation i).2.2 w0
    rw [Fin.sum_univ_three]
    refine (add_le_add (add_le_add (add_le_add c0 c1) c2) c3).trans ?_
    have p := h.pos i
    rw [le_div_iff₀ p]
    field_simp
    nlinarith
  · refine (key 3).trans ?_
    have c0 := mul_le_mul_of_nonneg_right (h.entry_last 0).2.2 d0
    have c1 := mul_le_mul_of_nonneg_right (h.entry_last 1).2.2 d0
    have c2 := mul_le_mul_of_nonneg_right (h.entry_last 2).2.2 d0
    have c3 := mul_le_mul_of_nonneg_right h.entry_corner.2.2 w0
    rw [Fin.sum_univ_three]
    linarith

end

end Zcm
