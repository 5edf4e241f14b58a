import Verif.Lemmas.F32Det
import Verif.Spec.Transform

/-!
# Inverting transforms in float arithmetic
-/

set_option exponentiation.threshold 300

namespace Zcm

open WithLp F32
open scoped RealInnerProductSpace

/-- two products crosswise are at most the product of the lengths -/
theorem crosswise_le (b c : Space) {r s : Fin 3} (h : r ≠ s) : |b r| * |c s| + |b s| * |c r| ≤ ‖b‖ * ‖c‖ := by
  have hb := EuclideanSpace.norm_sq_eq b
  have hc := EuclideanSpace.norm_sq_eq c
  simp only [Fin.sum_univ_three, Real.norm_eq_abs] at hb hc
  have key : ∀ {p q : ℝ} {b0 b1 b2 c0 c1 c2 : ℝ}, 0 ≤ p → 0 ≤ q → p ^ 2 = b0 ^ 2 + b1 ^ 2 + b2 ^ 2 → q ^ 2 = c0 ^ 2 + c1 ^ 2 + c2 ^ 2 →
      b0 * c1 + b1 * c0 ≤ p * q := by
    intro p q b0 b1 b2 c0 c1 c2 p0 q0 hp hq
    refine le_of_sq_le_sq ?_ (by positivity)
    rw [mul_pow, hp, hq]
    nlinarith [sq_nonneg (b0 * c0 - b1 * c1), sq_nonneg (b0 * c2), sq_nonneg (b1 * c2), sq_nonneg (b2 * c0), sq_nonneg (b2 * c1), sq_nonneg (b2 * c2)]
  fin_cases r <;> fin_cases s <;> first | exact absurd rfl h | skip
  all_goals simp only [Fin.zero_eta, Fin.mk_one, Fin.reduceFinMk]
  · exact key (norm_nonneg _) (norm_nonneg _) hb hc
  · exact key (b2 := |b 1|) (c2 := |c 1|) (norm_nonneg _) (norm_nonneg _) (by linarith) (by linarith)
  · exact key (b2 := |b 2|) (c2 := |c 2|) (norm_nonneg _) (norm_nonneg _) (by linarith) (by linarith)
  · exact key (b2 := |b 0|) (c2 := |c 0|) (norm_nonneg _) (norm_nonneg _) (by linarith) (by linarith)
  · exact key (b2 := |b 1|) (c2 := |c 1|) (norm_nonneg _) (norm_nonneg _) (by linarith) (by linarith)
  · exact key (b2 := |b 0|) (c2 := |c 0|) (norm_nonneg _) (norm_nonneg _) (by linarith) (by linarith)

/-- sum of magnitudes of coordinates -/
theorem sum_abs_le_norm (a : Space) : |a 0| + |a 1| + |a 2| ≤ 1.7321 * ‖a‖ := by
  have ha := EuclideanSpace.norm_sq_eq a
  simp only [Fin.sum_univ_three, Real.norm_eq_abs] at ha
  refine le_of_sq_le_sq ?_ (by positivity)
  rw [mul_pow, ha]
  nlinarith [sq_nonneg (|a 0| - |a 1|), sq_nonneg (|a 0| - |a 2|), sq_nonneg (|a 1| - |a 2|), sq_nonneg (|a 0|), sq_nonneg (|a 1|), sq_nonneg (|a 2|)]

/-- the six terms of a triple product are at most √3 times the product of the lengths -/
theorem triple_terms_le (a b c : Space) :
    |a 0| * (|b 1| * |c 2| + |b 2| * |c 1|) + |a 1| * (|b 0| * |c 2| + |b 2| * |c 0|) + |a 2| * (|b 0| * |c 1| + |b 1| * |c 0|) ≤
      1.7321 * (‖a‖ * ‖b‖ * ‖c‖) := by
  have h1 := mul_le_mul_of_nonneg_left (crosswise_le b c (r := 1) (s := 2) (by decide)) (abs_nonneg (a 0))
  have h2 := mul_le_mul_of_nonneg_left (crosswise_le b c (r := 0) (s := 2) (by decide)) (abs_nonneg (a 1))
  have h3 := mul_le_mul_of_nonneg_left (crosswise_le b c (r := 0) (s := 1) (by decide)) (abs_nonneg (a 2))
  have h4 := mul_le_mul_of_nonneg_right (sum_abs_le_norm a) (mul_nonneg (norm_nonneg b) (norm_nonneg c))
  linarith

/-- the triple product -/
noncomputable def triple (a b c : Space) : ℝ :=
  a 0 * (b 1 * c 2 - b 2 * c 1) - a 1 * (b 0 * c 2 - b 2 * c 0) + a 2 * (b 0 * c 1 - b 1 * c 0)

/-- the volume of a box with nearly perpendicular sides -/
theorem triple_ge {a b c : Space} (h1 : |⟪a, b⟫| ≤ 1 / 100 * (‖a‖ * ‖b‖)) (h2 : |⟪a, c⟫| ≤ 1 / 100 * (‖a‖ * ‖c‖))
    (h3 : |⟪b, c⟫| ≤ 1 / 100 * (‖b‖ * ‖c‖)) : 0.9998 * (‖a‖ * ‖b‖ * ‖c‖) ≤ |triple a b c| := by
  have ha := EuclideanSpace.norm_sq_eq a
  have hb := EuclideanSpace.norm_sq_eq b
  have hc := EuclideanSpace.norm_sq_eq c
  simp only [Fin.sum_univ_three, Real.norm_eq_abs, sq_abs] at ha hb hc
  have i1 : ⟪a, b⟫ = a 0 * b 0 + a 1 * b 1 + a 2 * b 2 := by
    rw [PiLp.inner_apply, Fin.sum_univ_three]; simp [mul_comm]
  have i2 : ⟪a, c⟫ = a 0 * c 0 + a 1 * c 1 + a 2 * c 2 := by
    rw [PiLp.inner_apply, Fin.sum_univ_three]; simp [mul_comm]
  have i3 : ⟪b, c⟫ = b 0 * c 0 + b 1 * c 1 + b 2 * c 2 := by
    rw [PiLp.inner_apply, Fin.sum_univ_three]; simp [mul_comm]
  have gram : triple a b c ^ 2 = ‖a‖ ^ 2 * ‖b‖ ^ 2 * ‖c‖ ^ 2 + 2 * (⟪a, b⟫ * ⟪a, c⟫ * ⟪b, c⟫) - ‖a‖ ^ 2 * ⟪b, c⟫ ^ 2 -
      ‖b‖ ^ 2 * ⟪a, c⟫ ^ 2 - ‖c‖ ^ 2 * ⟪a, b⟫ ^ 2 := by
    rw [ha, hb, hc, i1, i2, i3]
    unfold triple
    ring
  have A := norm_nonneg a
  have B := norm_nonneg b
  have C := norm_nonneg c
  generalize ‖a‖ = A' at *
  generalize ‖b‖ = B' at *
  generalize ‖c‖ = C' at *
  generalize ⟪a, b⟫ = x at *
  generalize ⟪a, c⟫ = y at *
  generalize ⟪b, c⟫ = z at *
  have x2 : x ^ 2 ≤ (1 / 100 * (A' * B')) ^ 2 := sq_le_sq.2 (h1.trans (le_abs_self _))
  have y2 : y ^ 2 ≤ (1 / 100 * (A' * C')) ^ 2 := sq_le_sq.2 (h2.trans (le_abs_self _))
  have z2 : z ^ 2 ≤ (1 / 100 * (B' * C')) ^ 2 := sq_le_sq.2 (h3.trans (le_abs_self _))
  have p : |x * y * z| ≤ 1 / 100 * (A' * B') * (1 / 100 * (A' * C')) * (1 / 100 * (B' * C')) := by
    rw [abs_mul, abs_mul]
    gcongr
  have p' := (abs_le.1 p).1
  have q1 := mul_le_mul_of_nonneg_left z2 (sq_nonneg A')
  have q2 := mul_le_mul_of_nonneg_left y2 (sq_nonneg B')
  have q3 := mul_le_mul_of_nonneg_left x2 (sq_nonneg C')
  rw [← abs_of_nonneg (show 0 ≤ 0.9998 * (A' * B' * C') by positivity)]
  refine sq_le_sq.1 ?_
  rw [gram]
  have : 0 ≤ A' ^ 2 * B' ^ 2 * C' ^ 2 := by positivity
  nlinarith

theorem termSize_nonneg {n : ℕ} (A : Matrix (Fin n) (Fin n) ℚ) : 0 ≤ termSize A :=
  Finset.sum_nonneg fun _ _ => Finset.prod_nonneg fun _ _ => abs_nonneg _

theorem minorSize_nonneg {n : ℕ} (A : Matrix (Fin (n + 1)) (Fin (n + 1)) ℚ) (i j : Fin (n + 1)) : 0 ≤ minorSize A i j :=
  termSize_nonneg _

/-- an entry of the inverse is at most the quotient of the sizes -/
theorem inv_le_of_minor {n : ℕ} {A : Matrix (Fin (n + 1)) (Fin (n + 1)) ℚ} {i j : Fin (n + 1)} {V q : ℝ} (V0 : 0 < V)
    (ha : |A.adjugate i j| ≤ minorSize A i j) (hD : 0.9998 * V ≤ ((|A.det| : ℚ) : ℝ)) (hq : ((minorSize A i j : ℚ) : ℝ) ≤ q * V) :
    |((A⁻¹ i j : ℚ) : ℝ)| ≤ 1.00021 * q := by
  have ha' := ((Rat.cast_le (K := ℝ)).2 ha).trans hq
  rw [inv_apply, ← Rat.cast_abs, abs_div, Rat.cast_div]
  have D0 : 0 < ((|A.det| : ℚ) : ℝ) := lt_of_lt_of_le (by positivity) hD
  have q0 : 0 ≤ q := by
    have : (0 : ℝ) ≤ ((|A.adjugate i j| : ℚ) : ℝ) := by exact_mod_cast abs_nonneg (A.adjugate i j)
    by_contra hq'
    nlinarith
  rw [div_le_iff₀ D0]
  nlinarith

/-- the error of an entry of the inverse, for a matrix whose determinant hardly cancels; `V` is the volume of the box -/
theorem inverse_entry_real {n : ℕ} {A : Matrix (Fin (n + 1)) (Fin (n + 1)) ℚ} {i j : Fin (n + 1)} {x : F32} {V q : ℝ}
    (h : InverseEntry A (2 ^ 20) i j x) (hV : 1 / 2 ^ 48 ≤ V) (hT : ((termSize A : ℚ) : ℝ) ≤ 1.7321 * V)
    (hD : 0.9998 * V ≤ ((|A.det| : ℚ) : ℝ)) (hq : ((minorSize A i j : ℚ) : ℝ) ≤ q * V) :
    |(x.val : ℝ) - (A⁻¹ i j : ℚ)| ≤ 55.5 / 2 ^ 24 * q + 1 / 2 ^ 75 := by
  have e : |(x.val : ℝ) - (A⁻¹ i j : ℚ)| ≤ ((termSize A / |A.det| * (minorSize A i j / |A.det|) / 2 ^ 19 + 2 ^ 20 / |A.det| / 2 ^ 145 +
      1 / 2 ^ 150 : ℚ) : ℝ) := by
    have := (Rat.cast_le (K := ℝ)).2 h.2
    refine le_trans (le_of_eq ?_) this
    push_cast
    rfl
  refine e.trans ?_
  rw [Rat.cast_add, Rat.cast_add, Rat.cast_div, Rat.cast_mul, Rat.cast_div, Rat.cast_div, Rat.cast_div, Rat.cast_div]
  have T0 : (0 : ℝ) ≤ ((termSize A : ℚ) : ℝ) := by exact_mod_cast termSize_nonneg A
  have M0 : (0 : ℝ) ≤ ((minorSize A i j : ℚ) : ℝ) := by exact_mod_cast minorSize_nonneg A i j
  generalize ((termSize A : ℚ) : ℝ) = T at *
  generalize ((minorSize A i j : ℚ) : ℝ) = M at *
  generalize ((|A.det| : ℚ) : ℝ) = D at *
  have V0 : 0 < V := lt_of_lt_of_le (by norm_num) hV
  have D0 : 0 < D := lt_of_lt_of_le (by positivity) hD
  have q0 : 0 ≤ q := by
    by_contra hq'
    nlinarith
  have k1 : T / D ≤ 1.7325 := by rw [div_le_iff₀ D0]; linarith
  have k2 : M / D ≤ 1.00021 * q := by rw [div_le_iff₀ D0]; nlinarith
  have k3 : 2 ^ 20 / D ≤ 2 ^ 69 := by
    rw [div_le_iff₀ D0]
    nlinarith
  have k4 : T / D * (M / D) ≤ 1.7325 * (1.00021 * q) := mul_le_mul k1 k2 (by positivity) (by norm_num)
  push_cast
  have t1 : (2 : ℝ) ^ 69 / 2 ^ 145 + 1 / 2 ^ 150 ≤ 1 / 2 ^ 75 := by norm_num
  have k5 : 2 ^ 20 / D / 2 ^ 145 ≤ 2 ^ 69 / 2 ^ 145 := by gcongr
  have k6 : T / D * (M / D) / 2 ^ 19 ≤ 1.7325 * (1.00021 * q) / 2 ^ 19 := by gcongr
  have k7 : 1.7325 * (1.00021 * q) / 2 ^ 19 ≤ 55.5 / 2 ^ 24 * q := by nlinarith
  linarith

section

variable {m : M4 F32}

theorem axisOf_apply (m : M4 F32) (c : Fin 4) (r : Fin 3) : axisOf m c r = ((entry m c r.castSucc).val : ℝ) := rfl

theorem Transform.det (h : Transform m) : ((exactMat m).det : ℝ) = triple (axisOf m 0) (axisOf m 1) (axisOf m 2) := by
  have l0 : (entry m 0 3).val = 0 := h.last 0
  have l1 : (entry m 1 3).val = 0 := h.last 1
  have l2 : (entry m 2 3).val = 0 := h.last 2
  have l3 := h.one
  unfold triple
  simp only [axisOf_apply]
  simp [Matrix.det_succ_row_zero, Fin.sum_univ_succ, Fin.succAbove, exactMat, l0, l1, l2, l3]
  ring

theorem Transform.termSize_le (h : Transform m) : ((termSize (exactMat m) : ℚ) : ℝ) ≤ 1.7321 * (‖axisOf m 0‖ * ‖axisOf m 1‖ * ‖axisOf m 2‖) := by
  refine le_trans (le_of_eq ?_) (triple_terms_le (axisOf m 0) (axisOf m 1) (axisOf m 2))
  have l0 : (entry m 0 3).val = 0 := h.last 0
  have l1 : (entry m 1 3).val = 0 := h.last 1
  have l2 : (entry m 2 3).val = 0 := h.last 2
  have l3 := h.one
  simp only [axisOf_apply]
  rw [termSize_four]
  simp [termSize_three, Fin.succAbove, exactMat, l0, l1, l2, l3]

/-- the other two columns -/
theorem Transform.minorSize_linear (h : Transform m) (i j : Fin 3) :
    ((minorSize (exactMat m) i.castSucc j.castSucc : ℚ) : ℝ) * ‖axisOf m i.castSucc‖ ≤ ‖axisOf m 0‖ * ‖axisOf m 1‖ * ‖axisOf m 2‖ := by
  have l0 : (entry m 0 3).val = 0 := h.last 0
  have l1 : (entry m 1 3).val = 0 := h.last 1
  have l2 : (entry m 2 3).val = 0 := h.last 2
  have l3 := h.one
  have X := fun (c d : Fin 4) (r s : Fin 3) (h : r ≠ s) => crosswise_le (axisOf m c) (axisOf m d) h
  simp only [axisOf_apply] at X
  have x1 := X 0 1 0 1 (by decide)
  have x2 := X 0 1 0 2 (by decide)
  have x3 := X 0 1 1 2 (by decide)
  have x4 := X 0 2 0 1 (by decide)
  have x5 := X 0 2 0 2 (by decide)
  have x6 := X 0 2 1 2 (by decide)
  have x7 := X 1 2 0 1 (by decide)
  have x8 := X 1 2 0 2 (by decide)
  have x9 := X 1 2 1 2 (by decide)
  clear X
  have n0 := norm_nonneg (axisOf m 0)
  have n1 := norm_nonneg (axisOf m 1)
  have n2 := norm_nonneg (axisOf m 2)
  rw [minorSize, termSize_three]
  have key : ∀ {a b c t : ℝ}, 0 ≤ a → t ≤ b * c → t * a ≤ a * b * c := fun ha ht => by nlinarith
  fin_cases i
  · refine key n0 ?_
    fin_cases j <;> simp [Fin.succAbove, exactMat, l0, l1, l2, l3] at * <;> linarith
  · show _ * ‖axisOf m 1‖ ≤ _
    refine le_trans (key n1 (b := ‖axisOf m 0‖) (c := ‖axisOf m 2‖) ?_) (le_of_eq (by ring))
    fin_cases j <;> simp [Fin.succAbove, exactMat, l0, l1, l2, l3] at * <;> linarith
  · show _ * ‖axisOf m 2‖ ≤ _
    refine le_trans (key n2 (b := ‖axisOf m 0‖) (c := ‖axisOf m 1‖) ?_) (le_of_eq (by ring))
    fin_cases j <;> simp [Fin.succAbove, exactMat, l0, l1, l2, l3] at * <;> linarith

theorem minorSize_translation (m : M4 F32) (i : Fin 3) :
    ((minorSize (exactMat m) i.castSucc 3 : ℚ) : ℝ) * ‖axisOf m i.castSucc‖ ≤
      1.7321 * (‖axisOf m 0‖ * ‖axisOf m 1‖ * ‖axisOf m 2‖) * ‖axisOf m 3‖ := by
  have X := fun (c d : Fin 4) => triple_terms_le (axisOf m 3) (axisOf m c) (axisOf m d)
  simp only [axisOf_apply] at X
  have x1 := X 0 1
  have x2 := X 0 2
  have x3 := X 1 2
  clear X
  have n0 := norm_nonneg (axisOf m 0)
  have n1 := norm_nonneg (axisOf m 1)
  have n2 := norm_nonneg (axisOf m 2)
  rw [minorSize, termSize_three]
  have key : ∀ {a b c d t : ℝ}, 0 ≤ a → t ≤ 1.7321 * (d * b * c) → t * a ≤ 1.7321 * (a * b * c) * d := fun ha ht => by nlinarith
  fin_cases i
  · refine key n0 ?_
    refine le_trans (le_of_eq ?_) x3
    simp [Fin.succAbove, exactMat]
    ring
  · show _ * ‖axisOf m 1‖ ≤ _
    refine le_trans (key n1 (d := ‖axisOf m 3‖) (b := ‖axisOf m 0‖) (c := ‖axisOf m 2‖) ?_) (le_of_eq (by ring))
    refine le_trans (le_of_eq ?_) x2
    simp [Fin.succAbove, exactMat]
    ring
  · show _ * ‖axisOf m 2‖ ≤ _
    refine le_trans (key n2 (d := ‖axisOf m 3‖) (b := ‖axisOf m 0‖) (c := ‖axisOf m 1‖) ?_) (le_of_eq (by ring))
    refine le_trans (le_of_eq ?_) x1
    simp [Fin.succAbove, exactMat]
    ring

theorem Transform.minorSize_last (h : Transform m) (j : Fin 3) : minorSize (exactMat m) 3 j.castSucc = 0 := by
  have l0 : (entry m 0 3).val = 0 := h.last 0
  have l1 : (entry m 1 3).val = 0 := h.last 1
  have l2 : (entry m 2 3).val = 0 := h.last 2
  rw [minorSize, termSize_three]
  fin_cases j <;> simp [Fin.succAbove, exactMat, l0, l1, l2]

theorem minorSize_corner (m : M4 F32) :
    ((minorSize (exactMat m) 3 3 : ℚ) : ℝ) ≤ 1.7321 * (‖axisOf m 0‖ * ‖axisOf m 1‖ * ‖axisOf m 2‖) := by
  refine le_trans (le_of_eq ?_) (triple_terms_le (axisOf m 0) (axisOf m 1) (axisOf m 2))
  simp only [axisOf_apply]
  rw [minorSize, termSize_three]
  simp [Fin.succAbove, exactMat]

theorem Transform.det_ge (h : Transform m) : 0.9998 * (‖axisOf m 0‖ * ‖axisOf m 1‖ * ‖axisOf m 2‖) ≤ ((|(exactMat m).det| : ℚ) : ℝ) := by
  rw [Rat.cast_abs, h.det]
  exact triple_ge (h.box.ortho 0 1 (by decide)) (h.box.ortho 0 2 (by decide)) (h.box.ortho 1 2 (by decide))

theorem Transform.volume (h : Transform m) : 1 / 2 ^ 48 ≤ ‖axisOf m 0‖ * ‖axisOf m 1‖ * ‖axisOf m 2‖ := by
  have h0 := h.box.low 0
  have h1 := h.box.low 1
  have h2 := h.box.low 2
  calc (1 / 2 ^ 48 : ℝ) = 1 / 2 ^ 16 * (1 / 2 ^ 16) * (1 / 2 ^ 16) := by norm_num
    _ ≤ _ := by gcongr <;> assumption

theorem coord_le_norm3 (a : Space) (r : Fin 3) : |a r| ≤ ‖a‖ := by
  rw [← Real.norm_eq_abs]; exact PiLp.norm_apply_le a r

theorem Transform.high (h : Transform m) (c : Fin 4) : ‖axisOf m c‖ ≤ 2 ^ 20 := by
  rcases Fin.eq_castSucc_or_eq_last c with ⟨c, rfl⟩ | rfl
  · exact h.box.high c
  · exact h.far

theorem Transform.bounded (h : Transform m) : BoundedBy m (2 ^ 20) := by
  intro c r
  refine ⟨h.fin c r, ?_⟩
  rcases Fin.eq_castSucc_or_eq_last r with ⟨r, rfl⟩ | rfl
  · have := (coord_le_norm3 (axisOf m c) r).trans (h.high c)
    rw [axisOf_apply] at this
    have e : ((|(entry m c r.castSucc).val| : ℚ) : ℝ) ≤ ((2 ^ 20 : ℚ) : ℝ) := by push_cast; exact this
    exact (Rat.cast_le (K := ℝ)).1 e
  · rcases Fin.eq_castSucc_or_eq_last c with ⟨c, rfl⟩ | rfl
    · have := h.last c
      rw [show Fin.last 3 = 3 from rfl, this]
      norm_num
    · have := h.one
      rw [show Fin.last 3 = 3 from rfl, this]
      norm_num

theorem Transform.invertible (h : Transform m) : Invertible32 (exactMat m) (2 ^ 20) := by
  have d := h.det_ge
  have v := h.volume
  have t := h.termSize_le
  have k1 : ((termSize (exactMat m) : ℚ) : ℝ) ≤ 2 ^ 18 * ((|(exactMat m).det| : ℚ) : ℝ) := by linarith
  have k2 : ((2 : ℝ) ^ 20) ^ 3 ≤ 2 ^ 110 * ((|(exactMat m).det| : ℚ) : ℝ) := by
    have : (1 : ℝ) / 2 ^ 49 ≤ ((|(exactMat m).det| : ℚ) : ℝ) := by
      refine le_trans ?_ d
      refine le_trans ?_ (mul_le_mul_of_nonneg_left v (by norm_num))
      norm_num
    refine le_trans ?_ (mul_le_mul_of_nonneg_left this (by norm_num))
    norm_num
  exact ⟨by exact_mod_cast k1, by exact_mod_cast k2⟩


end

end Zcm
