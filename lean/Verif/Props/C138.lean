import Verif.Lemmas.F32Frame

/-!
# C138  Tangent frames in IEEE arithmetic

`t' = normalize(t - n * dot(n, t))` and `b = cross(n, t')`, the frame a renderer builds from a normal `n` and a rough tangent
direction `t`, computed in binary32.  `tangentOf`, `bitangentOf`, `slant` (the sine of the angle between `n` and `t`) and
`GoodTangent` are in Spec/Frame.lean.
-/

set_option exponentiation.threshold 300

namespace Zcm

open F32 NormedSpace InnerProductGeometry
open scoped RealInnerProductSpace

/-- the computed tangent -/
def tangent (n t : V3 F32) : V3 F32 := V3.normalize (t - n * V3.dot n t)

/-- the computed bitangent -/
def bitangent (n t : V3 F32) : V3 F32 := V3.cross n (tangent n t)

/-- C138, the target: the exact frame of a sensible normal and tangent direction consists of three perpendicular unit vectors, is
right-handed, and the tangent is on the side of the given direction. -/
theorem C138_exact (n t : V3 F32) (h : GoodTangent n t) :
    ‖normalize (exactly n)‖ = 1 ∧ ‖tangentOf (normalize (exactly n)) (exactly t)‖ = 1 ∧
    ‖bitangentOf (normalize (exactly n)) (exactly t)‖ = 1 ∧
    ⟪normalize (exactly n), tangentOf (normalize (exactly n)) (exactly t)⟫ = 0 ∧
    ⟪normalize (exactly n), bitangentOf (normalize (exactly n)) (exactly t)⟫ = 0 ∧
    ⟪tangentOf (normalize (exactly n)) (exactly t), bitangentOf (normalize (exactly n)) (exactly t)⟫ = 0 ∧
    ⟪cross3 (tangentOf (normalize (exactly n)) (exactly t)) (bitangentOf (normalize (exactly n)) (exactly t)),
      normalize (exactly n)⟫ = 1 ∧
    0 < ⟪tangentOf (normalize (exactly n)) (exactly t), exactly t⟫ := by
  obtain ⟨hN, -, r⟩ := h.facts
  have s := h.slant_ge
  have l := h.t_ge
  have p : 0 < ‖exactly t‖ * slant (exactly n) (exactly t) :=
    mul_pos (lt_of_lt_of_le (by norm_num) l) (lt_of_lt_of_le (by norm_num) s)
  rw [← r] at p
  exact ⟨hN, frame_exact hN (norm_pos_iff.1 p)⟩

/-- C138, `normalize(t - n * dot(n, t))` is finite and within `83 / 2^24`, divided by the sine of the angle between `n` and `t`,
of the exact tangent. -/
theorem C138_tangent (n t : V3 F32) (h : GoodTangent n t) :
    (∀ i, (coord (tangent n t) i).IsFin = true) ∧
    ‖exactly (tangent n t) - tangentOf (normalize (exactly n)) (exactly t)‖ ≤ 83 / 2 ^ 24 / slant (exactly n) (exactly t) := by
  obtain ⟨hN, -, r⟩ := h.facts
  have w := near_reject h
  have s := h.slant_ge
  have s1 : slant (exactly n) (exactly t) ≤ 1 := Real.sin_le_one _
  have l := h.t_ge
  have u := h.t_le
  have L0 : 0 < ‖exactly t‖ := lt_of_lt_of_le (by norm_num) l
  have s0 : 0 < slant (exactly n) (exactly t) := lt_of_lt_of_le (by norm_num) s
  have lo : 1 / 2 ^ 30 * (1 / 2 ^ 12) ≤ ‖exactly t‖ * slant (exactly n) (exactly t) := by gcongr
  have hi : ‖exactly t‖ * slant (exactly n) (exactly t) ≤ 2 ^ 60 * 1 := by gcongr
  have q : 38.3 / 2 ^ 24 * ‖exactly t‖ ≤ ‖exactly t‖ * slant (exactly n) (exactly t) / 4 := by
    rw [mul_comm, mul_div_assoc]
    refine mul_le_mul_of_nonneg_left ?_ L0.le
    norm_num at s ⊢
    linarith
  have m := w.normalize (by rw [r]; norm_num at lo ⊢; linarith) (by rw [r]; norm_num at hi ⊢; linarith) (by rw [r]; exact q)
  refine ⟨m.1, m.2.trans ?_⟩
  rw [r]
  have : 2 * (38.3 / 2 ^ 24 * ‖exactly t‖) / (‖exactly t‖ * slant (exactly n) (exactly t)) =
      76.6 / 2 ^ 24 / slant (exactly n) (exactly t) := by
    field_simp
    norm_num
  rw [this, le_div_iff₀ s0, add_mul, div_mul_cancel₀ _ s0.ne']
  norm_num at s1 ⊢
  linarith

/-- C138, `cross(n, t')` is finite and within `105 / 2^24`, divided by that sine, of the exact bitangent. -/
theorem C138_bitangent (n t : V3 F32) (h : GoodTangent n t) :
    (∀ i, (coord (bitangent n t) i).IsFin = true) ∧
    ‖exactly (bitangent n t) - bitangentOf (normalize (exactly n)) (exactly t)‖ ≤ 105 / 2 ^ 24 / slant (exactly n) (exactly t) := by
  obtain ⟨hN, e, -⟩ := h.facts
  have ex := C138_exact n t h
  have a : NearV n (normalize (exactly n)) (1 / 2 ^ 20) := by
    refine ⟨fun i => (h.fin i).1, ?_⟩
    have d : exactly n - normalize (exactly n) = (‖exactly n‖ - 1) • normalize (exactly n) := by
      rw [sub_smul, one_smul, ← e]
    rw [d, norm_smul, hN, mul_one, Real.norm_eq_abs]
    exact h.unit
  have b : NearV (tangent n t) (tangentOf (normalize (exactly n)) (exactly t)) (83 / 2 ^ 24 / slant (exactly n) (exactly t)) :=
    C138_tangent n t h
  have s := h.slant_ge
  have s1 : slant (exactly n) (exactly t) ≤ 1 := Real.sin_le_one _
  have s0 : 0 < slant (exactly n) (exactly t) := lt_of_lt_of_le (by norm_num) s
  have f : 83 / 2 ^ 24 / slant (exactly n) (exactly t) ≤ 0.021 := by
    rw [div_le_iff₀ s0]
    norm_num at s ⊢
    linarith
  have c := a.cross b (A := 1 + 1 / 2 ^ 20) (B := 1.021) (by rw [hN]) (by rw [ex.2.1]; norm_num at f ⊢; linarith) (by norm_num)
  refine ⟨c.1, c.2.trans ?_⟩
  rw [ex.2.1, le_div_iff₀ s0, add_mul, mul_assoc (1 + 1 / 2 ^ 20), div_mul_cancel₀ _ s0.ne']
  norm_num at s1 ⊢
  linarith

/-- C138, so the computed vectors are almost perpendicular unit vectors. -/
theorem C138_orthonormal (n t : V3 F32) (h : GoodTangent n t) :
    abs (‖exactly (tangent n t)‖ - 1) ≤ 83 / 2 ^ 24 / slant (exactly n) (exactly t) ∧
    abs (‖exactly (bitangent n t)‖ - 1) ≤ 105 / 2 ^ 24 / slant (exactly n) (exactly t) ∧
    abs ⟪exactly n, exactly (tangent n t)⟫ ≤ 84 / 2 ^ 24 / slant (exactly n) (exactly t) ∧
    abs ⟪exactly n, exactly (bitangent n t)⟫ ≤ 106 / 2 ^ 24 / slant (exactly n) (exactly t) ∧
    abs ⟪exactly (tangent n t), exactly (bitangent n t)⟫ ≤ 192 / 2 ^ 24 / slant (exactly n) (exactly t) := by
  obtain ⟨hN, e, -⟩ := h.facts
  obtain ⟨-, hT, hB, nt, nb, tb, -, -⟩ := C138_exact n t h
  have a := (C138_tangent n t h).2
  have b := (C138_bitangent n t h).2
  have s := h.slant_ge
  have s0 : 0 < slant (exactly n) (exactly t) := lt_of_lt_of_le (by norm_num) s
  have u := (abs_le.1 h.unit).2
  have hn : ‖exactly n‖ ≤ 1.000001 := by norm_num at u ⊢; linarith
  have k0 : 0 < 1 / 2 ^ 24 / slant (exactly n) (exactly t) := by positivity
  have k1 : 1 / 2 ^ 24 / slant (exactly n) (exactly t) ≤ 1 / 2 ^ 12 := by
    rw [div_le_iff₀ s0]
    norm_num at s ⊢
    linarith
  have c : ∀ x : ℝ, x / 2 ^ 24 / slant (exactly n) (exactly t) = x * (1 / 2 ^ 24 / slant (exactly n) (exactly t)) := fun x => by ring
  rw [c] at a b
  rw [c 83, c 105, c 84, c 106, c 192]
  generalize 1 / 2 ^ 24 / slant (exactly n) (exactly t) = k at *
  have nt' : ⟪exactly n, tangentOf (normalize (exactly n)) (exactly t)⟫ = 0 := by
    conv_lhs => rw [e]
    rw [real_inner_smul_left, norm_smul_normalize, nt, mul_zero]
  have nb' : ⟪exactly n, bitangentOf (normalize (exactly n)) (exactly t)⟫ = 0 := by
    conv_lhs => rw [e]
    rw [real_inner_smul_left, norm_smul_normalize, nb, mul_zero]
  generalize tangentOf (normalize (exactly n)) (exactly t) = T at *
  generalize bitangentOf (normalize (exactly n)) (exactly t) = B at *
  generalize exactly (tangent n t) = x at *
  generalize exactly (bitangent n t) = y at *
  refine ⟨?_, ?_, ?_, ?_, ?_⟩
  · rw [← hT]; exact (abs_norm_sub_norm_le _ _).trans a
  · rw [← hB]; exact (abs_norm_sub_norm_le _ _).trans b
  · have : ⟪exactly n, x⟫ = ⟪exactly n, x - T⟫ := by rw [inner_sub_right, nt', sub_zero]
    rw [this]
    refine (abs_real_inner_le_norm _ _).trans ((mul_le_mul hn a (norm_nonneg _) (by norm_num)).trans ?_)
    norm_num
    linarith
  · have : ⟪exactly n, y⟫ = ⟪exactly n, y - B⟫ := by rw [inner_sub_right, nb', sub_zero]
    rw [this]
    refine (abs_real_inner_le_norm _ _).trans ((mul_le_mul hn b (norm_nonneg _) (by norm_num)).trans ?_)
    norm_num
    linarith
  · have : ⟪x, y⟫ = ⟪x - T, y⟫ + ⟪T, y - B⟫ := by rw [inner_sub_left, inner_sub_right, tb]; ring
    rw [this]
    have ny : ‖y‖ ≤ 1.03 := by
      have := norm_sub_norm_le y B
      rw [hB] at this
      norm_num at k1 ⊢
      linarith
    have p := (abs_real_inner_le_norm (x - T) y).trans (mul_le_mul a ny (norm_nonneg _) (by positivity))
    have q := (abs_real_inner_le_norm T (y - B)).trans (mul_le_mul hT.le b (norm_nonneg _) (by norm_num))
    refine (abs_add_le _ _).trans ((add_le_add p q).trans ?_)
    norm_num
    linarith

/-! ## Non-vacuity -/

/-- a normal along the z axis and a tangent direction halfway between x and z -/
example : GoodTangent ⟨lit 0, lit 0, lit 1⟩ ⟨lit 1, lit 0, lit 1⟩ := by
  have v0 : (lit 0 : F32).val = 0 := by decide +kernel
  have v1 : (lit 1 : F32).val = 1 := by decide +kernel
  have en : exactly (⟨lit 0, lit 0, lit 1⟩ : V3 F32) = WithLp.toLp 2 ![0, 0, 1] := by
    ext i
    rw [exactly_apply]
    fin_cases i
    · change ((lit 0 : F32).val : ℝ) = 0; rw [v0]; norm_num
    · change ((lit 0 : F32).val : ℝ) = 0; rw [v0]; norm_num
    · change ((lit 1 : F32).val : ℝ) = 1; rw [v1]; norm_num
  have et : exactly (⟨lit 1, lit 0, lit 1⟩ : V3 F32) = WithLp.toLp 2 ![1, 0, 1] := by
    ext i
    rw [exactly_apply]
    fin_cases i
    · change ((lit 1 : F32).val : ℝ) = 1; rw [v1]; norm_num
    · change ((lit 0 : F32).val : ℝ) = 0; rw [v0]; norm_num
    · change ((lit 1 : F32).val : ℝ) = 1; rw [v1]; norm_num
  have nn : ‖(WithLp.toLp 2 ![0, 0, 1] : Space)‖ = 1 := by rw [EuclideanSpace.norm_eq, Fin.sum_univ_three]; simp
  have nt : ‖(WithLp.toLp 2 ![1, 0, 1] : Space)‖ ^ 2 = 2 := by
    rw [EuclideanSpace.norm_sq_eq, Fin.sum_univ_three]; simp; norm_num
  have t0 := norm_nonneg (WithLp.toLp 2 ![1, 0, 1] : Space)
  refine ⟨by decide +kernel, by rw [en, nn]; norm_num, by rw [et]; norm_num; nlinarith, by rw [et]; norm_num; nlinarith, ?_⟩
  unfold slant
  rw [en, et]
  have c := norm_cross3 (WithLp.toLp 2 ![0, 0, 1] : Space) (WithLp.toLp 2 ![1, 0, 1])
  have l : 1 ≤ ‖cross3 (WithLp.toLp 2 ![0, 0, 1] : Space) (WithLp.toLp 2 ![1, 0, 1])‖ := by
    refine le_trans ?_ (abs_apply_le _ 1)
    rw [(cross3_apply _ _).2.1]
    simp
  rw [c, nn, one_mul] at l
  have : ‖(WithLp.toLp 2 ![1, 0, 1] : Space)‖ ≤ 2 := by nlinarith
  have := sin_angle_nonneg (WithLp.toLp 2 ![0, 0, 1] : Space) (WithLp.toLp 2 ![1, 0, 1])
  norm_num
  nlinarith

end Zcm
