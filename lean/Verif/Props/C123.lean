import Verif.Lemmas.F32Triangle
import Verif.Props.C82
import Verif.Props.C84

/-!
# C123: triangle normals and planes, in IEEE arithmetic

`normalize(cross(b - a, c - a))`, the normal of the triangle `a b c`, and `dot(normal, p - a)`, the signed height of `p` above its
plane, computed in binary32.  `exactly v` is the exact vector whose coordinates are the floats of `v`; `triangleNormal`,
`cornerSine` and `GoodTriangle` (Spec/Triangle.lean) are about exact vectors.
-/

set_option exponentiation.threshold 300

namespace Zcm

open F32 InnerProductGeometry
open scoped RealInnerProductSpace

/-- C123, the computed normal is finite and within `19 / 2^24` divided by the sine at the corner `a` of the exact unit normal. -/
theorem C123_normal (a b c : V3 F32) (h : GoodTriangle a b c) :
    (∀ i, (coord (V3.normalize (V3.cross (b - a) (c - a))) i).IsFin = true) ∧
    ‖exactly (V3.normalize (V3.cross (b - a) (c - a))) - triangleNormal (exactly a) (exactly b) (exactly c)‖ ≤
      19 / 2 ^ 24 / cornerSine (exactly a) (exactly b) (exactly c) :=
  triangle_normal h

/-- C123, exchanging two corners negates the computed normal, component by component and for every bit pattern of the corners
(up to the sign of a zero): a triangle seen from behind has exactly the opposite normal. -/
theorem C123_winding (a b c : V3 F32) (i : Fin 3) :
    SameNumber (coord (V3.normalize (V3.cross (c - a) (b - a))) i) (-coord (V3.normalize (V3.cross (b - a) (c - a))) i) := by
  have e : ∀ j, SameNumber (coord (V3.cross (c - a) (b - a)) j) (coord (-V3.cross (b - a) (c - a)) j) := fun j => by
    have := (C84_cross (b - a) (c - a) j).1
    have n : coord (-V3.cross (b - a) (c - a)) j = -coord (V3.cross (b - a) (c - a)) j := by fin_cases j <;> rfl
    rw [n]
    exact this
  have := normalize_same e i
  rw [(C84_vec3 (V3.cross (b - a) (c - a)) a).2.2.2.2.2.2] at this
  have n : coord (-V3.normalize (V3.cross (b - a) (c - a))) i = -coord (V3.normalize (V3.cross (b - a) (c - a))) i := by
    fin_cases i <;> rfl
  rwa [n] at this

/-- C123, `length(cross(b - a, c - a))` is twice the area of the triangle, up to `11 / 2^24` of the product of the two edges. -/
theorem C123_area (a b c : V3 F32) (h : GoodTriangle a b c) :
    Near (V3.length (V3.cross (b - a) (c - a)))
      (‖exactly b - exactly a‖ * ‖exactly c - exactly a‖ * Real.sin (angle (exactly b - exactly a) (exactly c - exactly a)))
      (11 / 2 ^ 24 * (‖exactly b - exactly a‖ * ‖exactly c - exactly a‖)) := by
  have n := triangle_cross h
  obtain ⟨e, l, u, p⟩ := triangle_size h
  have s : 1 / 2 ^ 16 ≤ cornerSine (exactly a) (exactly b) (exactly c) := h.sine_ge
  have s1 : cornerSine (exactly a) (exactly b) (exactly c) ≤ 1 := Real.sin_le_one _
  have c0 := (abs_norm_sub_norm_le (exactly (V3.cross (b - a) (c - a))) (cross3 (exactly b - exactly a) (exactly c - exactly a))).trans n.2
  have g : 6.01 / 2 ^ 24 * (‖exactly b - exactly a‖ * ‖exactly c - exactly a‖) ≤
      ‖cross3 (exactly b - exactly a) (exactly c - exactly a)‖ / 4 := by
    rw [e, mul_div_assoc, mul_comm (6.01 / 2 ^ 24)]
    refine mul_le_mul_of_nonneg_left ?_ p.le
    norm_num at s ⊢
    linarith
  have c1 := abs_le.1 c0
  have m : Medium (coord (V3.cross (b - a) (c - a))) := by
    refine ⟨n.1, ?_, ?_⟩ <;> rw [← norm_exactly]
    · norm_num at l ⊢; linarith [c1.1]
    · norm_num at u ⊢; linarith [c1.2]
  obtain ⟨f, r⟩ := C82_length_vec3 _ m
  refine ⟨f, ?_⟩
  change |_ - ‖exactly b - exactly a‖ * ‖exactly c - exactly a‖ * cornerSine (exactly a) (exactly b) (exactly c)| ≤ _
  rw [← e]
  rw [← norm_exactly] at r
  have t := abs_sub_le ((V3.length (V3.cross (b - a) (c - a))).val : ℝ) ‖exactly (V3.cross (b - a) (c - a))‖
    ‖cross3 (exactly b - exactly a) (exactly c - exactly a)‖
  have z : ‖cross3 (exactly b - exactly a) (exactly c - exactly a)‖ ≤ ‖exactly b - exactly a‖ * ‖exactly c - exactly a‖ :=
    norm_cross3_le _ _
  have c2 := c1.2
  refine t.trans ((add_le_add r c0).trans ?_)
  generalize ‖exactly b - exactly a‖ * ‖exactly c - exactly a‖ = X at *
  generalize ‖cross3 (exactly b - exactly a) (exactly c - exactly a)‖ = Y at *
  generalize ‖exactly (V3.cross (b - a) (c - a))‖ = Z at *
  norm_num at c2 ⊢
  linarith

/-- C123, `dot(normal, p - a)` is the signed distance of `p` from the plane of the triangle, up to `24 / 2^24` of the distance of
`p` from `a`, divided by the sine at the corner. -/
theorem C123_height (a b c p : V3 F32) (h : GoodTriangle a b c) (hp : ∀ i, (coord p i).IsFin = true)
    (h1 : 1 / 2 ^ 100 ≤ ‖exactly p - exactly a‖) (h2 : ‖exactly p - exactly a‖ ≤ 2 ^ 100) :
    Near (V3.dot (V3.normalize (V3.cross (b - a) (c - a))) (p - a))
      ⟪triangleNormal (exactly a) (exactly b) (exactly c), exactly p - exactly a⟫
      (24 / 2 ^ 24 / cornerSine (exactly a) (exactly b) (exactly c) * ‖exactly p - exactly a‖) :=
  triangle_height h hp h1 h2

/-- C123, the sign of `dot(normal, p - a)` tells the side of the plane on which `p` lies, unless `p` is closer to the plane than
that error bound. -/
theorem C123_side (a b c p : V3 F32) (h : GoodTriangle a b c) (hp : ∀ i, (coord p i).IsFin = true)
    (h1 : 1 / 2 ^ 100 ≤ ‖exactly p - exactly a‖) (h2 : ‖exactly p - exactly a‖ ≤ 2 ^ 100) :
    (24 / 2 ^ 24 / cornerSine (exactly a) (exactly b) (exactly c) * ‖exactly p - exactly a‖ <
        ⟪triangleNormal (exactly a) (exactly b) (exactly c), exactly p - exactly a⟫ →
      lit 0 < V3.dot (V3.normalize (V3.cross (b - a) (c - a))) (p - a)) ∧
    (⟪triangleNormal (exactly a) (exactly b) (exactly c), exactly p - exactly a⟫ <
        -(24 / 2 ^ 24 / cornerSine (exactly a) (exactly b) (exactly c) * ‖exactly p - exactly a‖) →
      V3.dot (V3.normalize (V3.cross (b - a) (c - a))) (p - a) < lit 0) := by
  obtain ⟨f, e⟩ := triangle_height h hp h1 h2
  have f0 : (lit 0 : F32).IsFin = true := by decide +kernel
  have v0 : (lit 0 : F32).val = 0 := by decide +kernel
  rw [abs_le] at e
  constructor
  · intro g
    refine ⟨isFin_ne_nan f0, isFin_ne_nan f, ?_⟩
    rw [key_lt_iff, v0, ← Rat.cast_lt (K := ℝ)]
    push_cast
    linarith [e.1]
  · intro g
    refine ⟨isFin_ne_nan f, isFin_ne_nan f0, ?_⟩
    rw [key_lt_iff, v0, ← Rat.cast_lt (K := ℝ)]
    push_cast
    linarith [e.2]

/-! ## The hypotheses are met -/

private theorem corners : exactly (⟨lit 3, lit 0, lit 0⟩ : V3 F32) - exactly (⟨lit 0, lit 0, lit 0⟩ : V3 F32) = WithLp.toLp 2 ![3, 0, 0] ∧
    exactly (⟨lit 0, lit 4, lit 0⟩ : V3 F32) - exactly (⟨lit 0, lit 0, lit 0⟩ : V3 F32) = WithLp.toLp 2 ![0, 4, 0] := by
  have v0 : (lit 0 : F32).val = 0 := by decide +kernel
  have v3 : (lit 3 : F32).val = 3 := by decide +kernel
  have v4 : (lit 4 : F32).val = 4 := by decide +kernel
  constructor <;> ext i <;> rw [PiLp.sub_apply, exactly_apply, exactly_apply] <;> fin_cases i
  · change ((lit 3 : F32).val : ℝ) - (lit 0 : F32).val = 3; rw [v0, v3]; norm_num
  · change ((lit 0 : F32).val : ℝ) - (lit 0 : F32).val = 0; rw [v0]; norm_num
  · change ((lit 0 : F32).val : ℝ) - (lit 0 : F32).val = 0; rw [v0]; norm_num
  · change ((lit 0 : F32).val : ℝ) - (lit 0 : F32).val = 0; rw [v0]; norm_num
  · change ((lit 4 : F32).val : ℝ) - (lit 0 : F32).val = 4; rw [v0, v4]; norm_num
  · change ((lit 0 : F32).val : ℝ) - (lit 0 : F32).val = 0; rw [v0]; norm_num

/-- The right triangle with the corners (0, 0, 0), (3, 0, 0), (0, 4, 0). -/
example : GoodTriangle ⟨lit 0, lit 0, lit 0⟩ ⟨lit 3, lit 0, lit 0⟩ ⟨lit 0, lit 4, lit 0⟩ := by
  obtain ⟨e1, e2⟩ := corners
  have n1 : ‖(WithLp.toLp 2 ![3, 0, 0] : Space)‖ = 3 := by
    rw [EuclideanSpace.norm_eq, Fin.sum_univ_three]; simp
  have n2 : ‖(WithLp.toLp 2 ![0, 4, 0] : Space)‖ = 4 := by
    rw [EuclideanSpace.norm_eq, Fin.sum_univ_three]; simp
  refine ⟨by decide +kernel, ?_, ?_, ?_, ?_, ?_⟩
  · rw [e1, n1]; norm_num
  · rw [e1, n1]; norm_num
  · rw [e2, n2]; norm_num
  · rw [e2, n2]; norm_num
  · unfold cornerSine
    rw [e1, e2]
    have : angle (WithLp.toLp 2 ![3, 0, 0] : Space) (WithLp.toLp 2 ![0, 4, 0]) = Real.pi / 2 := by
      rw [← inner_eq_zero_iff_angle_eq_pi_div_two, PiLp.inner_apply, Fin.sum_univ_three]
      simp
    rw [this, Real.sin_pi_div_two]
    norm_num

end Zcm
