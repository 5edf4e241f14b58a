import Verif.Lemmas.F32VecAngle
import Verif.Lemmas.F32Vec3
import Verif.Props.C81
import Verif.Props.C82
import Verif.Props.C83

/-!
# C122: angles, Cauchy-Schwarz and the triangle inequality, in IEEE arithmetic

`exactE (coord v)` is the exact vector whose coordinates are the floats of `v`; `angle` is Mathlib's angle between two vectors,
in `[0, π]`.  `Medium`: finite and of exact length between `2^-50` and `2^63`.  `Near x r e`: the float `x` is finite and within
`e` of `r`.  The theorems about `acos` hold for every C library whose `acosf` is accurate on `[-1, 1]` (`GoodAcos`).
-/

set_option exponentiation.threshold 300

namespace Zcm

open F32 InnerProductGeometry
open scoped RealInnerProductSpace

/-! ## `vec2` -/

private theorem unit2 {v : V2 F32} (h : Medium (coord v)) : AlmostUnit (coord v) (coord (V2.normalize v)) := fun i => (C83_vec2 v h).1 i

/-- C122, `dot(normalize(a), normalize(b))` is the cosine of the angle between `a` and `b`, up to `17 / 2^24`. -/
theorem C122_cos_vec2 (a b : V2 F32) (ha : Medium (coord a)) (hb : Medium (coord b)) :
    Near (V2.dot (V2.normalize a) (V2.normalize b)) (Real.cos (angle (exactE (coord a)) (exactE (coord b)))) (17 / 2 ^ 24) :=
  near_cos (by norm_num) ha hb (unit2 ha) (unit2 hb) (C81_dot_vec2 _ _).1

/-- C122, `acos(clamp(dot(normalize(a), normalize(b)), -1, 1))` is never NaN and is the angle between `a` and `b` up to `2^-8`;
for vectors that are not nearly parallel (sine at least `2^-6`) it is within `27 / 2^24` divided by the sine. -/
theorem C122_angle_vec2 [Libm F32] (hl : GoodAcos) (a b : V2 F32) (ha : Medium (coord a)) (hb : Medium (coord b)) :
    Near (F.acos (F.clamp (V2.dot (V2.normalize a) (V2.normalize b)) (lit (-1)) (lit 1)))
      (angle (exactE (coord a)) (exactE (coord b))) (1 / 2 ^ 8) ∧
    (1 / 2 ^ 6 ≤ Real.sin (angle (exactE (coord a)) (exactE (coord b))) →
      Near (F.acos (F.clamp (V2.dot (V2.normalize a) (V2.normalize b)) (lit (-1)) (lit 1)))
        (angle (exactE (coord a)) (exactE (coord b))) (27 / 2 ^ 24 / Real.sin (angle (exactE (coord a)) (exactE (coord b))))) :=
  near_acos hl (C122_cos_vec2 a b ha hb)

/-- C122, Cauchy-Schwarz with floats: `|dot(a, b)|` is at most `length(a) * length(b)`, up to the factor `1 + 13 / 2^24`. -/
theorem C122_cauchy_vec2 (a b : V2 F32) (ha : Medium (coord a)) (hb : Medium (coord b))
    (h : exactLength (coord a) * exactLength (coord b) ≤ 2 ^ 120) :
    |((V2.dot a b).val : ℝ)| ≤ (1 + 13 / 2 ^ 24) * ((V2.length a).val * (V2.length b).val) :=
  cauchy_float (by norm_num) ha hb (C81_dot_vec2 a b).1 h (C82_length_vec2 a ha).2 (C82_length_vec2 b hb).2

/-- C122, which side: the sign of `dot(a, b)` is right as soon as the cosine of the angle is at least `5 / 2^24` away from 0. -/
theorem C122_facing_vec2 (a b : V2 F32) (ha : Medium (coord a)) (hb : Medium (coord b))
    (h : exactLength (coord a) * exactLength (coord b) ≤ 2 ^ 120) :
    (5 / 2 ^ 24 ≤ Real.cos (angle (exactE (coord a)) (exactE (coord b))) → lit 0 < V2.dot a b) ∧
    (Real.cos (angle (exactE (coord a)) (exactE (coord b))) ≤ -(5 / 2 ^ 24) → V2.dot a b < lit 0) :=
  facing_float (by norm_num) ha hb (C81_dot_vec2 a b).1 h

/-- C122, the triangle inequality with floats, up to the factor `1 + 11 / 2^24`. -/
theorem C122_triangle_vec2 (a b c : V2 F32) (fa : ∀ i, (coord a i).IsFin = true) (fb : ∀ i, (coord b i).IsFin = true)
    (fc : ∀ i, (coord c i).IsFin = true)
    (hab : 1 / 2 ^ 49 ≤ exactDistance (coord a) (coord b) ∧ exactDistance (coord a) (coord b) ≤ 2 ^ 62)
    (hbc : 1 / 2 ^ 49 ≤ exactDistance (coord b) (coord c) ∧ exactDistance (coord b) (coord c) ≤ 2 ^ 62)
    (hac : 1 / 2 ^ 49 ≤ exactDistance (coord a) (coord c) ∧ exactDistance (coord a) (coord c) ≤ 2 ^ 62) :
    ((V2.distance a c).val : ℝ) ≤ (1 + 11 / 2 ^ 24) * ((V2.distance a b).val + (V2.distance b c).val) :=
  triangle_float (C82_distance_vec2 a c fa fc hac.1 hac.2).2 (C82_distance_vec2 a b fa fb hab.1 hab.2).2
    (C82_distance_vec2 b c fb fc hbc.1 hbc.2).2

/-- C122, which is nearer: if `c` is farther from `a` than `b` by a factor of `1 + 11 / 2^24`, then `distance` says so. -/
theorem C122_nearer_vec2 (a b c : V2 F32) (fa : ∀ i, (coord a i).IsFin = true) (fb : ∀ i, (coord b i).IsFin = true)
    (fc : ∀ i, (coord c i).IsFin = true) (hab : 1 / 2 ^ 49 ≤ exactDistance (coord a) (coord b))
    (hac : exactDistance (coord a) (coord c) ≤ 2 ^ 62)
    (h : (1 + 11 / 2 ^ 24) * exactDistance (coord a) (coord b) ≤ exactDistance (coord a) (coord c)) :
    V2.distance a b < V2.distance a c := by
  have p : 0 < exactDistance (coord a) (coord b) := lt_of_lt_of_le (by norm_num) hab
  have le : exactDistance (coord a) (coord b) ≤ exactDistance (coord a) (coord c) := by linarith
  have x := C82_distance_vec2 a b fa fb hab (le.trans hac)
  have y := C82_distance_vec2 a c fa fc (hab.trans le) hac
  exact nearer_float x.1 y.1 x.2 y.2 p h

/-! ## `vec3` -/

private theorem unit3 {v : V3 F32} (h : Medium (coord v)) : AlmostUnit (coord v) (coord (V3.normalize v)) := fun i => (C83_vec3 v h).1 i

/-- C122, `dot(normalize(a), normalize(b))` is the cosine of the angle between `a` and `b`, up to `17 / 2^24`. -/
theorem C122_cos_vec3 (a b : V3 F32) (ha : Medium (coord a)) (hb : Medium (coord b)) :
    Near (V3.dot (V3.normalize a) (V3.normalize b)) (Real.cos (angle (exactE (coord a)) (exactE (coord b)))) (17 / 2 ^ 24) :=
  near_cos (by norm_num) ha hb (unit3 ha) (unit3 hb) (C81_dot_vec3 _ _).1

/-- C122, `acos(clamp(dot(normalize(a), normalize(b)), -1, 1))` is never NaN and is the angle between `a` and `b` up to `2^-8`;
for vectors that are not nearly parallel (sine at least `2^-6`) it is within `27 / 2^24` divided by the sine. -/
theorem C122_angle_vec3 [Libm F32] (hl : GoodAcos) (a b : V3 F32) (ha : Medium (coord a)) (hb : Medium (coord b)) :
    Near (F.acos (F.clamp (V3.dot (V3.normalize a) (V3.normalize b)) (lit (-1)) (lit 1)))
      (angle (exactE (coord a)) (exactE (coord b))) (1 / 2 ^ 8) ∧
    (1 / 2 ^ 6 ≤ Real.sin (angle (exactE (coord a)) (exactE (coord b))) →
      Near (F.acos (F.clamp (V3.dot (V3.normalize a) (V3.normalize b)) (lit (-1)) (lit 1)))
        (angle (exactE (coord a)) (exactE (coord b))) (27 / 2 ^ 24 / Real.sin (angle (exactE (coord a)) (exactE (coord b))))) :=
  near_acos hl (C122_cos_vec3 a b ha hb)

/-- C122, Cauchy-Schwarz with floats: `|dot(a, b)|` is at most `length(a) * length(b)`, up to the factor `1 + 13 / 2^24`. -/
theorem C122_cauchy_vec3 (a b : V3 F32) (ha : Medium (coord a)) (hb : Medium (coord b))
    (h : exactLength (coord a) * exactLength (coord b) ≤ 2 ^ 120) :
    |((V3.dot a b).val : ℝ)| ≤ (1 + 13 / 2 ^ 24) * ((V3.length a).val * (V3.length b).val) :=
  cauchy_float (by norm_num) ha hb (C81_dot_vec3 a b).1 h (C82_length_vec3 a ha).2 (C82_length_vec3 b hb).2

/-- C122, which side: the sign of `dot(a, b)` is right as soon as the cosine of the angle is at least `5 / 2^24` away from 0. -/
theorem C122_facing_vec3 (a b : V3 F32) (ha : Medium (coord a)) (hb : Medium (coord b))
    (h : exactLength (coord a) * exactLength (coord b) ≤ 2 ^ 120) :
    (5 / 2 ^ 24 ≤ Real.cos (angle (exactE (coord a)) (exactE (coord b))) → lit 0 < V3.dot a b) ∧
    (Real.cos (angle (exactE (coord a)) (exactE (coord b))) ≤ -(5 / 2 ^ 24) → V3.dot a b < lit 0) :=
  facing_float (by norm_num) ha hb (C81_dot_vec3 a b).1 h

/-- C122, the triangle inequality with floats, up to the factor `1 + 11 / 2^24`. -/
theorem C122_triangle_vec3 (a b c : V3 F32) (fa : ∀ i, (coord a i).IsFin = true) (fb : ∀ i, (coord b i).IsFin = true)
    (fc : ∀ i, (coord c i).IsFin = true)
    (hab : 1 / 2 ^ 49 ≤ exactDistance (coord a) (coord b) ∧ exactDistance (coord a) (coord b) ≤ 2 ^ 62)
    (hbc : 1 / 2 ^ 49 ≤ exactDistance (coord b) (coord c) ∧ exactDistance (coord b) (coord c) ≤ 2 ^ 62)
    (hac : 1 / 2 ^ 49 ≤ exactDistance (coord a) (coord c) ∧ exactDistance (coord a) (coord c) ≤ 2 ^ 62) :
    ((V3.distance a c).val : ℝ) ≤ (1 + 11 / 2 ^ 24) * ((V3.distance a b).val + (V3.distance b c).val) :=
  triangle_float (C82_distance_vec3 a c fa fc hac.1 hac.2).2 (C82_distance_vec3 a b fa fb hab.1 hab.2).2
    (C82_distance_vec3 b c fb fc hbc.1 hbc.2).2

/-- C122, which is nearer: if `c` is farther from `a` than `b` by a factor of `1 + 11 / 2^24`, then `distance` says so. -/
theorem C122_nearer_vec3 (a b c : V3 F32) (fa : ∀ i, (coord a i).IsFin = true) (fb : ∀ i, (coord b i).IsFin = true)
    (fc : ∀ i, (coord c i).IsFin = true) (hab : 1 / 2 ^ 49 ≤ exactDistance (coord a) (coord b))
    (hac : exactDistance (coord a) (coord c) ≤ 2 ^ 62)
    (h : (1 + 11 / 2 ^ 24) * exactDistance (coord a) (coord b) ≤ exactDistance (coord a) (coord c)) :
    V3.distance a b < V3.distance a c := by
  have p : 0 < exactDistance (coord a) (coord b) := lt_of_lt_of_le (by norm_num) hab
  have le : exactDistance (coord a) (coord b) ≤ exactDistance (coord a) (coord c) := by linarith
  have x := C82_distance_vec3 a b fa fb hab (le.trans hac)
  have y := C82_distance_vec3 a c fa fc (hab.trans le) hac
  exact nearer_float x.1 y.1 x.2 y.2 p h

/-! ## `vec4` -/

private theorem unit4 {v : V4 F32} (h : Medium (coord v)) : AlmostUnit (coord v) (coord (V4.normalize v)) := fun i => (C83_vec4 v h).1 i

/-- C122, `dot(normalize(a), normalize(b))` is the cosine of the angle between `a` and `b`, up to `17 / 2^24`. -/
theorem C122_cos_vec4 (a b : V4 F32) (ha : Medium (coord a)) (hb : Medium (coord b)) :
    Near (V4.dot (V4.normalize a) (V4.normalize b)) (Real.cos (angle (exactE (coord a)) (exactE (coord b)))) (17 / 2 ^ 24) :=
  near_cos (by norm_num) ha hb (unit4 ha) (unit4 hb) (C81_dot_vec4 _ _).1

/-- C122, `acos(clamp(dot(normalize(a), normalize(b)), -1, 1))` is never NaN and is the angle between `a` and `b` up to `2^-8`;
for vectors that are not nearly parallel (sine at least `2^-6`) it is within `27 / 2^24` divided by the sine. -/
theorem C122_angle_vec4 [Libm F32] (hl : GoodAcos) (a b : V4 F32) (ha : Medium (coord a)) (hb : Medium (coord b)) :
    Near (F.acos (F.clamp (V4.dot (V4.normalize a) (V4.normalize b)) (lit (-1)) (lit 1)))
      (angle (exactE (coord a)) (exactE (coord b))) (1 / 2 ^ 8) ∧
    (1 / 2 ^ 6 ≤ Real.sin (angle (exactE (coord a)) (exactE (coord b))) →
      Near (F.acos (F.clamp (V4.dot (V4.normalize a) (V4.normalize b)) (lit (-1)) (lit 1)))
        (angle (exactE (coord a)) (exactE (coord b))) (27 / 2 ^ 24 / Real.sin (angle (exactE (coord a)) (exactE (coord b))))) :=
  near_acos hl (C122_cos_vec4 a b ha hb)

/-- C122, Cauchy-Schwarz with floats: `|dot(a, b)|` is at most `length(a) * length(b)`, up to the factor `1 + 13 / 2^24`. -/
theorem C122_cauchy_vec4 (a b : V4 F32) (ha : Medium (coord a)) (hb : Medium (coord b))
    (h : exactLength (coord a) * exactLength (coord b) ≤ 2 ^ 120) :
    |((V4.dot a b).val : ℝ)| ≤ (1 + 13 / 2 ^ 24) * ((V4.length a).val * (V4.length b).val) :=
  cauchy_float (by norm_num) ha hb (C81_dot_vec4 a b).1 h (C82_length_vec4 a ha).2 (C82_length_vec4 b hb).2

/-- C122, which side: the sign of `dot(a, b)` is right as soon as the cosine of the angle is at least `5 / 2^24` away from 0. -/
theorem C122_facing_vec4 (a b : V4 F32) (ha : Medium (coord a)) (hb : Medium (coord b))
    (h : exactLength (coord a) * exactLength (coord b) ≤ 2 ^ 120) :
    (5 / 2 ^ 24 ≤ Real.cos (angle (exactE (coord a)) (exactE (coord b))) → lit 0 < V4.dot a b) ∧
    (Real.cos (angle (exactE (coord a)) (exactE (coord b))) ≤ -(5 / 2 ^ 24) → V4.dot a b < lit 0) :=
  facing_float (by norm_num) ha hb (C81_dot_vec4 a b).1 h

/-- C122, the triangle inequality with floats, up to the factor `1 + 11 / 2^24`. -/
theorem C122_triangle_vec4 (a b c : V4 F32) (fa : ∀ i, (coord a i).IsFin = true) (fb : ∀ i, (coord b i).IsFin = true)
    (fc : ∀ i, (coord c i).IsFin = true)
    (hab : 1 / 2 ^ 49 ≤ exactDistance (coord a) (coord b) ∧ exactDistance (coord a) (coord b) ≤ 2 ^ 62)
    (hbc : 1 / 2 ^ 49 ≤ exactDistance (coord b) (coord c) ∧ exactDistance (coord b) (coord c) ≤ 2 ^ 62)
    (hac : 1 / 2 ^ 49 ≤ exactDistance (coord a) (coord c) ∧ exactDistance (coord a) (coord c) ≤ 2 ^ 62) :
    ((V4.distance a c).val : ℝ) ≤ (1 + 11 / 2 ^ 24) * ((V4.distance a b).val + (V4.distance b c).val) :=
  triangle_float (C82_distance_vec4 a c fa fc hac.1 hac.2).2 (C82_distance_vec4 a b fa fb hab.1 hab.2).2
    (C82_distance_vec4 b c fb fc hbc.1 hbc.2).2

/-- C122, which is nearer: if `c` is farther from `a` than `b` by a factor of `1 + 11 / 2^24`, then `distance` says so. -/
theorem C122_nearer_vec4 (a b c : V4 F32) (fa : ∀ i, (coord a i).IsFin = true) (fb : ∀ i, (coord b i).IsFin = true)
    (fc : ∀ i, (coord c i).IsFin = true) (hab : 1 / 2 ^ 49 ≤ exactDistance (coord a) (coord b))
    (hac : exactDistance (coord a) (coord c) ≤ 2 ^ 62)
    (h : (1 + 11 / 2 ^ 24) * exactDistance (coord a) (coord b) ≤ exactDistance (coord a) (coord c)) :
    V4.distance a b < V4.distance a c := by
  have p : 0 < exactDistance (coord a) (coord b) := lt_of_lt_of_le (by norm_num) hab
  have le : exactDistance (coord a) (coord b) ≤ exactDistance (coord a) (coord c) := by linarith
  have x := C82_distance_vec4 a b fa fb hab (le.trans hac)
  have y := C82_distance_vec4 a c fa fc (hab.trans le) hac
  exact nearer_float x.1 y.1 x.2 y.2 p h

/-! ## The cross product -/

/-- C122, the length of `cross(a, b)` is the area of the parallelogram, up to `4.002 / 2^24` of the product of the lengths. -/
theorem C122_cross_length (a b : V3 F32) (ha : ∀ i, (coord a i).IsFin = true) (hb : ∀ i, (coord b i).IsFin = true)
    (h : ‖exactly a‖ * ‖exactly b‖ ≤ 2 ^ 120) :
    (∀ i, (coord (V3.cross a b) i).IsFin = true) ∧
    |‖exactly (V3.cross a b)‖ - ‖exactly a‖ * ‖exactly b‖ * Real.sin (angle (exactly a) (exactly b))| ≤
      4.002 / 2 ^ 24 * (‖exactly a‖ * ‖exactly b‖) + 1 / 2 ^ 147 := by
  have n := near_cross ha hb h
  refine ⟨n.1, ?_⟩
  rw [← norm_cross3]
  exact (abs_norm_sub_norm_le _ _).trans n.2

/-- C122, `cross(a, b)` is perpendicular to `a` and to `b`, up to `4.002 / 2^24` of the product of the lengths (times the length
of the vector it is compared with). -/
theorem C122_cross_perp (a b : V3 F32) (ha : ∀ i, (coord a i).IsFin = true) (hb : ∀ i, (coord b i).IsFin = true)
    (h : ‖exactly a‖ * ‖exactly b‖ ≤ 2 ^ 120) :
    |⟪exactly (V3.cross a b), exactly a⟫| ≤ (4.002 / 2 ^ 24 * (‖exactly a‖ * ‖exactly b‖) + 1 / 2 ^ 147) * ‖exactly a‖ ∧
    |⟪exactly (V3.cross a b), exactly b⟫| ≤ (4.002 / 2 ^ 24 * (‖exactly a‖ * ‖exactly b‖) + 1 / 2 ^ 147) * ‖exactly b‖ := by
  have n := (near_cross ha hb h).2
  have z1 : ⟪cross3 (exactly a) (exactly b), exactly a⟫ = 0 := inner_cross3_left _ _
  have z2 : ⟪cross3 (exactly a) (exactly b), exactly b⟫ = 0 := inner_cross3_right _ _
  constructor
  · rw [← sub_zero ⟪exactly (V3.cross a b), exactly a⟫, ← z1, ← inner_sub_left]
    exact (abs_real_inner_le_norm _ _).trans (mul_le_mul_of_nonneg_right n (norm_nonneg _))
  · rw [← sub_zero ⟪exactly (V3.cross a b), exactly b⟫, ← z2, ← inner_sub_left]
    exact (abs_real_inner_le_norm _ _).trans (mul_le_mul_of_nonneg_right n (norm_nonneg _))

/-! ## Why the clamp -/

private theorem length14 : exactLength (coord (⟨lit 1, lit 4⟩ : V2 F32)) ^ 2 = 17 := by
  unfold exactLength
  rw [Real.sq_sqrt (by positivity)]
  simp only [Fin.sum_univ_two]
  change ((lit 1 : F32).val : ℝ) ^ 2 + ((lit 4 : F32).val : ℝ) ^ 2 = 17
  rw [show (lit 1 : F32).val = 1 by decide +kernel, show (lit 4 : F32).val = 4 by decide +kernel]
  norm_num

private theorem medium14 : Medium (coord (⟨lit 1, lit 4⟩ : V2 F32)) := by
  have := length14
  have p : 0 ≤ exactLength (coord (⟨lit 1, lit 4⟩ : V2 F32)) := Real.sqrt_nonneg _
  refine ⟨by decide +kernel, ?_, ?_⟩
  · refine le_trans (by norm_num) (show (1 : ℝ) ≤ _ by nlinarith)
  · refine le_trans (show _ ≤ (5 : ℝ) by nlinarith) (by norm_num)

/-- C122, without the clamp the angle of a vector with itself can be NaN: for `vec2(1, 4)`, `dot(normalize(v), normalize(v))` is
above 1, where `acosf` answers NaN (`AcosDomain`). -/
theorem C122_acos_nan [Libm F32] (hl : AcosDomain) :
    ∃ v : V2 F32, Medium (coord v) ∧ F.acos (V2.dot (V2.normalize v) (V2.normalize v)) = F32.nan := by
  refine ⟨⟨lit 1, lit 4⟩, medium14, ?_⟩
  have f : (V2.dot (V2.normalize (⟨lit 1, lit 4⟩ : V2 F32)) (V2.normalize ⟨lit 1, lit 4⟩)).IsFin = true := by decide +kernel
  have w : 1 < (V2.dot (V2.normalize (⟨lit 1, lit 4⟩ : V2 F32)) (V2.normalize ⟨lit 1, lit 4⟩)).val := by decide +kernel
  exact hl _ f (by exact_mod_cast w)

/-! ## The hypotheses are met -/

/-- A vector of length `√17`, and the angle it makes with itself. -/
example [Libm F32] (hl : GoodAcos) : Near (F.acos (F.clamp (V2.dot (V2.normalize (⟨lit 1, lit 4⟩ : V2 F32)) (V2.normalize ⟨lit 1, lit 4⟩))
    (lit (-1)) (lit 1))) (angle (exactE (coord (⟨lit 1, lit 4⟩ : V2 F32))) (exactE (coord (⟨lit 1, lit 4⟩ : V2 F32)))) (1 / 2 ^ 8) :=
  (C122_angle_vec2 hl _ _ medium14 medium14).1

/-- The same vector faces itself: `cos 0 = 1`. -/
example : lit 0 < V2.dot (⟨lit 1, lit 4⟩ : V2 F32) ⟨lit 1, lit 4⟩ ∧
    |((V2.dot (⟨lit 1, lit 4⟩ : V2 F32) ⟨lit 1, lit 4⟩).val : ℝ)| ≤
      (1 + 13 / 2 ^ 24) * ((V2.length (⟨lit 1, lit 4⟩ : V2 F32)).val * (V2.length (⟨lit 1, lit 4⟩ : V2 F32)).val) := by
  have l : exactLength (coord (⟨lit 1, lit 4⟩ : V2 F32)) * exactLength (coord (⟨lit 1, lit 4⟩ : V2 F32)) ≤ 2 ^ 120 := by
    rw [← sq, length14]; norm_num
  refine ⟨(C122_facing_vec2 _ _ medium14 medium14 l).1 ?_, C122_cauchy_vec2 _ _ medium14 medium14 l⟩
  rw [angle_self (fun h => medium14.pos.ne' (by rw [← norm_exactE, h, norm_zero])), Real.cos_zero]
  norm_num

private theorem dist_of_sq {a b : V2 F32} {k : ℝ} (hk : 0 ≤ k) (h : ((a.x.val : ℝ) - b.x.val) ^ 2 + ((a.y.val : ℝ) - b.y.val) ^ 2 = k ^ 2) :
    exactDistance (coord a) (coord b) = k := by
  unfold exactDistance
  rw [Fin.sum_univ_two]
  change Real.sqrt (((a.x.val : ℝ) - b.x.val) ^ 2 + ((a.y.val : ℝ) - b.y.val) ^ 2) = k
  rw [h, Real.sqrt_sq hk]

/-- The triangle with sides 3, 4, 5. -/
example : ((V2.distance (⟨lit 3, lit 0⟩ : V2 F32) ⟨lit 0, lit 4⟩).val : ℝ) ≤
    (1 + 11 / 2 ^ 24) * ((V2.distance (⟨lit 3, lit 0⟩ : V2 F32) ⟨lit 0, lit 0⟩).val + (V2.distance (⟨lit 0, lit 0⟩ : V2 F32) ⟨lit 0, lit 4⟩).val) := by
  have v0 : (lit 0 : F32).val = 0 := by decide +kernel
  have v3 : (lit 3 : F32).val = 3 := by decide +kernel
  have v4 : (lit 4 : F32).val = 4 := by decide +kernel
  refine C122_triangle_vec2 _ _ _ (by decide +kernel) (by decide +kernel) (by decide +kernel) ?_ ?_ ?_
  · rw [dist_of_sq (k := 3) (by norm_num) (by simp only [v0, v3]; norm_num)]; norm_num
  · rw [dist_of_sq (k := 4) (by norm_num) (by simp only [v0, v4]; norm_num)]; norm_num
  · rw [dist_of_sq (k := 5) (by norm_num) (by simp only [v0, v3, v4]; norm_num)]; norm_num

end Zcm
