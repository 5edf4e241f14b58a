import Verif.Lemmas.Euclid

/-!
# C33: length2 and distance2 are squares

Exact arithmetic.  `distance2` of `vec3` and `vec4` returns the unsquared distance.
-/

namespace Zcm

/-- C33, `length2`, `float`. -/
theorem C33_length2_float (x : ℝ) : F.length2 x = F.length x ^ 2 := by
  simp only [F.length2, F.length, F.dot]; ring

/-- C33, `length2`, `vec2`. -/
theorem C33_length2_vec2 (v : V2 ℝ) : V2.length2 v = V2.length v ^ 2 := by
  rw [V2.length2, V2.dot_eq_inner, V2.length_eq_norm, real_inner_self_eq_norm_sq]

/-- C33, `length2`, `vec3`. -/
theorem C33_length2_vec3 (v : V3 ℝ) : V3.length2 v = V3.length v ^ 2 := by
  rw [V3.length2, V3.dot_eq_inner, V3.length_eq_norm, real_inner_self_eq_norm_sq]

/-- C33, `length2`, `vec4`. -/
theorem C33_length2_vec4 (v : V4 ℝ) : V4.length2 v = V4.length v ^ 2 := by
  rw [V4.length2, V4.dot_eq_inner, V4.length_eq_norm, real_inner_self_eq_norm_sq]

/-- C33, `length2`, `quat`. -/
theorem C33_length2_quat (v : Quat ℝ) : Quat.length2 v = Quat.length v ^ 2 := by
  rw [Quat.length2, Quat.dot_eq_inner, Quat.length_eq_norm, real_inner_self_eq_norm_sq]

/-- C33, `distance2`, the overloads that are right.  Missing: `vec3` and `vec4`, see
`C33_distance2_false`. -/
theorem C33_distance2_partial :
    (∀ a b : ℝ, F.distance2 a b = F.distance a b ^ 2) ∧
    (∀ a b : V2 ℝ, V2.distance2 a b = V2.distance a b ^ 2) := by
  constructor
  · intro a b
    simp only [F.distance2, F.length2, F.dot, F.distance, F.abs_real, sq_abs]; ring
  · intro a b
    rw [V2.distance2, C33_length2_vec2, V2.distance]

/-- C33 fails for `vec3` and `vec4`: the squared distance of two points at distance 2 is 4, the
functions return 2. -/
theorem C33_distance2_false :
    (∃ a b : V3 ℝ, V3.distance2 a b ≠ V3.distance a b ^ 2) ∧
    (∃ a b : V4 ℝ, V4.distance2 a b ≠ V4.distance a b ^ 2) := by
  have h4 : Real.sqrt 4 = 2 := by
    rw [show (4:ℝ) = 2 ^ 2 by norm_num, Real.sqrt_sq (by norm_num)]
  refine ⟨⟨⟨2, 0, 0⟩, ⟨0, 0, 0⟩, ?_⟩, ⟨⟨2, 0, 0, 0⟩, ⟨0, 0, 0, 0⟩, ?_⟩⟩
  · simp only [V3.distance2, V3.distance, V3.length, F.sqrt_real, V3.sub_x, V3.sub_y, V3.sub_z]
    norm_num [h4]
  · simp only [V4.distance2, V4.distance, V4.length, F.sqrt_real, V4.sub_x, V4.sub_y, V4.sub_z, V4.sub_w]
    norm_num [h4]

/-- What `distance2` of `vec3` and `vec4` really computes: the distance. -/
theorem C33_distance2_actual :
    (∀ a b : V3 ℝ, V3.distance2 a b = dist (eu a) (eu b)) ∧
    (∀ a b : V4 ℝ, V4.distance2 a b = dist (eu a) (eu b)) := by
  constructor <;> intro a b
  · rw [V3.distance2, V3.length_eq_norm, V3.eu_sub, dist_eq_norm]
  · rw [V4.distance2, V4.length_eq_norm, V4.eu_sub, dist_eq_norm]

/-- Non-vacuity. -/
example : V4.length2 (⟨1, 2, 3, 4⟩ : V4 ℝ) = 30 := by simp [V4.length2, V4.dot]; norm_num

end Zcm
