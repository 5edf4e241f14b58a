import Verif.Lemmas.Euclid

/-!
# C32: distance is a metric

Exact arithmetic.
-/

namespace Zcm

/-- C32 for `float`. -/
theorem C32_float (a b c : ℝ) :
    F.distance a b = |a - b| ∧ 0 ≤ F.distance a b ∧ (F.distance a b = 0 ↔ a = b) ∧
    F.distance a b = F.distance b a ∧ F.distance a c ≤ F.distance a b + F.distance b c := by
  simp only [F.distance, F.abs_real]
  exact ⟨trivial, abs_nonneg _, abs_eq_zero.trans sub_eq_zero, abs_sub_comm _ _, abs_sub_le _ _ _⟩

/-- C32 for `vec2`. -/
theorem C32_vec2 (a b c : V2 ℝ) :
    V2.distance a b = dist (eu a) (eu b) ∧ 0 ≤ V2.distance a b ∧ (V2.distance a b = 0 ↔ a = b) ∧
    V2.distance a b = V2.distance b a ∧
    V2.distance a c ≤ V2.distance a b + V2.distance b c := by
  have e : ∀ x y : V2 ℝ, V2.distance x y = dist (eu x) (eu y) := fun x y => by
    rw [V2.distance, V2.length_eq_norm, V2.eu_sub, dist_eq_norm]
  simp only [e]
  exact ⟨trivial, dist_nonneg, dist_eq_zero.trans V2.eu_injective, dist_comm _ _, dist_triangle _ _ _⟩

/-- C32 for `vec3`. -/
theorem C32_vec3 (a b c : V3 ℝ) :
    V3.distance a b = dist (eu a) (eu b) ∧ 0 ≤ V3.distance a b ∧ (V3.distance a b = 0 ↔ a = b) ∧
    V3.distance a b = V3.distance b a ∧
    V3.distance a c ≤ V3.distance a b + V3.distance b c := by
  have e : ∀ x y : V3 ℝ, V3.distance x y = dist (eu x) (eu y) := fun x y => by
    rw [V3.distance, V3.length_eq_norm, V3.eu_sub, dist_eq_norm]
  simp only [e]
  exact ⟨trivial, dist_nonneg, dist_eq_zero.trans V3.eu_injective, dist_comm _ _, dist_triangle _ _ _⟩

/-- C32 for `vec4`. -/
theorem C32_vec4 (a b c : V4 ℝ) :
    V4.distance a b = dist (eu a) (eu b) ∧ 0 ≤ V4.distance a b ∧ (V4.distance a b = 0 ↔ a = b) ∧
    V4.distance a b = V4.distance b a ∧
    V4.distance a c ≤ V4.distance a b + V4.distance b c := by
  have e : ∀ x y : V4 ℝ, V4.distance x y = dist (eu x) (eu y) := fun x y => by
    rw [V4.distance, V4.length_eq_norm, V4.eu_sub, dist_eq_norm]
  simp only [e]
  exact ⟨trivial, dist_nonneg, dist_eq_zero.trans V4.eu_injective, dist_comm _ _, dist_triangle _ _ _⟩

/-- Non-vacuity. -/
example : V3.distance (⟨1, 2, 3⟩ : V3 ℝ) ⟨1, 5, 7⟩ = 5 := by
  simp only [V3.distance, V3.length, F.sqrt_real, V3.sub_x, V3.sub_y, V3.sub_z]
  rw [show ((1:ℝ) - 1) * (1 - 1) + (2 - 5) * (2 - 5) + (3 - 7) * (3 - 7) = 5 ^ 2 by norm_num,
    Real.sqrt_sq (by norm_num)]

end Zcm
