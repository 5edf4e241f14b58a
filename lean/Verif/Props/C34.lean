import Verif.Lemmas.Normalize

/-!
# C34: normalize gives the unit vector of the same direction

Exact arithmetic.
-/

namespace Zcm

/-- C34 for `vec2`. -/
theorem C34_vec2 (v : V2 ℝ) (h : ∃ i, coord v i ≠ 0) :
    V2.length (V2.normalize v) = 1 ∧ 0 < V2.length v ∧ v = V2.length v * V2.normalize v ∧
    V2.normalize (V2.normalize v) = V2.normalize v ∧
    ∀ s : ℝ, 0 < s → V2.normalize (s * v) = V2.normalize v := by
  have h0 := V2.norm_pos h
  have h1 := V2.length_normalize h
  refine ⟨h1, by rw [V2.length_eq_norm]; exact h0, ?_, V2.normalize_of_length_one h1, fun s hs => ?_⟩
  · rw [← V2.eu_injective, V2.eu_smul, V2.eu_normalize, V2.length_eq_norm, smul_smul,
      mul_inv_cancel₀ h0.ne', one_smul]
  · rw [← V2.eu_injective, V2.eu_normalize, V2.eu_normalize, V2.eu_smul, norm_smul, smul_smul,
      Real.norm_of_nonneg hs.le, mul_inv, mul_comm s⁻¹, mul_assoc, inv_mul_cancel₀ hs.ne', mul_one]

/-- C34 for `vec3`. -/
theorem C34_vec3 (v : V3 ℝ) (h : ∃ i, coord v i ≠ 0) :
    V3.length (V3.normalize v) = 1 ∧ 0 < V3.length v ∧ v = V3.length v * V3.normalize v ∧
    V3.normalize (V3.normalize v) = V3.normalize v ∧
    ∀ s : ℝ, 0 < s → V3.normalize (s * v) = V3.normalize v := by
  have h0 := V3.norm_pos h
  have h1 := V3.length_normalize h
  refine ⟨h1, by rw [V3.length_eq_norm]; exact h0, ?_, V3.normalize_of_length_one h1, fun s hs => ?_⟩
  · rw [← V3.eu_injective, V3.eu_smul, V3.eu_normalize, V3.length_eq_norm, smul_smul,
      mul_inv_cancel₀ h0.ne', one_smul]
  · rw [← V3.eu_injective, V3.eu_normalize, V3.eu_normalize, V3.eu_smul, norm_smul, smul_smul,
      Real.norm_of_nonneg hs.le, mul_inv, mul_comm s⁻¹, mul_assoc, inv_mul_cancel₀ hs.ne', mul_one]

/-- C34 for `vec4`. -/
theorem C34_vec4 (v : V4 ℝ) (h : ∃ i, coord v i ≠ 0) :
    V4.length (V4.normalize v) = 1 ∧ 0 < V4.length v ∧ v = V4.length v * V4.normalize v ∧
    V4.normalize (V4.normalize v) = V4.normalize v ∧
    ∀ s : ℝ, 0 < s → V4.normalize (s * v) = V4.normalize v := by
  have h0 := V4.norm_pos h
  have h1 := V4.length_normalize h
  refine ⟨h1, by rw [V4.length_eq_norm]; exact h0, ?_, V4.normalize_of_length_one h1, fun s hs => ?_⟩
  · rw [← V4.eu_injective, V4.eu_smul, V4.eu_normalize, V4.length_eq_norm, smul_smul,
      mul_inv_cancel₀ h0.ne', one_smul]
  · rw [← V4.eu_injective, V4.eu_normalize, V4.eu_normalize, V4.eu_smul, norm_smul, smul_smul,
      Real.norm_of_nonneg hs.le, mul_inv, mul_comm s⁻¹, mul_assoc, inv_mul_cancel₀ hs.ne', mul_one]

/-- C34 for `quat`. -/
theorem C34_quat (v : Quat ℝ) (h : ∃ i, coord v i ≠ 0) :
    Quat.length (Quat.normalize v) = 1 ∧ 0 < Quat.length v ∧ v = Quat.length v * Quat.normalize v ∧
    Quat.normalize (Quat.normalize v) = Quat.normalize v ∧
    ∀ s : ℝ, 0 < s → Quat.normalize (s * v) = Quat.normalize v := by
  have h0 := Quat.norm_pos h
  have h1 := Quat.length_normalize h
  refine ⟨h1, by rw [Quat.length_eq_norm]; exact h0, ?_, Quat.normalize_of_length_one h1, fun s hs => ?_⟩
  · rw [← Quat.eu_injective, Quat.eu_smul, Quat.eu_normalize, Quat.length_eq_norm, smul_smul,
      mul_inv_cancel₀ h0.ne', one_smul]
  · rw [← Quat.eu_injective, Quat.eu_normalize, Quat.eu_normalize, Quat.eu_smul, norm_smul, smul_smul,
      Real.norm_of_nonneg hs.le, mul_inv, mul_comm s⁻¹, mul_assoc, inv_mul_cancel₀ hs.ne', mul_one]

/-- Non-vacuity. -/
example : ∃ i, coord (⟨0, 3, -4⟩ : V3 ℝ) i ≠ 0 := ⟨1, by simp⟩
example : ∃ i, coord (⟨0, 3, 0, -4⟩ : Quat ℝ) i ≠ 0 := ⟨1, by simp⟩

end Zcm
