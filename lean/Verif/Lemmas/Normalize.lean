import Verif.Lemmas.Euclid
import Mathlib.Tactic.FieldSimp

/-!
# Lemmas: normalize in exact arithmetic
-/

namespace Zcm

theorem V2.eu_normalize (v : V2 ℝ) : eu (V2.normalize v) = ‖eu v‖⁻¹ • eu v := by
  rw [V2.normalize, V2.eu_mulS, F.inversesqrt_real, ← V2.length_eq_sqrt_dot, V2.length_eq_norm, one_div]

theorem V2.norm_pos {v : V2 ℝ} (h : ∃ i, coord v i ≠ 0) : 0 < ‖eu v‖ := by
  rw [norm_pos_iff]
  intro h0
  obtain ⟨i, hi⟩ := h
  exact hi (V2.eu_eq_zero.1 h0 i)

theorem V2.length_normalize {v : V2 ℝ} (h : ∃ i, coord v i ≠ 0) : V2.length (V2.normalize v) = 1 := by
  have h0 := V2.norm_pos h
  rw [V2.length_eq_norm, V2.eu_normalize, norm_smul, norm_inv, norm_norm, inv_mul_cancel₀ h0.ne']

theorem V2.normalize_of_length_one {v : V2 ℝ} (h : V2.length v = 1) : V2.normalize v = v := by
  rw [← V2.eu_injective, V2.eu_normalize, ← V2.length_eq_norm, h, inv_one, one_smul]

theorem V2.dot_self_of_length {v : V2 ℝ} (h : V2.length v = 1) : V2.dot v v = 1 := by
  rw [V2.dot_eq_inner, real_inner_self_eq_norm_sq, ← V2.length_eq_norm, h, one_pow]

theorem V2.length_of_dot_self {v : V2 ℝ} (h : V2.dot v v = 1) : V2.length v = 1 := by
  rw [V2.length_eq_sqrt_dot, h, Real.sqrt_one]

theorem V3.eu_normalize (v : V3 ℝ) : eu (V3.normalize v) = ‖eu v‖⁻¹ • eu v := by
  rw [V3.normalize, V3.eu_mulS, F.inversesqrt_real, ← V3.length_eq_sqrt_dot, V3.length_eq_norm, one_div]

theorem V3.norm_pos {v : V3 ℝ} (h : ∃ i, coord v i ≠ 0) : 0 < ‖eu v‖ := by
  rw [norm_pos_iff]
  intro h0
  obtain ⟨i, hi⟩ := h
  exact hi (V3.eu_eq_zero.1 h0 i)

theorem V3.length_normalize {v : V3 ℝ} (h : ∃ i, coord v i ≠ 0) : V3.length (V3.normalize v) = 1 := by
  have h0 := V3.norm_pos h
  rw [V3.length_eq_norm, V3.eu_normalize, norm_smul, norm_inv, norm_norm, inv_mul_cancel₀ h0.ne']

theorem V3.normalize_of_length_one {v : V3 ℝ} (h : V3.length v = 1) : V3.normalize v = v := by
  rw [← V3.eu_injective, V3.eu_normalize, ← V3.length_eq_norm, h, inv_one, one_smul]

theorem V3.dot_self_of_length {v : V3 ℝ} (h : V3.length v = 1) : V3.dot v v = 1 := by
  rw [V3.dot_eq_inner, real_inner_self_eq_norm_sq, ← V3.length_eq_norm, h, one_pow]

theorem V3.length_of_dot_self {v : V3 ℝ} (h : V3.dot v v = 1) : V3.length v = 1 := by
  rw [V3.length_eq_sqrt_dot, h, Real.sqrt_one]

theorem V4.eu_normalize (v : V4 ℝ) : eu (V4.normalize v) = ‖eu v‖⁻¹ • eu v := by
  rw [V4.normalize, V4.eu_mulS, F.inversesqrt_real, ← V4.length_eq_sqrt_dot, V4.length_eq_norm, one_div]

theorem V4.norm_pos {v : V4 ℝ} (h : ∃ i, coord v i ≠ 0) : 0 < ‖eu v‖ := by
  rw [norm_pos_iff]
  intro h0
  obtain ⟨i, hi⟩ := h
  exact hi (V4.eu_eq_zero.1 h0 i)

theorem V4.length_normalize {v : V4 ℝ} (h : ∃ i, coord v i ≠ 0) : V4.length (V4.normalize v) = 1 := by
  have h0 := V4.norm_pos h
  rw [V4.length_eq_norm, V4.eu_normalize, norm_smul, norm_inv, norm_norm, inv_mul_cancel₀ h0.ne']

theorem V4.normalize_of_length_one {v : V4 ℝ} (h : V4.length v = 1) : V4.normalize v = v := by
  rw [← V4.eu_injective, V4.eu_normalize, ← V4.length_eq_norm, h, inv_one, one_smul]

theorem V4.dot_self_of_length {v : V4 ℝ} (h : V4.length v = 1) : V4.dot v v = 1 := by
  rw [V4.dot_eq_inner, real_inner_self_eq_norm_sq, ← V4.length_eq_norm, h, one_pow]

theorem V4.length_of_dot_self {v : V4 ℝ} (h : V4.dot v v = 1) : V4.length v = 1 := by
  rw [V4.length_eq_sqrt_dot, h, Real.sqrt_one]

theorem Quat.eu_normalize (v : Quat ℝ) : eu (Quat.normalize v) = ‖eu v‖⁻¹ • eu v := by
  rw [← Quat.length_eq_norm]
  ext i
  fin_cases i <;> exact div_eq_inv_mul _ _

theorem Quat.norm_pos {v : Quat ℝ} (h : ∃ i, coord v i ≠ 0) : 0 < ‖eu v‖ := by
  rw [norm_pos_iff]
  intro h0
  obtain ⟨i, hi⟩ := h
  exact hi (Quat.eu_eq_zero.1 h0 i)

theorem Quat.length_normalize {v : Quat ℝ} (h : ∃ i, coord v i ≠ 0) : Quat.length (Quat.normalize v) = 1 := by
  have h0 := Quat.norm_pos h
  rw [Quat.length_eq_norm, Quat.eu_normalize, norm_smul, norm_inv, norm_norm, inv_mul_cancel₀ h0.ne']

theorem Quat.normalize_of_length_one {v : Quat ℝ} (h : Quat.length v = 1) : Quat.normalize v = v := by
  rw [← Quat.eu_injective, Quat.eu_normalize, ← Quat.length_eq_norm, h, inv_one, one_smul]

theorem Quat.dot_self_of_length {v : Quat ℝ} (h : Quat.length v = 1) : Quat.dot v v = 1 := by
  rw [Quat.dot_eq_inner, real_inner_self_eq_norm_sq, ← Quat.length_eq_norm, h, one_pow]

theorem Quat.length_of_dot_self {v : Quat ℝ} (h : Quat.dot v v = 1) : Quat.length v = 1 := by
  rw [Quat.length_eq_sqrt_dot, h, Real.sqrt_one]

end Zcm
