import Verif.Lemmas.Hamilton

/-!
# C56: `q * v` rotates, `v * q` rotates back

Exact arithmetic.  `pureQ v` is the vector as a quaternion without real part.
-/

namespace Zcm

open Quaternion

/-- C56: for a unit quaternion, `q * v` is the sandwich product `q v q⁻¹`. -/
theorem C56_sandwich (q : Quat ℝ) (v : V3 ℝ) (hq : Quat.length q = 1) :
    pureQ (q * v) = ham q * pureQ v * (ham q)⁻¹ := pureQ_mulV hq v

/-- C56: for a unit quaternion, `q * v` is linear and preserves lengths, dot and cross products. -/
theorem C56_isometry (q : Quat ℝ) (u v : V3 ℝ) (s : ℝ) (hq : Quat.length q = 1) :
    V3.length (q * v) = V3.length v ∧
    V3.dot (q * u) (q * v) = V3.dot u v ∧
    V3.cross (q * u) (q * v) = q * V3.cross u v ∧
    q * (u + v) = q * u + q * v ∧ q * (s * v) = s * (q * v) := by
  have h := Quat.dot_self_of_length hq
  simp only [Quat.dot] at h
  have hd : ∀ u v : V3 ℝ, V3.dot (q * u) (q * v) = V3.dot u v := by
    intro u v
    simp only [V3.dot, Quat.mulV_x, Quat.mulV_y, Quat.mulV_z]
    grind
  refine ⟨?_, hd u v, ?_, ?_, ?_⟩
  · rw [V3.length_eq_sqrt_dot, V3.length_eq_sqrt_dot, hd]
  · ext <;> simp [Quat.mulV_x, Quat.mulV_y, Quat.mulV_z] <;> grind
  · ext <;> simp [Quat.mulV_x, Quat.mulV_y, Quat.mulV_z] <;> ring
  · ext <;> simp [Quat.mulV_x, Quat.mulV_y, Quat.mulV_z] <;> ring

/-- C56: rotations compose like the product of quaternions, and `v * q` undoes `q * v`, from either
side. -/
theorem C56_compose (p q : Quat ℝ) (v : V3 ℝ) (hp : Quat.length p = 1) (hq : Quat.length q = 1) :
    (p * q) * v = p * (q * v) ∧ (q * v) * q = v ∧ q * (v * q) = v ∧ (Quat.default : Quat ℝ) * v = v ∧
    v * q = Quat.inverse q * v := by
  have hpq : Quat.length (p * q) = 1 := by
    rw [← ham_norm, ham_mul, norm_mul, ham_norm, ham_norm, hp, hq, one_mul]
  have hi : Quat.length (Quat.inverse q) = 1 := by
    rw [← ham_norm, ham_inverse, norm_inv, ham_norm, hq, inv_one]
  have h0 : ham q ≠ 0 := by rw [← norm_ne_zero_iff, ham_norm, hq]; norm_num
  refine ⟨?_, ?_, ?_, ?_, rfl⟩
  · rw [← pureQ_injective, pureQ_mulV hpq, pureQ_mulV hp, pureQ_mulV hq, ham_mul, mul_inv_rev]
    simp only [mul_assoc]
  · show Quat.inverse q * (q * v) = v
    rw [← pureQ_injective, pureQ_mulV hi, pureQ_mulV hq, ham_inverse, inv_inv]
    simp only [mul_assoc]
    rw [inv_mul_cancel₀ h0, mul_one, ← mul_assoc, inv_mul_cancel₀ h0, one_mul]
  · show q * (Quat.inverse q * v) = v
    rw [← pureQ_injective, pureQ_mulV hq, pureQ_mulV hi, ham_inverse, inv_inv]
    simp only [mul_assoc]
    rw [mul_inv_cancel₀ h0, mul_one, ← mul_assoc, mul_inv_cancel₀ h0, one_mul]
  · ext <;> simp [Quat.mulV_x, Quat.mulV_y, Quat.mulV_z, Quat.default]

/-- Non-vacuity: the unit quaternion `(3 + 4k)/5` takes `x` to `(-7/25, 24/25, 0)`. -/
example : Quat.length (Quat.wxyz (3/5) 0 0 (4/5) : Quat ℝ) = 1 ∧
    (Quat.wxyz (3/5) 0 0 (4/5) : Quat ℝ) * (⟨1, 0, 0⟩ : V3 ℝ) = ⟨-7/25, 24/25, 0⟩ := by
  refine ⟨Quat.length_of_dot_self (by simp [Quat.dot]; norm_num), ?_⟩
  ext <;> simp [Quat.mulV_x, Quat.mulV_y, Quat.mulV_z] <;> norm_num

end Zcm
