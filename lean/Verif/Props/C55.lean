import Verif.Lemmas.Hamilton

/-!
# C55: quaternion length is multiplicative; conjugate and inverse

Exact arithmetic.
-/

namespace Zcm

open Quaternion

/-- C55: the length of a product is the product of the lengths. -/
theorem C55_length (p q : Quat ℝ) : Quat.length (p * q) = Quat.length p * Quat.length q := by
  rw [← ham_norm, ← ham_norm, ← ham_norm, ham_mul, norm_mul]

/-- C55: `conjugate` negates the vector part, is an involution and reverses products; it preserves
the length, and `q * conjugate(q)` is the squared length. -/
theorem C55_conjugate (p q : Quat ℝ) :
    ham (Quat.conjugate q) = star (ham q) ∧
    Quat.conjugate (Quat.conjugate q) = q ∧
    Quat.conjugate (p * q) = Quat.conjugate q * Quat.conjugate p ∧
    Quat.conjugate (p + q) = Quat.conjugate p + Quat.conjugate q ∧
    Quat.length (Quat.conjugate q) = Quat.length q ∧
    q * Quat.conjugate q = Quat.wxyz (Quat.length q ^ 2) 0 0 0 := by
  refine ⟨ham_conjugate q, ?_, ?_, ?_, ?_, ?_⟩
  · rw [← ham_injective, ham_conjugate, ham_conjugate, star_star]
  · rw [← ham_injective, ham_conjugate, ham_mul, ham_mul, ham_conjugate, ham_conjugate, star_mul]
  · rw [← ham_injective, ham_conjugate, ham_add, ham_add, ham_conjugate, ham_conjugate, star_add]
  · rw [← ham_norm, ← ham_norm, ham_conjugate, norm_star]
  · rw [← ham_norm, sq, ← Quaternion.normSq_eq_norm_mul_self, ham_normSq]
    ext <;> simp [Quat.conjugate, Quat.dot] <;> ring

/-- C55: `inverse` is the two-sided inverse of every non-zero quaternion, reverses products, and
inverts the length. -/
theorem C55_inverse (p q : Quat ℝ) (hq : ∃ i, coord q i ≠ 0) :
    q * Quat.inverse q = Quat.default ∧ Quat.inverse q * q = Quat.default ∧
    Quat.inverse (p * q) = Quat.inverse q * Quat.inverse p ∧
    Quat.inverse (Quat.inverse q) = q ∧
    Quat.length (Quat.inverse q) = (Quat.length q)⁻¹ := by
  have h := ham_ne_zero hq
  refine ⟨?_, ?_, ?_, ?_, ?_⟩
  · rw [← ham_injective, ham_mul, ham_inverse, ham_default, mul_inv_cancel₀ h]
  · rw [← ham_injective, ham_mul, ham_inverse, ham_default, inv_mul_cancel₀ h]
  · rw [← ham_injective, ham_mul, ham_inverse, ham_inverse, ham_inverse, ham_mul, mul_inv_rev]
  · rw [← ham_injective, ham_inverse, ham_inverse, inv_inv]
  · rw [← ham_norm, ← ham_norm, ham_inverse, norm_inv]

/-- C55: for unit quaternions the inverse is the conjugate. -/
theorem C55_unit (q : Quat ℝ) (hq : Quat.length q = 1) : Quat.inverse q = Quat.conjugate q := by
  rw [← ham_injective, ham_inverse, ham_conjugate, Quaternion.inv_def, ham_normSq,
    Quat.dot_self_of_length hq, inv_one, one_smul]

/-- Non-vacuity: `1+i+j+k` has inverse `(1-i-j-k)/4`. -/
example : (∃ i, coord (Quat.wxyz 1 1 1 1 : Quat ℝ) i ≠ 0) ∧
    Quat.inverse (Quat.wxyz 1 1 1 1 : Quat ℝ) = Quat.wxyz (1/4) (-1/4) (-1/4) (-1/4) ∧
    Quat.length (Quat.wxyz 0 (3/5) 0 (4/5) : Quat ℝ) = 1 := by
  refine ⟨⟨0, by simp⟩, ?_, Quat.length_of_dot_self (by simp [Quat.dot]; norm_num)⟩
  ext <;> simp [Quat.inverse, Quat.conjugate, Quat.dot] <;> norm_num

end Zcm
