import Verif.Lemmas.F32Quat
import Verif.Spec.SignedZero

/-!
# C87  The quaternion product is accurate in IEEE arithmetic

The library multiplies quaternions by a formula with 9 instead of 16 multiplications.  In binary32 the result is within
`2^-16 |p| |q|` of the Hamilton product as a whole - but not component by component: even a product with the identity
quaternion can lose a small component altogether.
-/

namespace Zcm

open Quaternion F32

/-- C87: for finite operands of moderate size no component overflows, each is within `2^-17 |p| |q|` of that of the Hamilton
product, and the whole is within `2^-16 |p| |q|` of it. -/
theorem C87_quat (p q : Quat F32) (hp : p.Finite) (hq : q.Finite) (h1 : ‖exactQ p‖ ≤ 2 ^ 60)
    (h2 : ‖exactQ q‖ ≤ 2 ^ 60) (hl : 1 / 2 ^ 100 ≤ ‖exactQ p‖ * ‖exactQ q‖) :
    (p * q).Finite ∧
    |((p * q).w.val : ℝ) - (exactQ p * exactQ q).re| ≤ 1 / 2 ^ 17 * (‖exactQ p‖ * ‖exactQ q‖) ∧
    |((p * q).x.val : ℝ) - (exactQ p * exactQ q).imI| ≤ 1 / 2 ^ 17 * (‖exactQ p‖ * ‖exactQ q‖) ∧
    |((p * q).y.val : ℝ) - (exactQ p * exactQ q).imJ| ≤ 1 / 2 ^ 17 * (‖exactQ p‖ * ‖exactQ q‖) ∧
    |((p * q).z.val : ℝ) - (exactQ p * exactQ q).imK| ≤ 1 / 2 ^ 17 * (‖exactQ p‖ * ‖exactQ q‖) ∧
    ‖exactQ (p * q) - exactQ p * exactQ q‖ ≤ 1 / 2 ^ 16 * (‖exactQ p‖ * ‖exactQ q‖) := by
  obtain ⟨cx, cy, cz, cw⟩ := Quat.mul_close p q hp hq h1 h2 hl
  obtain ⟨f, e⟩ := Quat.mul_norm p q hp hq h1 h2 hl
  exact ⟨f, cw.err, cx.err, cy.err, cz.err, e⟩

/-- C87: the norm of the product is the product of the norms, to within `2^-16` relative. -/
theorem C87_norm (p q : Quat F32) (hp : p.Finite) (hq : q.Finite) (h1 : ‖exactQ p‖ ≤ 2 ^ 60)
    (h2 : ‖exactQ q‖ ≤ 2 ^ 60) (hl : 1 / 2 ^ 100 ≤ ‖exactQ p‖ * ‖exactQ q‖) :
    |‖exactQ (p * q)‖ - ‖exactQ p‖ * ‖exactQ q‖| ≤ 1 / 2 ^ 16 * (‖exactQ p‖ * ‖exactQ q‖) := by
  obtain ⟨-, e⟩ := Quat.mul_norm p q hp hq h1 h2 hl
  rw [← norm_mul]
  refine (abs_norm_sub_norm_le _ _).trans ?_
  rwa [norm_mul]

/-- C87 fails component by component: multiplying by the identity quaternion `quat()` does not keep every component, on
either side.  The quaternion `1 + 2^-30 i` loses its second component altogether. -/
theorem C87_identity_false : ∃ q : Quat F32, q.Finite ∧ q.x.val = 1 / 2 ^ 30 ∧ q.w.val = 1 ∧
    (Quat.default * q).x.val = 0 ∧ (q * Quat.default).x.val = 0 := by
  refine ⟨⟨lit (1 / 2 ^ 30), lit 0, lit 0, lit 1⟩, fun i => ?_, ?_⟩
  · fin_cases i <;> decide +kernel
  · decide +kernel

/-- Non-vacuity: `3 + 4 j` and `12 + 5 k`, of norms 5 and 13. -/
example : ∃ p q : Quat F32, p.Finite ∧ q.Finite ∧ ‖exactQ p‖ ≤ 2 ^ 60 ∧ ‖exactQ q‖ ≤ 2 ^ 60 ∧
    1 / 2 ^ 100 ≤ ‖exactQ p‖ * ‖exactQ q‖ := by
  have e0 : (lit 0 : F32).val = 0 := by decide +kernel
  have e3 : (lit 3 : F32).val = 3 := by decide +kernel
  have e4 : (lit 4 : F32).val = 4 := by decide +kernel
  have e5 : (lit 5 : F32).val = 5 := by decide +kernel
  have e12 : (lit 12 : F32).val = 12 := by decide +kernel
  have n1 : ‖exactQ ⟨lit 0, lit 4, lit 0, lit 3⟩‖ = 5 := by
    rw [← sq_eq_sq₀ (norm_nonneg _) (by norm_num), norm_sq_quat]
    simp only [exactQ, e0, e3, e4]
    norm_num
  have n2 : ‖exactQ ⟨lit 0, lit 0, lit 5, lit 12⟩‖ = 13 := by
    rw [← sq_eq_sq₀ (norm_nonneg _) (by norm_num), norm_sq_quat]
    simp only [exactQ, e0, e5, e12]
    norm_num
  refine ⟨⟨lit 0, lit 4, lit 0, lit 3⟩, ⟨lit 0, lit 0, lit 5, lit 12⟩, fun i => ?_, fun i => ?_, ?_⟩
  · fin_cases i <;> decide +kernel
  · fin_cases i <;> decide +kernel
  · rw [n1, n2]
    norm_num

end Zcm
