import Verif.Lemmas.Hamilton

/-!
# C54: the quaternion product is Hamilton's product

Exact arithmetic.  `ham q` is Mathlib's quaternion with the same components.
-/

namespace Zcm

open Quaternion

/-- C54: `q1 * q2` is Hamilton's product. -/
theorem C54_hamilton (p q : Quat ℝ) : ham (p * q) = ham p * ham q := ham_mul p q

/-- C54: associative, distributive on both sides, `quat()` is the two-sided identity, and scalars
move through the product. -/
theorem C54_ring (p q r : Quat ℝ) (s : ℝ) :
    p * q * r = p * (q * r) ∧
    p * (q + r) = p * q + p * r ∧ (p + q) * r = p * r + q * r ∧
    Quat.default * q = q ∧ q * Quat.default = q ∧
    (s * p) * q = s * (p * q) ∧ p * (s * q) = s * (p * q) ∧
    (-p) * q = -(p * q) ∧ p * (-q) = -(p * q) := by
  simp only [← ham_injective, ham_mul, ham_add, ham_default, ham_neg, ham_smul, mul_assoc, mul_add,
    add_mul, one_mul, mul_one, smul_mul_assoc, mul_smul_comm, neg_mul, mul_neg, and_self]

/-- C54: the units: `i*i = j*j = k*k = i*j*k = -1`, and `i*j = k` etc. (`wxyz` order of arguments). -/
theorem C54_units :
    let one : Quat ℝ := Quat.wxyz 1 0 0 0
    let i : Quat ℝ := Quat.wxyz 0 1 0 0
    let j : Quat ℝ := Quat.wxyz 0 0 1 0
    let k : Quat ℝ := Quat.wxyz 0 0 0 1
    i * j = k ∧ j * k = i ∧ k * i = j ∧ j * i = -k ∧ k * j = -i ∧ i * k = -j ∧
    i * i = -one ∧ j * j = -one ∧ k * k = -one ∧ i * j * k = -one := by
  refine ⟨?_, ?_, ?_, ?_, ?_, ?_, ?_, ?_, ?_, ?_⟩ <;> ext <;> simp

/-- C54: `q1 *= q2` stores `q1 * q2` into `q1` and changes no other quaternion, also for `q *= q`
(any scalar arithmetic, in particular binary32). -/
theorem C54_mulAssign {α : Type} [Add α] [Sub α] [Mul α] [FloatOps α]
    (σ : Store (Quat α)) (this other : ℕ) :
    Quat.mulAssign σ this other this = σ this * σ other ∧
    ∀ i, i ≠ this → Quat.mulAssign σ this other i = σ i := by
  constructor
  · simp only [Quat.mulAssign, Function.update_self]
    rfl
  · intro i hi
    simp only [Quat.mulAssign, Function.update_of_ne hi]

/-- Non-vacuity: two distinct objects, and the aliased case. -/
example : (Quat.mulAssign (fun i => if i = 0 then (Quat.wxyz 0 1 0 0 : Quat ℝ) else Quat.wxyz 0 0 1 0) 0 1 0
      = Quat.wxyz 0 0 0 1) ∧
    (Quat.mulAssign (fun _ => (Quat.wxyz 0 1 0 0 : Quat ℝ)) 0 0 0 = Quat.wxyz (-1) 0 0 0) := by
  rw [(C54_mulAssign _ 0 1).1, (C54_mulAssign _ 0 0).1]
  constructor <;> ext <;> simp

end Zcm
