import Verif.Spec.Coord

/-!
# Specification: C++ `int32_t` arithmetic on mathematical integers

`int…` are partial functions on `ℤ`: `none` means "undefined behaviour" (C++14 [expr]/4,
[expr.mul]/4, [expr.shift]).
-/

namespace Zcm

/-- The integers an `int32_t` can hold. -/
def FitsInt32 (z : ℤ) : Prop := -2 ^ 31 ≤ z ∧ z < 2 ^ 31

instance (z : ℤ) : Decidable (FitsInt32 z) := inferInstanceAs (Decidable (_ ∧ _))

/-- `z` itself if an `int32_t` can hold it. -/
def fits (z : ℤ) : Option ℤ := if FitsInt32 z then some z else none

/-- `a + b` -/
def intAdd (a b : ℤ) : Option ℤ := fits (a + b)
/-- `a - b` -/
def intSub (a b : ℤ) : Option ℤ := fits (a - b)
/-- `a * b` -/
def intMul (a b : ℤ) : Option ℤ := fits (a * b)
/-- `a / b`: the quotient truncated towards zero -/
def intDiv (a b : ℤ) : Option ℤ := if b = 0 then none else fits (a.tdiv b)
/-- `a % b`: the remainder of the truncated division, defined exactly when `a / b` is -/
def intMod (a b : ℤ) : Option ℤ :=
  if b = 0 ∨ ¬ FitsInt32 (a.tdiv b) then none else some (a - b * a.tdiv b)
/-- `-a` -/
def intNeg (a : ℤ) : Option ℤ := fits (-a)
/-- `abs(a)` -/
def intAbs (a : ℤ) : Option ℤ := fits |a|
/-- `a >> s`: floor division by `2^s` -/
def intShr (a s : ℤ) : Option ℤ := if 0 ≤ s ∧ s < 32 then some (a / 2 ^ s.toNat) else none
/-- `a << s` in C++14: multiplication by `2^s` of a non-negative number; the product must fit
`uint32_t` and is then converted to `int32_t`, i.e. reduced modulo `2^32` into the `int32_t` range. -/
def intShl (a s : ℤ) : Option ℤ :=
  if 0 ≤ s ∧ s < 32 ∧ 0 ≤ a ∧ a * 2 ^ s.toNat < 2 ^ 32 then
    some (if a * 2 ^ s.toNat < 2 ^ 31 then a * 2 ^ s.toNat else a * 2 ^ s.toNat - 2 ^ 32)
  else none

/-- A scalar outcome `r` is what the partial integer function prescribes. -/
def IsInt (r : Res I32) (s : Option ℤ) : Prop :=
  match s with
  | some z => ∃ x, r = .ok x ∧ x.toInt = z
  | none => r = .ub

/-- A vector outcome `r` is, component by component, what the partial integer function
prescribes: if every component is defined the result has exactly these integers, and if some
component is undefined the whole expression is undefined behaviour. -/
def IsIntVec {V : Type → Type} {n : ℕ} [Coords V n] (r : Res (V I32)) (s : Fin n → Option ℤ) :
    Prop :=
  ((∀ i, (s i).isSome) → ∃ x, r = .ok x ∧ ∀ i, some (coord x i).toInt = s i) ∧
  ((∃ i, s i = none) → r = .ub)

/-- Integer value of component `i`. -/
def icoord {V : Type → Type} {n : ℕ} [Coords V n] (v : V I32) (i : Fin n) : ℤ := (coord v i).toInt

/-- Bit `k` (0 is the least significant) of an `int32_t` in two's complement. -/
def bit (a : I32) (k : ℕ) : Bool := a.toInt / 2 ^ k % 2 = 1

end Zcm
