import Verif.Model.F32
import Mathlib.Algebra.BigOperators.Group.List.Basic

/-!
# Specification: accurately accumulated sums and products

`x.val` is the exact rational number a finite binary32 number `x` stands for.
-/

namespace Zcm.F32

/-- The exact sum of a list of binary32 numbers. -/
def exactTotal (l : List F32) : ℚ := (l.map fun a => a.val).sum

/-- The exact sum of their magnitudes. -/
def totalSize (l : List F32) : ℚ := (l.map fun a => |a.val|).sum

/-- `x` is an accurate binary32 value of the sum of `l`, obtained by adding one number after the other: it is finite if the
numbers are and the sum of their magnitudes (enlarged by the factor `(1 + 2^-24)^n`) is at most `2^127`, and whenever it is
finite it is off by at most `(1 + 2^-24)^n - 1` times the sum of the magnitudes, where `n` is the number of additions. -/
def AccurateTotal (x : F32) (l : List F32) : Prop :=
  ((∀ a ∈ l, a.IsFin = true) → (1 + 1 / 2 ^ 24) ^ (l.length - 1) * totalSize l ≤ 2 ^ 127 → x.IsFin = true) ∧
  (x.IsFin = true → |x.val - exactTotal l| ≤ ((1 + 1 / 2 ^ 24) ^ (l.length - 1) - 1) * totalSize l)

/-- The exact product of a list of binary32 numbers. -/
def exactProduct (l : List F32) : ℚ := (l.map fun a => a.val).prod

end Zcm.F32
