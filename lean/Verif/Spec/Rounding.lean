import Mathlib.Algebra.Order.Field.Basic
import Mathlib.Algebra.Ring.Int.Parity
import Mathlib.Algebra.Order.Round

/-!
# Specification: rounding to integers
-/

namespace Zcm

variable {K : Type} [Field K] [LinearOrder K]

/-- `n` is the greatest integer `≤ x`. -/
def IsFloor (x : K) (n : ℤ) : Prop := (n : K) ≤ x ∧ ∀ m : ℤ, (m : K) ≤ x → m ≤ n

/-- `n` is the least integer `≥ x`. -/
def IsCeil (x : K) (n : ℤ) : Prop := x ≤ n ∧ ∀ m : ℤ, x ≤ m → n ≤ m

/-- `n` is the integer part of `x`, i.e. `x` rounded toward zero. -/
def IsTrunc (x : K) (n : ℤ) : Prop := |(n : K)| ≤ |x| ∧ |x| < |(n : K)| + 1 ∧ 0 ≤ n * x

/-- `n` is the integer nearest to `x`; in the case of a tie, the one further from zero. -/
def IsRound (x : K) (n : ℤ) : Prop := |x - n| ≤ 1 / 2 ∧ (|x - n| = 1 / 2 → |x| < |(n : K)|)

/-- `n` is the integer nearest to `x`; in the case of a tie, the even one. -/
def IsRoundEven (x : K) (n : ℤ) : Prop := |x - n| ≤ 1 / 2 ∧ (|x - n| = 1 / 2 → Even n)

end Zcm
