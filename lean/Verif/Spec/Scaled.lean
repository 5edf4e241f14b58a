import Verif.Model.F32

/-!
# Specification: scaling by a power of two
-/

namespace Zcm.F32

/-- The finite float `x'` is exactly `x · 2^k`, with the same sign bit. -/
def ScaledBy (k : ℤ) (x x' : F32) : Prop :=
  x.IsFin = true ∧ x'.IsFin = true ∧ x'.sgn = x.sgn ∧ x'.val = x.val * 2 ^ k

/-- The exact number `r` is not lost below the normal range: it is 0 or at least `2⁻¹²⁶`, the least normal number. -/
def NoUnderflow (r : ℚ) : Prop := r = 0 ∨ 1 / 2 ^ 126 ≤ |r|

end Zcm.F32
