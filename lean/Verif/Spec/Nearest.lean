import Verif.Model.F32
import Mathlib.Data.Real.Basic

/-!
# Specification: the binary32 number nearest to a real number
-/

namespace Zcm.F32

/-- `x` is finite, and every other finite binary32 number is strictly further away from `r`. -/
def IsNearest (x : F32) (r : ℝ) : Prop :=
  x.IsFin = true ∧ ∀ y : F32, y.IsFin = true → y.val ≠ x.val → |(x.val : ℝ) - r| < |(y.val : ℝ) - r|

/-- `x` is finite, and no finite binary32 number is closer to `r`. -/
def Nearest (x : F32) (r : ℝ) : Prop :=
  x.IsFin = true ∧ ∀ y : F32, y.IsFin = true → |(x.val : ℝ) - r| ≤ |(y.val : ℝ) - r|

/-- `x` is the result of IEEE-754 "roundTiesToEven" applied to the exact number `r`: below the overflow threshold
`(2^25 - 1) * 2^103` (half a unit above the largest finite number) a nearest finite number, and if another finite
number is as near, then the last bit of the encoding of `x` is 0; from the threshold on, the infinity of the same
sign. -/
def CorrectlyRounded (x : F32) (r : ℝ) : Prop :=
  (|r| < (2 ^ 25 - 1) * 2 ^ 103 → Nearest x r ∧
    ∀ y : F32, y.IsFin = true → y.val ≠ x.val → |(y.val : ℝ) - r| = |(x.val : ℝ) - r| → x.bits.toNat % 2 = 0) ∧
  ((2 ^ 25 - 1) * 2 ^ 103 ≤ r → x = .inf false) ∧ (r ≤ -((2 ^ 25 - 1) * 2 ^ 103) → x = .inf true)

end Zcm.F32
