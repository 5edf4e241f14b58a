import Mathlib.Analysis.SpecialFunctions.Log.Basic
import Verif.Spec.Clip
import Verif.Model.Scalar

/-!
# Specification: good exponential and logarithm

What is assumed of the C library's `expf` and `logf` where a theorem needs them to be accurate.
-/

namespace Zcm

/-- `expf` is good: for arguments between -64 and 64 (so that nothing overflows or underflows) it is within relative
`2^-22` of the exact exponential.  (Two to four units in the last place; the usual C libraries promise one.) -/
def GoodExp [Libm F32] : Prop :=
  ∀ x : F32, x.IsFin = true → |(x.val : ℝ)| ≤ 64 → Near (Libm.expf x) (Real.exp x.val) (1 / 2 ^ 22 * Real.exp x.val)

/-- `logf` is good: for arguments between `2^-95` and `2^95` it is within relative `2^-22` of the exact natural logarithm (or
within `2^-100`, where the logarithm is 0). -/
def GoodLog [Libm F32] : Prop :=
  ∀ x : F32, x.IsFin = true → 1 / 2 ^ 95 ≤ (x.val : ℝ) → (x.val : ℝ) ≤ 2 ^ 95 →
    Near (Libm.logf x) (Real.log x.val) (1 / 2 ^ 22 * |Real.log x.val| + 1 / 2 ^ 100)

end Zcm
