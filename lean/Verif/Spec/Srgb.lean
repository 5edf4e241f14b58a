import Mathlib.Analysis.SpecialFunctions.Pow.Real
import Verif.Spec.Clip

/-!
# Specification: the sRGB transfer curve (IEC 61966-2-1)
-/

namespace Zcm

/-- From an sRGB component to the linear one, as in the standard. -/
noncomputable def srgbDecode (x : ℝ) : ℝ := if x ≤ 0.04045 then x / 12.92 else ((x + 0.055) / 1.055) ^ (2.4 : ℝ)

/-- From a linear component to the sRGB one, as in the standard. -/
noncomputable def srgbEncode (x : ℝ) : ℝ := if x ≤ 0.0031308 then 12.92 * x else 1.055 * x ^ (1 / 2.4 : ℝ) - 0.055

/-- The `powf` of the C library is good: relative error at most `2^-22` for moderate bases and exponents. -/
def GoodPow [Libm F32] : Prop :=
  ∀ x y : F32, x.IsFin = true → y.IsFin = true → 1 / 2 ^ 10 ≤ (x.val : ℝ) → (x.val : ℝ) ≤ 2 → 1 / 4 ≤ (y.val : ℝ) →
    (y.val : ℝ) ≤ 4 → Near (Libm.powf x y) ((x.val : ℝ) ^ (y.val : ℝ)) (1 / 2 ^ 22 * (x.val : ℝ) ^ (y.val : ℝ))

/-- An encoding exponent that is 1/2.4 as nearly as a float can be, such as `1 / 2.4f`. -/
def EncodingGamma (g : F32) : Prop := g.IsFin = true ∧ |(g.val : ℝ) - 1 / 2.4| ≤ 1 / 2 ^ 26

/-- A colour component: a float between 0 and 1. -/
def Component (x : F32) : Prop := x.IsFin = true ∧ 0 ≤ (x.val : ℝ) ∧ (x.val : ℝ) ≤ 1

end Zcm
