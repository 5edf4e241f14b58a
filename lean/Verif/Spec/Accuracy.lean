import Verif.Model.F32
import Mathlib.Algebra.BigOperators.Fin
import Mathlib.Analysis.SpecialFunctions.Sqrt

/-!
# Specification: accurately computed sums of products

`x.val` is the exact rational number a finite binary32 number `x` stands for; `2^-24` is the unit roundoff of
binary32, `2^-149` its smallest positive number.
-/

namespace Zcm.F32

/-- `x` is an accurate binary32 value of the exact sum `Σ aᵢ bᵢ`: it does not overflow if the terms are finite and
add up to at most `2^126`, and whenever it is finite it is off by at most `(1 + 2^-24)^n - 1` times the sum of the
magnitudes of the `n` terms (plus `n` units of the smallest positive number, for underflow). -/
def AccurateSum (x : F32) {n : ℕ} (a b : Fin n → F32) : Prop :=
  ((∀ i, (a i).IsFin = true ∧ (b i).IsFin = true) → ∑ i, |(a i).val * (b i).val| ≤ 2 ^ 126 → x.IsFin = true) ∧
  (x.IsFin = true →
    |x.val - ∑ i, (a i).val * (b i).val| ≤
      ((1 + 1 / 2 ^ 24) ^ n - 1) * ∑ i, |(a i).val * (b i).val| + n / 2 ^ 149)

/-- The exact Euclidean length of a vector of binary32 numbers. -/
noncomputable def exactLength {n : ℕ} (v : Fin n → F32) : ℝ := Real.sqrt (∑ i, ((v i).val : ℝ) ^ 2)

/-- The exact Euclidean distance of two vectors of binary32 numbers. -/
noncomputable def exactDistance {n : ℕ} (a b : Fin n → F32) : ℝ :=
  Real.sqrt (∑ i, ((a i).val - (b i).val : ℝ) ^ 2)

/-- A vector of finite numbers whose length is neither extremely small nor extremely large, so that its squares
neither underflow nor overflow. -/
def Medium {n : ℕ} (v : Fin n → F32) : Prop :=
  (∀ i, (v i).IsFin = true) ∧ 1 / 2 ^ 50 ≤ exactLength v ∧ exactLength v ≤ 2 ^ 63

end Zcm.F32
