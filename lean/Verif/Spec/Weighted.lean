import Verif.Model.F32
import Mathlib.Algebra.BigOperators.Group.List.Basic
import Mathlib.Data.Real.Basic

/-!
# Specification: weighted sums of any number of terms
-/

namespace Zcm

/-- A weighted sum as a caller writes it: `r = p; r = r + v0 * w0; r = r + v1 * w1; ...` -/
def weighted {V : Type} [HMul V F32 V] [Add V] (p : V) (terms : List (V × F32)) : V :=
  terms.foldl (fun r t => r + t.1 * t.2) p

/-- Its exact value. -/
def exactWeighted (p : F32) (terms : List (F32 × F32)) : ℝ := p.val + (terms.map fun t => (t.1.val : ℝ) * t.2.val).sum

/-- The sum of the magnitudes of its terms, each enlarged by the smallest normal number. -/
noncomputable def weightedSize (p : F32) (terms : List (F32 × F32)) : ℝ :=
  |(p.val : ℝ)| + (terms.map fun t => |(t.1.val : ℝ) * t.2.val| + 1 / 2 ^ 125).sum

/-- `x` is an accurate value of the weighted sum.
* If `x` is finite, its error is at most what `n + 1` roundings amount to, relative to the sum of the magnitudes.
* If all numbers are finite and that sum does not come near the largest float, `x` is finite. -/
def AccurateWeighted (x p : F32) (terms : List (F32 × F32)) : Prop :=
  (x.IsFin = true → |(x.val : ℝ) - exactWeighted p terms| ≤ ((1 + 1 / 2 ^ 24) ^ (terms.length + 1) - 1) * weightedSize p terms) ∧
  (p.IsFin = true → (∀ t ∈ terms, t.1.IsFin = true ∧ t.2.IsFin = true) →
    (1 + 1 / 2 ^ 24) ^ (terms.length + 1) * weightedSize p terms ≤ 2 ^ 126 → x.IsFin = true)

/-- One component of every vector of a list of terms. -/
def termsOf {V : Type} (c : V → F32) (terms : List (V × F32)) : List (F32 × F32) := terms.map fun t => (c t.1, t.2)

end Zcm
