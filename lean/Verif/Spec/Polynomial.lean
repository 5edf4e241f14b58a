import Verif.Model.F32
import Mathlib.Data.Real.Basic

/-!
# Specification: polynomials with a list of coefficients, leading coefficient first
-/

namespace Zcm

/-- `c₀ tⁿ + c₁ tⁿ⁻¹ + … + cₙ` for the list `[c₀, c₁, …, cₙ]`. -/
def powerSum (t : ℝ) : List ℝ → ℝ
  | [] => 0
  | c :: cs => c * t ^ cs.length + powerSum t cs

/-- The same sum with all terms positive, and the smallest normal number added to every coefficient: the scale of the errors. -/
noncomputable def polyScale (t : ℝ) (cs : List ℝ) : ℝ := powerSum |t| (cs.map fun c => |c| + 1 / 2 ^ 125)

/-- Horner's rule, as a caller writes it: start with the leading coefficient, then multiply by `t` and add the next coefficient. -/
def horner {V S : Type} [HMul V S V] [Add V] (t : S) (first : V) (rest : List V) : V := rest.foldl (fun a c => a * t + c) first

/-- The exact value at `t` of the polynomial whose coefficients are the floats `cs`. -/
def exactPoly (t : F32) (cs : List F32) : ℝ := powerSum t.val (cs.map fun c => (c.val : ℝ))

/-- The scale of the errors for the same polynomial. -/
noncomputable def sizePoly (t : F32) (cs : List F32) : ℝ := polyScale t.val (cs.map fun c => (c.val : ℝ))

/-- `x` is an accurate value of the polynomial with leading coefficient `a` and further coefficients `cs` at `t`.
* If `x` is finite, its error is at most what two roundings for every coefficient amount to.
* If the coefficients are finite, at most `2^15` in number, and no partial sum comes near the largest float, `x` is finite and
  its error is at most `n * 2^-22`. -/
def AccuratePoly (x t a : F32) (cs : List F32) : Prop :=
  (x.IsFin = true → |(x.val : ℝ) - exactPoly t (a :: cs)| ≤ ((1 + 1 / 2 ^ 24) ^ (2 * cs.length) - 1) * sizePoly t (a :: cs)) ∧
  (cs.length ≤ 2 ^ 15 → (∀ c ∈ a :: cs, c.IsFin = true) → (∀ j ≤ cs.length, sizePoly t (a :: cs.take j) ≤ 2 ^ 125) →
    x.IsFin = true ∧ |(x.val : ℝ) - exactPoly t (a :: cs)| ≤ cs.length / 2 ^ 22 * sizePoly t (a :: cs))

end Zcm
