import Verif.Model.F32
import Verif.Spec.Linear
import Mathlib.Algebra.BigOperators.Fin

/-!
# Specification: floats that hold integers
-/

namespace Zcm.F32

/-- The finite float `x` is exactly the integer `n` (as always, `-0` is also the integer 0). -/
def IsInt (x : F32) (n : ℤ) : Prop := x.IsFin = true ∧ x.val = n

/-- The entries of `m` (row `r`, column `c`) are those of the integer matrix `N`, of magnitude at most `B`. -/
def IntMat {k : ℕ} (m : Matrix (Fin k) (Fin k) F32) (N : Matrix (Fin k) (Fin k) ℤ) (B : ℤ) : Prop :=
  ∀ r c, IsInt (m r c) (N r c) ∧ |N r c| ≤ B

/-- `x` is exactly `Σ aᵢ bᵢ` whenever the `a` and `b` are integers and the magnitudes of the terms add up to at most
`2^24`. -/
def ExactSum (x : F32) {k : ℕ} (a b : Fin k → F32) : Prop :=
  ∀ m n : Fin k → ℤ, (∀ i, IsInt (a i) (m i)) → (∀ i, IsInt (b i) (n i)) → ∑ i, |m i * n i| ≤ 2 ^ 24 →
    IsInt x (∑ i, m i * n i)

end Zcm.F32
