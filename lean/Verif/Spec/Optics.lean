import Mathlib.Analysis.InnerProductSpace.PiL2
import Mathlib.Analysis.InnerProductSpace.Projection.Reflection
import Mathlib.Analysis.Normed.Module.Normalize
import Verif.Model.F32

/-!
# Specification: exact reflection and refraction

Euclidean space, its norm, inner product, `normalize` and reflections are Mathlib's.
-/

namespace Zcm

open scoped RealInnerProductSpace

/-- The exact vector a vector of finite floats stands for. -/
noncomputable def exactE {n : ℕ} (v : Fin n → F32) : EuclideanSpace ℝ (Fin n) := WithLp.toLp 2 fun i => ((v i).val : ℝ)

/-- The float vector `v` is finite and within `e` of the exact vector `R`. -/
def NearE {n : ℕ} (v : Fin n → F32) (R : EuclideanSpace ℝ (Fin n)) (e : ℝ) : Prop :=
  (∀ i, (v i).IsFin = true) ∧ ‖exactE v - R‖ ≤ e

/-- The float vector is finite and of length 1 up to `2^-20` (what `normalize` gives, see C83). -/
def AboutUnit {n : ℕ} (v : Fin n → F32) : Prop := (∀ i, (v i).IsFin = true) ∧ |‖exactE v‖ - 1| ≤ 1 / 2 ^ 20

/-- The mirror image of `I` in the plane through the origin perpendicular to `N`. -/
noncomputable def mirror {n : ℕ} (N I : EuclideanSpace ℝ (Fin n)) : EuclideanSpace ℝ (Fin n) :=
  Submodule.reflection (Submodule.span ℝ {N})ᗮ I

/-- Snell's law: the unit vector `T` leaves the surface on the side opposite to its normal `N`, and its part along the
surface is `η` times that of the incoming direction `I`. -/
def Snell {n : ℕ} (I N : EuclideanSpace ℝ (Fin n)) (η : ℝ) (T : EuclideanSpace ℝ (Fin n)) : Prop :=
  ‖T‖ = 1 ∧ ⟪T, N⟫ ≤ 0 ∧ T - ⟪T, N⟫ • N = η • (I - ⟪I, N⟫ • N)

end Zcm
