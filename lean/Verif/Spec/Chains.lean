import Verif.Spec.Leibniz
import Mathlib.Analysis.CStarAlgebra.Matrix

/-!
# Specification: exact products of float matrices, measured by how much they stretch vectors

With `Matrix.Norms.L2Operator`, `‖A‖` is the largest factor by which the matrix `A` stretches the Euclidean length of a vector: 1 for a
rotation.
-/

namespace Zcm

open WithLp
open scoped Matrix Matrix.Norms.L2Operator

variable {M : Type → Type} {n : ℕ} [Entries M n]

/-- The real matrix that a matrix of finite floats stands for (first index: row). -/
noncomputable def realMat (m : M F32) : Matrix (Fin n) (Fin n) ℝ := Matrix.of fun r c => ((entry m c r).val : ℝ)

/-- No entry of the matrix is an infinity or a NaN. -/
def FiniteMat (m : M F32) : Prop := ∀ c r, (entry m c r).IsFin = true

/-- The exact product of the matrices, in this order. -/
noncomputable def exactChain (ms : List (M F32)) : Matrix (Fin n) (Fin n) ℝ := (ms.map realMat).prod

/-- The product of their norms: the factor by which the chain could stretch a vector if every link stretched it most. -/
noncomputable def stretch (ms : List (M F32)) : ℝ := (ms.map fun m => ‖realMat m‖).prod

/-- The exact vector a float vector stands for. -/
noncomputable def realVec (v : Fin n → F32) : EuclideanSpace ℝ (Fin n) := toLp 2 fun i => ((v i).val : ℝ)

/-- The exact matrix times the exact vector. -/
noncomputable def applyMat (A : Matrix (Fin n) (Fin n) ℝ) (x : EuclideanSpace ℝ (Fin n)) : EuclideanSpace ℝ (Fin n) :=
  toLp 2 (A *ᵥ ofLp x)

end Zcm
