import Mathlib.LinearAlgebra.Matrix.NonsingularInverse
import Verif.Spec.Coord

/-!
# Specification: Mathlib matrices

`toMat m` is the Mathlib matrix whose number in row `r` and column `c` is the number in row `r` and
column `c` of `m`.
-/

namespace Zcm

/-- the Mathlib matrix with the entries of `m` -/
def toMat {M : Type → Type} {n : ℕ} [Entries M n] {β : Type} (m : M β) : Matrix (Fin n) (Fin n) β :=
  Matrix.of fun r c => entry m c r

end Zcm
