import Verif.Model.F32
import Verif.Spec.Coord

/-!
# Specification: NaN components
-/

namespace Zcm

/-- Some component of `v` is NaN. -/
def HasNaN {V : Type → Type} {n : ℕ} [Coords V n] (v : V F32) : Prop := ∃ i, coord v i = .nan

/-- Every component of `v` is NaN. -/
def AllNaN {V : Type → Type} {n : ℕ} [Coords V n] (v : V F32) : Prop := ∀ i, coord v i = .nan

/-- Some entry of the matrix is NaN. -/
def HasNaNM {M : Type → Type} {n : ℕ} [Entries M n] (m : M F32) : Prop := ∃ c r, entry m c r = .nan

/-- Every entry of the matrix is NaN. -/
def AllNaNM {M : Type → Type} {n : ℕ} [Entries M n] (m : M F32) : Prop := ∀ c r, entry m c r = .nan

end Zcm
