import Mathlib.Analysis.InnerProductSpace.PiL2
import Verif.Spec.Coord

/-!
# Specification: Euclidean space

`eu v` is the point of Mathlib's Euclidean `n`-space with the components of `v`; its norm,
distance and inner product are Mathlib's.
-/

namespace Zcm

/-- the element of Euclidean space with the components of `v` -/
noncomputable def eu {V : Type → Type} {n : ℕ} [Coords V n] (v : V ℝ) : EuclideanSpace ℝ (Fin n) :=
  WithLp.toLp 2 (coord v)

end Zcm
