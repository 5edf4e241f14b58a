import Verif.Model.F32
import Verif.Model.Common

/-!
# Specification: searching a list of points, as a caller writes it

Not a file of /repo.
-/

namespace Zcm

/-- The loop `for (p : ps) if (d(p) < d(best)) best = p;`, started with `best = p`. -/
def nearestBy {P : Type} (d : P → F32) (p : P) (ps : List P) : P :=
  ps.foldl (fun best a => if d a < d best then a else best) p

/-- The loop `for (p : ps) r = max(r, d(p));`, started with `r = d(p)`. -/
def radiusBy {P : Type} (d : P → F32) (p : P) (ps : List P) : F32 :=
  ps.foldl (fun r a => F.max r (d a)) (d p)

/-- `r` is the first member of the list at which `d` is smallest; members at which `d` is a NaN do not count. -/
def FirstSmallest {P : Type} (d : P → F32) (r : P) (l : List P) : Prop :=
  d r ≠ .nan ∧ ∃ before after, l = before ++ r :: after ∧
    (∀ a ∈ before, d a ≠ .nan → d r < d a) ∧ ∀ a ∈ after, d a ≠ .nan → d r ≤ d a

end Zcm
