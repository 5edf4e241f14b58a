import Verif.Model.F32
import Mathlib.Algebra.BigOperators.Group.List.Basic

/-!
# Specification: updates of a vector by multiplication and division
-/

namespace Zcm

/-- One update of a vector by a number: `v *= s;` or `v /= s;`. -/
inductive Scaling where
  | times (s : F32)
  | over (s : F32)

/-- The number in the update. -/
def Scaling.number : Scaling → F32
  | .times s => s
  | .over s => s

/-- What the update multiplies by in exact arithmetic. -/
def Scaling.factor : Scaling → ℚ
  | .times s => s.val
  | .over s => 1 / s.val

/-- The update, carried out with the given `*=` and `/=`. -/
def Scaling.run {V : Type} (mul div : V → F32 → V) (v : V) : Scaling → V
  | .times s => mul v s
  | .over s => div v s

/-- What a list of updates multiplies by in exact arithmetic. -/
def totalFactor (l : List Scaling) : ℚ := (l.map Scaling.factor).prod

end Zcm
