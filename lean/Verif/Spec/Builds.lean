import Verif.Model.Scalar

/-!
# Specification: debug and release builds of one call
-/

namespace Zcm

/-- `f .debug` and `f .release` are the outcomes of one call (or one program) in the two builds.  The release build
never stops at an assertion, and unless the debug build stops at one, both do the same: the same result, or the same
undefined behaviour. -/
def BuildsAgree {α : Type} (f : Build → Res α) : Prop :=
  f .release ≠ .abort ∧ (f .debug = .abort ∨ f .debug = f .release)

end Zcm
