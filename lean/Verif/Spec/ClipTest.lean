import Verif.Spec.Clip

/-!
# Specification: the tests a rasteriser makes on clip coordinates
-/

namespace Zcm

/-- `-w ≤ x ≤ w`, compared as floats. -/
def WithinBoth (x w : F32) : Prop := -w ≤ x ∧ x ≤ w

/-- `0 ≤ z ≤ w`, compared as floats. -/
def WithinZero (z w : F32) : Prop := lit 0 ≤ z ∧ z ≤ w

end Zcm
