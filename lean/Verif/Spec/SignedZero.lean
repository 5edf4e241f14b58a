import Verif.Model.F32

/-!
# Specification: the same number, whatever the sign of a zero
-/

namespace Zcm.F32

/-- `x` and `y` are the same float, or both are zeros (of whatever sign). -/
def SameNumber (x y : F32) : Prop := x = y ∨ (x.IsFin = true ∧ y.IsFin = true ∧ x.val = 0 ∧ y.val = 0)

end Zcm.F32
