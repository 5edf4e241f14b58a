import Mathlib.Analysis.Normed.Module.Normalize
import Mathlib.Geometry.Euclidean.Angle.Unoriented.CrossProduct
import Verif.Model.F32
import Verif.Model.Vec
import Verif.Spec.Coord

/-!
# Specification: the exact directions of a camera

Euclidean 3-space, its norm, angles, cross product and `normalize` are Mathlib's.
-/

namespace Zcm

open NormedSpace InnerProductGeometry WithLp
open scoped Matrix

/-- Euclidean 3-space -/
abbrev Space := EuclideanSpace ℝ (Fin 3)

/-- The exact vector a float vector stands for. -/
noncomputable def exactly (v : V3 F32) : Space := toLp 2 fun i => ((coord v i).val : ℝ)

/-- The cross product in Euclidean 3-space. -/
noncomputable def cross3 (a b : Space) : Space := toLp 2 (ofLp a ⨯₃ ofLp b)

/-- The direction of view. -/
noncomputable def viewDir (eye center : Space) : Space := normalize (center - eye)

/-- The direction perpendicular to the direction of view and to `up`, right-handed. -/
noncomputable def viewSide (eye center up : Space) : Space := normalize (cross3 (viewDir eye center) up)

/-- The direction perpendicular to the other two. -/
noncomputable def viewUp (eye center up : Space) : Space := cross3 (viewSide eye center up) (viewDir eye center)

/-- The sine of the angle between the direction of view and `up`. -/
noncomputable def viewSine (eye center up : Space) : ℝ := Real.sin (angle (center - eye) up)

/-- A sensible camera: finite numbers, nothing absurdly large or small, not looking along `up`. -/
structure GoodView (eye center up : V3 F32) : Prop where
  fin : ∀ i, (coord eye i).IsFin = true ∧ (coord center i).IsFin = true ∧ (coord up i).IsFin = true
  eye_le : ‖exactly eye‖ ≤ 2 ^ 60
  dist_ge : 1 / 2 ^ 40 ≤ ‖exactly center - exactly eye‖
  dist_le : ‖exactly center - exactly eye‖ ≤ 2 ^ 60
  up_ge : 1 / 2 ^ 30 ≤ ‖exactly up‖
  up_le : ‖exactly up‖ ≤ 2 ^ 60
  sine_ge : 1 / 2 ^ 16 ≤ viewSine (exactly eye) (exactly center) (exactly up)

end Zcm
