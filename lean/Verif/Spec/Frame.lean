import Verif.Spec.View

/-!
# Specification: the frame of a normal and a tangent direction

What a renderer builds for every vertex: from a unit normal and a rough tangent direction an exact frame of three perpendicular
unit vectors.
-/

namespace Zcm

open NormedSpace InnerProductGeometry
open scoped RealInnerProductSpace

/-- The unit vector perpendicular to the unit vector `N` that is nearest to the direction of `t`. -/
noncomputable def tangentOf (N t : Space) : Space := normalize (t - ⟪N, t⟫ • N)

/-- The third direction of the frame. -/
noncomputable def bitangentOf (N t : Space) : Space := cross3 N (tangentOf N t)

/-- The sine of the angle between normal and tangent direction. -/
noncomputable def slant (n t : Space) : ℝ := Real.sin (angle n t)

/-- A normal of length about 1 and a tangent direction, neither tiny nor huge, that is not (almost) parallel to it. -/
structure GoodTangent (n t : V3 F32) : Prop where
  fin : ∀ i, (coord n i).IsFin = true ∧ (coord t i).IsFin = true
  unit : |‖exactly n‖ - 1| ≤ 1 / 2 ^ 20
  t_ge : 1 / 2 ^ 30 ≤ ‖exactly t‖
  t_le : ‖exactly t‖ ≤ 2 ^ 60
  slant_ge : 1 / 2 ^ 12 ≤ slant (exactly n) (exactly t)

end Zcm
