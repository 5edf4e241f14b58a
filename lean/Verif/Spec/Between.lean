import Verif.Spec.View
import Verif.Spec.Turn

/-!
# Specification: directions, and the rotation from one direction to another
-/

namespace Zcm

open Quaternion F32 InnerProductGeometry NormedSpace

/-- A vector of finite numbers whose length is between `2^-18` and `2^30`. -/
structure Moderate (v : V3 F32) : Prop where
  fin : ∀ i, (coord v i).IsFin = true
  ge : 1 / 2 ^ 18 ≤ ‖exactly v‖
  le : ‖exactly v‖ ≤ 2 ^ 30

/-- The exact direction of a vector, as a pure quaternion. -/
noncomputable def directionQ (v : V3 F32) : ℍ[ℝ] := vecQ (normalize (exactly v) : Space)

/-- The cosine of half the angle between two vectors. -/
noncomputable def halfCos (u v : V3 F32) : ℝ := Real.cos (angle (exactly u) (exactly v) / 2)

/-- `Q` is the rotation through the smallest angle that turns the direction of `u` to that of `v`: it has norm 1, it rotates the
one to the other, and its own angle is the angle between them. -/
structure ShortestArc (u v : V3 F32) (Q : ℍ[ℝ]) : Prop where
  unit : ‖Q‖ = 1
  turns : Q * directionQ u * Q⁻¹ = directionQ v
  angle : Q.re = halfCos u v

end Zcm
