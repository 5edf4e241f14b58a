import Verif.Spec.View

/-!
# Specification: points a camera sees
-/

namespace Zcm

open scoped RealInnerProductSpace

/-- The point `p` lies in front of a camera at `eye` that looks at `center`: finite, not absurdly far out, and its distance in the
direction of view is not absurdly small in itself or compared with the distances of `p` and `eye` from the origin. -/
structure InSight (eye center p : V3 F32) : Prop where
  fin : ∀ i, (coord p i).IsFin = true
  size_le : ‖exactly p‖ ≤ 2 ^ 60
  ahead : 1 / 2 ^ 30 ≤ ⟪viewDir (exactly eye) (exactly center), exactly p - exactly eye⟫
  near : ‖exactly p‖ + ‖exactly eye‖ ≤ 2 ^ 16 * ⟪viewDir (exactly eye) (exactly center), exactly p - exactly eye⟫

end Zcm
