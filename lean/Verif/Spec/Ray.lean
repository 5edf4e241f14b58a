import Verif.Spec.View

/-!
# Specification: where a ray meets a plane
-/

namespace Zcm

open scoped RealInnerProductSpace

/-- How far along the direction `d` (in lengths of `d`) the ray from `o` meets the plane through `c` with normal `n`. -/
noncomputable def planeTime (n c o d : Space) : ℝ := ⟪n, c - o⟫ / ⟪n, d⟫

/-- The point where the ray from `o` in direction `d` meets the plane through `c` with normal `n`. -/
noncomputable def planeHit (n c o d : Space) : Space := o + planeTime n c o d • d

/-- The magnitude of the cosine of the angle between normal and ray: 1 for a ray that meets the plane head on, 0 for one along it. -/
noncomputable def facing (n d : Space) : ℝ := |⟪n, d⟫| / (‖n‖ * ‖d‖)

/-- A plane and a ray of ordinary size that is not (almost) parallel to the plane. -/
structure GoodRay (n c o d : V3 F32) : Prop where
  fin : ∀ i, (coord n i).IsFin = true ∧ (coord c i).IsFin = true ∧ (coord o i).IsFin = true ∧ (coord d i).IsFin = true
  n_ge : 1 / 2 ^ 10 ≤ ‖exactly n‖
  n_le : ‖exactly n‖ ≤ 2 ^ 10
  d_ge : 1 / 2 ^ 10 ≤ ‖exactly d‖
  d_le : ‖exactly d‖ ≤ 2 ^ 10
  far_ge : 1 / 2 ^ 30 ≤ ‖exactly c - exactly o‖
  far_le : ‖exactly c - exactly o‖ ≤ 2 ^ 30
  o_le : ‖exactly o‖ ≤ 2 ^ 30
  facing_ge : 1 / 2 ^ 10 ≤ facing (exactly n) (exactly d)

end Zcm
