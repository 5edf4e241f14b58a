import Verif.Spec.View

/-!
# Specification: where a ray meets a sphere
-/

namespace Zcm

open scoped RealInnerProductSpace

/-- The discriminant for the ray from `o` in the unit direction `d` and the sphere around `s` with radius `r`: the square of the radius less
the square of the distance of the line from the centre. -/
noncomputable def sphereDisc (s : Space) (r : ℝ) (o d : Space) : ℝ := ⟪o - s, d⟫ ^ 2 - (‖o - s‖ ^ 2 - r ^ 2)

/-- How far along the unit direction `d` the line from `o` enters the sphere. -/
noncomputable def sphereTime (s : Space) (r : ℝ) (o d : Space) : ℝ := -⟪o - s, d⟫ - Real.sqrt (sphereDisc s r o d)

/-- The point where the line enters the sphere. -/
noncomputable def sphereHit (s : Space) (r : ℝ) (o d : Space) : Space := o + sphereTime s r o d • d

/-- A sphere and a ray of ordinary size, with a direction of length 1 up to `2^-20` (what `normalize` gives, see C83). `M` bounds the radius
and the distance of the ray's origin from the centre. -/
structure GoodSphere (s : V3 F32) (r : F32) (o d : V3 F32) (M : ℝ) : Prop where
  fin : r.IsFin = true ∧ ∀ i, (coord s i).IsFin = true ∧ (coord o i).IsFin = true ∧ (coord d i).IsFin = true
  unit : |‖exactly d‖ - 1| ≤ 1 / 2 ^ 20
  r_le : |(r.val : ℝ)| ≤ M
  far_le : ‖exactly o - exactly s‖ ≤ M
  M_ge : 1 / 2 ^ 30 ≤ M
  M_le : M ≤ 2 ^ 30
  o_le : ‖exactly o‖ ≤ 2 ^ 30

end Zcm
