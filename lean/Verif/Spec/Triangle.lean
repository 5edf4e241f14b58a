import Verif.Spec.View

/-!
# Specification: triangles in Euclidean 3-space

The normal of the triangle with the corners `A`, `B`, `C` (counterclockwise seen from the tip of the normal), and what is asked
of a triangle with float corners so that it has a meaningful normal.
-/

namespace Zcm

open NormedSpace InnerProductGeometry

/-- The exact unit normal of a triangle. -/
noncomputable def triangleNormal (A B C : Space) : Space := normalize (cross3 (B - A) (C - A))

/-- The sine of the angle at the first corner. -/
noncomputable def cornerSine (A B C : Space) : ℝ := Real.sin (angle (B - A) (C - A))

/-- A triangle with finite corners, the two edges at `a` neither tiny nor huge, and not so thin that rounding of the edges decides
where it faces. -/
structure GoodTriangle (a b c : V3 F32) : Prop where
  fin : ∀ i, (coord a i).IsFin = true ∧ (coord b i).IsFin = true ∧ (coord c i).IsFin = true
  ab_ge : 1 / 2 ^ 16 ≤ ‖exactly b - exactly a‖
  ab_le : ‖exactly b - exactly a‖ ≤ 2 ^ 31
  ac_ge : 1 / 2 ^ 16 ≤ ‖exactly c - exactly a‖
  ac_le : ‖exactly c - exactly a‖ ≤ 2 ^ 31
  sine_ge : 1 / 2 ^ 16 ≤ cornerSine (exactly a) (exactly b) (exactly c)

end Zcm
