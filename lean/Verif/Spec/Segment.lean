import Verif.Spec.View

/-!
# Specification: the nearest point of a line and of a segment
-/

namespace Zcm

open scoped RealInnerProductSpace

/-- Where along the line from `a` (at 0) to `b` (at 1) the point nearest to `p` lies. -/
noncomputable def alongLine (a b p : Space) : ℝ := ⟪p - a, b - a⟫ / ⟪b - a, b - a⟫

/-- The point of the line through `a` and `b` nearest to `p`. -/
noncomputable def nearestOnLine (a b p : Space) : Space := a + alongLine a b p • (b - a)

/-- The point of the segment between `a` and `b` nearest to `p`. -/
noncomputable def nearestOnSegment (a b p : Space) : Space := a + min (max (alongLine a b p) 0) 1 • (b - a)

/-- A segment and a point of ordinary size. -/
structure GoodSegment (a b p : V3 F32) : Prop where
  fin : ∀ i, (coord a i).IsFin = true ∧ (coord b i).IsFin = true ∧ (coord p i).IsFin = true
  a_le : ‖exactly a‖ ≤ 2 ^ 30
  len_ge : 1 / 2 ^ 30 ≤ ‖exactly b - exactly a‖
  len_le : ‖exactly b - exactly a‖ ≤ 2 ^ 30
  p_le : ‖exactly p - exactly a‖ ≤ 2 ^ 30

end Zcm
