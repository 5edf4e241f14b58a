import Verif.Spec.View

/-!
# Specification: ordinary boxes and points of an orthographic view
-/

namespace Zcm

/-- Two opposite sides of the box an orthographic camera sees: finite, not absurdly far out or close together; the middle of the two and
the first of them are at 0 or not absurdly close to it. -/
structure BoxSides (a b : F32) : Prop where
  fin : a.IsFin = true ∧ b.IsFin = true
  size : |(a.val : ℝ)| ≤ 2 ^ 30 ∧ |(b.val : ℝ)| ≤ 2 ^ 30
  apart : 1 / 2 ^ 28 ≤ |(b.val : ℝ) - a.val|
  offset : (b.val : ℝ) + a.val = 0 ∨ 1 / 2 ^ 60 ≤ |(b.val : ℝ) + a.val|
  start : (a.val : ℝ) = 0 ∨ 1 / 2 ^ 60 ≤ |(a.val : ℝ)|

/-- The point `p` and the camera at `eye`: finite, not absurdly far out, not both at the origin. -/
structure Placed (eye p : V3 F32) : Prop where
  fin : ∀ i, (coord p i).IsFin = true
  size_le : ‖exactly p‖ ≤ 2 ^ 60
  away : 1 / 2 ^ 30 ≤ ‖exactly p‖ + ‖exactly eye‖

end Zcm
