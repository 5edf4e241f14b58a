import Verif.Model.F32
import Mathlib.Data.Real.Basic

/-!
# Specification: interpolation between two numbers, in exact arithmetic
-/

namespace Zcm

/-- The number at parameter `t` on the way from `x` to `y`: `x` at 0, `y` at 1. -/
def wayFrom (x y t : ℝ) : ℝ := x + t * (y - x)

/-- The cubic transition `3 s² - 2 s³` from 0 at `a` (and before) to 1 at `b` (and after), `s` being the position between
`a` and `b`. -/
noncomputable def transition (a b x : ℝ) : ℝ :=
  let s := max 0 (min 1 ((x - a) / (b - a)))
  3 * s ^ 2 - 2 * s ^ 3

end Zcm
