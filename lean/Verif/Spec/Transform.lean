import Verif.Spec.Leibniz
import Verif.Spec.View

/-!
# Specification: transforms with (nearly) perpendicular axes
-/

namespace Zcm

open WithLp
open scoped RealInnerProductSpace

/-- Column `c` of the upper three rows, exactly: the image of the unit vector along axis `c`; column 3 is the translation. -/
noncomputable def axisOf (m : M4 F32) (c : Fin 4) : Space := toLp 2 fun r : Fin 3 => ((entry m c r.castSucc).val : ℝ)

/-- The exact image of the point with local coordinates `x`. -/
noncomputable def placed (m : M4 F32) (x : Fin 3 → ℝ) : Space := axisOf m 3 + ∑ c : Fin 3, x c • axisOf m c.castSucc

/-- Three axes of length `2^-16` to `2^20`, perpendicular up to 1/100. -/
structure NearlyBox (a : Fin 3 → Space) : Prop where
  low : ∀ c, 1 / 2 ^ 16 ≤ ‖a c‖
  high : ∀ c, ‖a c‖ ≤ 2 ^ 20
  ortho : ∀ c d, c ≠ d → |⟪a c, a d⟫| ≤ 1 / 100 * (‖a c‖ * ‖a d‖)

/-- A transform such as translation times rotation times scale: finite, last row 0 0 0 1, axes as above, translation at most `2^20`. -/
structure Transform (m : M4 F32) : Prop where
  fin : ∀ c r, (entry m c r).IsFin = true
  last : ∀ c : Fin 3, (entry m c.castSucc 3).val = 0
  one : (entry m 3 3).val = 1
  box : NearlyBox fun c => axisOf m c.castSucc
  far : ‖axisOf m 3‖ ≤ 2 ^ 20

/-- Column `c` of a mat3, exactly. -/
noncomputable def columnOf (m : M3 F32) (c : Fin 3) : Space := toLp 2 fun r : Fin 3 => ((entry m c r).val : ℝ)

end Zcm
