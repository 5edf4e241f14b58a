import Verif.Spec.Coord
import Verif.Lemmas.F32
import Verif.Model.Common

/-!
# C25: Boolean mix selects

For every carrier, so in particular bit for bit on floats.
-/

namespace Zcm

/-- C25, scalar. -/
theorem C25_scalar {β : Type} (x y : β) (t : Bool) :
    (t = true → F.mixB x y t = y) ∧ (t = false → F.mixB x y t = x) := by
  constructor <;> rintro rfl <;> rfl

/-- C25, `vec2`. -/
theorem C25_vec2 {β : Type} (x y : V2 β) (t : V2 Bool) (i : Fin 2) :
    (coord t i = true → coord (V2.mixB x y t) i = coord y i) ∧
    (coord t i = false → coord (V2.mixB x y t) i = coord x i) := by
  fin_cases i <;> exact C25_scalar _ _ _

/-- C25, `vec3`. -/
theorem C25_vec3 {β : Type} (x y : V3 β) (t : V3 Bool) (i : Fin 3) :
    (coord t i = true → coord (V3.mixB x y t) i = coord y i) ∧
    (coord t i = false → coord (V3.mixB x y t) i = coord x i) := by
  fin_cases i <;> exact C25_scalar _ _ _

/-- C25, `vec4`. -/
theorem C25_vec4 {β : Type} (x y : V4 β) (t : V4 Bool) (i : Fin 4) :
    (coord t i = true → coord (V4.mixB x y t) i = coord y i) ∧
    (coord t i = false → coord (V4.mixB x y t) i = coord x i) := by
  fin_cases i <;> exact C25_scalar _ _ _

/-- Non-vacuity: an unselected NaN does not leak into the result. -/
example : V2.mixB (⟨lit 1, .nan⟩ : V2 F32) ⟨.nan, lit 2⟩ ⟨false, true⟩ = ⟨lit 1, lit 2⟩ := by
  simp [V2.mixB, F.mixB]

end Zcm
