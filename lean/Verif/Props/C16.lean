import Verif.Spec.Coord
import Verif.Model.Matrix

/-!
# C16: entrywise matrix operators

For every carrier.
-/

namespace Zcm

variable {α : Type} [Add α] [Sub α] [Mul α] [Div α] [Neg α]

/-- C16 for `mat2`. -/
theorem C16_mat2 (a b : M2 α) (s : α) (c r : Fin 2) :
    entry (a + b) c r = entry a c r + entry b c r ∧
    entry (a - b) c r = entry a c r - entry b c r ∧
    entry (-a) c r = -entry a c r ∧
    entry (M2.pos a) c r = entry a c r ∧
    entry (a * s) c r = entry a c r * s ∧
    entry (s * a) c r = s * entry a c r ∧
    entry (a / s) c r = entry a c r / s ∧
    entry (s / a) c r = s / entry a c r ∧
    entry (M2.matrixCompMult a b) c r = entry a c r * entry b c r := by
  fin_cases c <;> fin_cases r <;> exact ⟨rfl, rfl, rfl, rfl, rfl, rfl, rfl, rfl, rfl⟩

/-- C16 for `mat3`. -/
theorem C16_mat3 (a b : M3 α) (s : α) (c r : Fin 3) :
    entry (a + b) c r = entry a c r + entry b c r ∧
    entry (a - b) c r = entry a c r - entry b c r ∧
    entry (-a) c r = -entry a c r ∧
    entry (M3.pos a) c r = entry a c r ∧
    entry (a * s) c r = entry a c r * s ∧
    entry (s * a) c r = s * entry a c r ∧
    entry (a / s) c r = entry a c r / s ∧
    entry (s / a) c r = s / entry a c r ∧
    entry (M3.matrixCompMult a b) c r = entry a c r * entry b c r := by
  fin_cases c <;> fin_cases r <;> exact ⟨rfl, rfl, rfl, rfl, rfl, rfl, rfl, rfl, rfl⟩

/-- C16 for `mat4`. -/
theorem C16_mat4 (a b : M4 α) (s : α) (c r : Fin 4) :
    entry (a + b) c r = entry a c r + entry b c r ∧
    entry (a - b) c r = entry a c r - entry b c r ∧
    entry (-a) c r = -entry a c r ∧
    entry (M4.pos a) c r = entry a c r ∧
    entry (a * s) c r = entry a c r * s ∧
    entry (s * a) c r = s * entry a c r ∧
    entry (a / s) c r = entry a c r / s ∧
    entry (s / a) c r = s / entry a c r ∧
    entry (M4.matrixCompMult a b) c r = entry a c r * entry b c r := by
  fin_cases c <;> fin_cases r <;> exact ⟨rfl, rfl, rfl, rfl, rfl, rfl, rfl, rfl, rfl⟩

/-- Non-vacuity: scalar on the left of a division. -/
example : entry ((12 : ℤ) / (⟨⟨1, 2⟩, ⟨3, 4⟩⟩ : M2 ℤ)) 1 0 = 4 := by decide

end Zcm
