import Verif.Spec.Coord

/-!
# C01: vector arithmetic is componentwise

For every carrier `α` (hence for `float`).  The integer vectors, whose operators can be
undefined, are in `Props/C11.lean`.
-/

namespace Zcm

variable {α : Type} [Add α] [Sub α] [Mul α] [Div α] [Neg α]

/-- C01 for `vec2`: every operator, both operand orders, every component. -/
theorem C01_vec2 (a b : V2 α) (s : α) (i : Fin 2) :
    coord (a + b) i = coord a i + coord b i ∧
    coord (a + s) i = coord a i + s ∧
    coord (s + a) i = s + coord a i ∧
    coord (a - b) i = coord a i - coord b i ∧
    coord (a - s) i = coord a i - s ∧
    coord (s - a) i = s - coord a i ∧
    coord (a * b) i = coord a i * coord b i ∧
    coord (a * s) i = coord a i * s ∧
    coord (s * a) i = s * coord a i ∧
    coord (a / b) i = coord a i / coord b i ∧
    coord (a / s) i = coord a i / s ∧
    coord (s / a) i = s / coord a i ∧
    coord (-a) i = -coord a i ∧
    coord (V2.pos a) i = coord a i := by
  fin_cases i <;> exact ⟨rfl, rfl, rfl, rfl, rfl, rfl, rfl, rfl, rfl, rfl, rfl, rfl, rfl, rfl⟩

/-- C01 for `vec3`: every operator, both operand orders, every component. -/
theorem C01_vec3 (a b : V3 α) (s : α) (i : Fin 3) :
    coord (a + b) i = coord a i + coord b i ∧
    coord (a + s) i = coord a i + s ∧
    coord (s + a) i = s + coord a i ∧
    coord (a - b) i = coord a i - coord b i ∧
    coord (a - s) i = coord a i - s ∧
    coord (s - a) i = s - coord a i ∧
    coord (a * b) i = coord a i * coord b i ∧
    coord (a * s) i = coord a i * s ∧
    coord (s * a) i = s * coord a i ∧
    coord (a / b) i = coord a i / coord b i ∧
    coord (a / s) i = coord a i / s ∧
    coord (s / a) i = s / coord a i ∧
    coord (-a) i = -coord a i ∧
    coord (V3.pos a) i = coord a i := by
  fin_cases i <;> exact ⟨rfl, rfl, rfl, rfl, rfl, rfl, rfl, rfl, rfl, rfl, rfl, rfl, rfl, rfl⟩

/-- C01 for `vec4`: every operator, both operand orders, every component. -/
theorem C01_vec4 (a b : V4 α) (s : α) (i : Fin 4) :
    coord (a + b) i = coord a i + coord b i ∧
    coord (a + s) i = coord a i + s ∧
    coord (s + a) i = s + coord a i ∧
    coord (a - b) i = coord a i - coord b i ∧
    coord (a - s) i = coord a i - s ∧
    coord (s - a) i = s - coord a i ∧
    coord (a * b) i = coord a i * coord b i ∧
    coord (a * s) i = coord a i * s ∧
    coord (s * a) i = s * coord a i ∧
    coord (a / b) i = coord a i / coord b i ∧
    coord (a / s) i = coord a i / s ∧
    coord (s / a) i = s / coord a i ∧
    coord (-a) i = -coord a i ∧
    coord (V4.pos a) i = coord a i := by
  fin_cases i <;> exact ⟨rfl, rfl, rfl, rfl, rfl, rfl, rfl, rfl, rfl, rfl, rfl, rfl, rfl, rfl⟩

/-- Non-vacuity: a subtraction with distinct components and the scalar on the left. -/
example : ((10 : ℤ) - (⟨7, -2, 5⟩ : V3 ℤ)) = ⟨3, 12, 5⟩ ∧
    (⟨7, -2, 5⟩ : V3 ℤ) * (⟨1, 2, 3⟩ : V3 ℤ) = ⟨7, -4, 15⟩ := by decide

end Zcm
