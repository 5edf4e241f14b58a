import Verif.Spec.Coord
import Verif.Lemmas.F32

/-!
# C79  Quaternion constructors and linear operators

`w` is the scalar part: first in the constructor and in `quat::wxyz`, last in memory. `coord q` lists `x, y, z, w`.
Everything holds for every carrier, hence for floats bit for bit.
-/

namespace Zcm

variable {α : Type}

/-- C79: the constructors put every argument where its name says. -/
theorem C79_constructors (w x y z : α) (v : V3 α) :
    (∀ i, coord (Quat.ofFloats w x y z) i = ![x, y, z, w] i) ∧
    (∀ i, coord (Quat.wxyz w x y z) i = ![x, y, z, w] i) ∧
    (∀ i, coord (Quat.ofSV w v) i = ![coord v 0, coord v 1, coord v 2, w] i) ∧
    (∀ i, coord (Quat.ofVS v w) i = ![coord v 0, coord v 1, coord v 2, w] i) := by
  refine ⟨?_, ?_, ?_, ?_⟩ <;> intro i <;> fin_cases i <;> rfl

/-- C79: the default quaternion is the identity `1 + 0i + 0j + 0k`. -/
theorem C79_default [FloatOps α] (i : Fin 4) :
    coord (Quat.default : Quat α) i = ![lit 0, lit 0, lit 0, lit 1] i := by
  fin_cases i <;> rfl

/-- C79: `+`, `-`, unary `+` and `-`, products and quotients with a scalar act on every component. (The code of
`s * q` multiplies in the order `q_i * s`.) -/
theorem C79_operators [Add α] [Sub α] [Mul α] [Div α] [Neg α] (a b : Quat α) (s : α) (i : Fin 4) :
    coord (a + b) i = coord a i + coord b i ∧
    coord (a - b) i = coord a i - coord b i ∧
    coord (Quat.pos a) i = coord a i ∧
    coord (-a) i = -coord a i ∧
    coord (a * s) i = coord a i * s ∧
    coord (s * a) i = coord a i * s ∧
    coord (a / s) i = coord a i / s ∧
    coord (s / a) i = s / coord a i := by
  refine ⟨?_, ?_, ?_, ?_, ?_, ?_, ?_, ?_⟩ <;> fin_cases i <;> rfl

/-- C79, floats: `s * q` is nevertheless the same as multiplying in the written order. -/
theorem C79_scalar_comm (a : Quat F32) (s : F32) (i : Fin 4) : coord (s * a) i = s * coord a i := by
  fin_cases i <;> exact F32.mul_comm' _ _

/-- Non-vacuity: the scalar part comes first in the constructor and last in memory. -/
example : Quat.wxyz (1 : ℚ) 2 3 4 = Quat.ofVS ⟨2, 3, 4⟩ 1 ∧ coord (Quat.wxyz (1 : ℚ) 2 3 4) 3 = 1 := by decide

end Zcm
