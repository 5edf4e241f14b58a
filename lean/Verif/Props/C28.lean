import Verif.Spec.Coord
import Verif.Spec.Int
import Verif.Lemmas.Int
import Verif.Model.Trig
import Verif.Model.Exponential

/-!
# C28: vector overloads are the scalar function per component

For every carrier and every libm.
-/

set_option linter.unusedSectionVars false

namespace Zcm

variable {α : Type} [Add α] [Sub α] [Mul α] [Div α] [Neg α] [FloatOps α] [Libm α]
  [LT α] [DecidableLT α] [LE α] [DecidableLE α] [BEq α]

/-- C28, `vec2` overloads of src/common.cpp. -/
theorem C28_vec2_common (x y z : V2 α) (s : α) (i : Fin 2) :
    coord (V2.abs x) i = F.abs (coord x i) ∧
    coord (V2.floor x) i = F.floor (coord x i) ∧
    coord (V2.ceil x) i = F.ceil (coord x i) ∧
    coord (V2.trunc x) i = F.trunc (coord x i) ∧
    coord (V2.round x) i = F.round (coord x i) ∧
    coord (V2.roundEven x) i = F.roundEven (coord x i) ∧
    coord (V2.sign x) i = F.sign (coord x i) ∧
    coord (V2.signNotZero x) i = F.signNotZero (coord x i) ∧
    coord (V2.fract x) i = F.fract (coord x i) ∧
    coord (V2.isinf x) i = F.isinf (coord x i) ∧
    coord (V2.isnan x) i = F.isnan (coord x i) ∧
    coord (V2.min x y) i = F.min (coord x i) (coord y i) ∧
    coord (V2.max x y) i = F.max (coord x i) (coord y i) ∧
    coord (V2.mod x y) i = F.mod (coord x i) (coord y i) ∧
    coord (V2.step x y) i = F.step (coord x i) (coord y i) ∧
    coord (V2.clamp x y z) i = F.clamp (coord x i) (coord y i) (coord z i) ∧
    coord (V2.fma x y z) i = F.fma (coord x i) (coord y i) (coord z i) ∧
    coord (V2.mix x y z) i = F.mix (coord x i) (coord y i) (coord z i) ∧
    coord (V2.smoothstep x y z) i = F.smoothstep (coord x i) (coord y i) (coord z i) ∧
    coord (V2.modS x s) i = F.mod (coord x i) s ∧
    coord (V2.mixS x y s) i = F.mix (coord x i) (coord y i) s := by
  refine ⟨?_, ?_, ?_, ?_, ?_, ?_, ?_, ?_, ?_, ?_, ?_, ?_, ?_, ?_, ?_, ?_, ?_, ?_, ?_, ?_, ?_⟩ <;> fin_cases i <;> rfl

/-- C28, `vec2` overloads of src/exponential.cpp. -/
theorem C28_vec2_exponential (x y : V2 α) (i : Fin 2) :
    coord (V2.sqrt x) i = F.sqrt (coord x i) ∧
    coord (V2.log x) i = F.log (coord x i) ∧
    coord (V2.log2 x) i = F.log2 (coord x i) ∧
    coord (V2.inversesqrt x) i = F.inversesqrt (coord x i) ∧
    coord (V2.exp x) i = F.exp (coord x i) ∧
    coord (V2.exp2 x) i = F.exp2 (coord x i) ∧
    coord (V2.cbrt x) i = F.cbrt (coord x i) ∧
    coord (V2.pow x y) i = F.pow (coord x i) (coord y i) := by
  refine ⟨?_, ?_, ?_, ?_, ?_, ?_, ?_, ?_⟩ <;> fin_cases i <;> rfl

/-- C28, `vec2` overloads of src/angle_and_trigonometry.cpp. -/
theorem C28_vec2_trigonometry (x y : V2 α) (i : Fin 2) :
    coord (V2.cos x) i = F.cos (coord x i) ∧
    coord (V2.sin x) i = F.sin (coord x i) ∧
    coord (V2.acos x) i = F.acos (coord x i) ∧
    coord (V2.acosh x) i = F.acosh (coord x i) ∧
    coord (V2.asin x) i = F.asin (coord x i) ∧
    coord (V2.asinh x) i = F.asinh (coord x i) ∧
    coord (V2.atan x) i = F.atan (coord x i) ∧
    coord (V2.atanh x) i = F.atanh (coord x i) ∧
    coord (V2.cosh x) i = F.cosh (coord x i) ∧
    coord (V2.degrees x) i = F.degrees (coord x i) ∧
    coord (V2.radians x) i = F.radians (coord x i) ∧
    coord (V2.sinh x) i = F.sinh (coord x i) ∧
    coord (V2.tan x) i = F.tan (coord x i) ∧
    coord (V2.tanh x) i = F.tanh (coord x i) ∧
    coord (V2.atan2 x y) i = F.atan2 (coord x i) (coord y i) := by
  refine ⟨?_, ?_, ?_, ?_, ?_, ?_, ?_, ?_, ?_, ?_, ?_, ?_, ?_, ?_, ?_⟩ <;> fin_cases i <;> rfl

/-- C28, `ivec2` overloads of src/common.cpp that cannot fail. -/
theorem C28_ivec2 (x y z : V2 I32) (i : Fin 2) :
    coord (IV2.sign x) i = I.sign (coord x i) ∧
    coord (IV2.signNotZero x) i = I.signNotZero (coord x i) ∧
    coord (IV2.min x y) i = I.min (coord x i) (coord y i) ∧
    coord (IV2.max x y) i = I.max (coord x i) (coord y i) ∧
    coord (IV2.clamp x y z) i = I.clamp (coord x i) (coord y i) (coord z i) := by
  refine ⟨?_, ?_, ?_, ?_, ?_⟩ <;> fin_cases i <;> rfl

/-- C28, `vec3` overloads of src/common.cpp. -/
theorem C28_vec3_common (x y z : V3 α) (s : α) (i : Fin 3) :
    coord (V3.abs x) i = F.abs (coord x i) ∧
    coord (V3.floor x) i = F.floor (coord x i) ∧
    coord (V3.ceil x) i = F.ceil (coord x i) ∧
    coord (V3.trunc x) i = F.trunc (coord x i) ∧
    coord (V3.round x) i = F.round (coord x i) ∧
    coord (V3.roundEven x) i = F.roundEven (coord x i) ∧
    coord (V3.sign x) i = F.sign (coord x i) ∧
    coord (V3.signNotZero x) i = F.signNotZero (coord x i) ∧
    coord (V3.fract x) i = F.fract (coord x i) ∧
    coord (V3.isinf x) i = F.isinf (coord x i) ∧
    coord (V3.isnan x) i = F.isnan (coord x i) ∧
    coord (V3.min x y) i = F.min (coord x i) (coord y i) ∧
    coord (V3.max x y) i = F.max (coord x i) (coord y i) ∧
    coord (V3.mod x y) i = F.mod (coord x i) (coord y i) ∧
    coord (V3.step x y) i = F.step (coord x i) (coord y i) ∧
    coord (V3.clamp x y z) i = F.clamp (coord x i) (coord y i) (coord z i) ∧
    coord (V3.fma x y z) i = F.fma (coord x i) (coord y i) (coord z i) ∧
    coord (V3.mix x y z) i = F.mix (coord x i) (coord y i) (coord z i) ∧
    coord (V3.smoothstep x y z) i = F.smoothstep (coord x i) (coord y i) (coord z i) ∧
    coord (V3.modS x s) i = F.mod (coord x i) s ∧
    coord (V3.mixS x y s) i = F.mix (coord x i) (coord y i) s := by
  refine ⟨?_, ?_, ?_, ?_, ?_, ?_, ?_, ?_, ?_, ?_, ?_, ?_, ?_, ?_, ?_, ?_, ?_, ?_, ?_, ?_, ?_⟩ <;> fin_cases i <;> rfl

/-- C28, `vec3` overloads of src/exponential.cpp. -/
theorem C28_vec3_exponential (x y : V3 α) (i : Fin 3) :
    coord (V3.sqrt x) i = F.sqrt (coord x i) ∧
    coord (V3.log x) i = F.log (coord x i) ∧
    coord (V3.log2 x) i = F.log2 (coord x i) ∧
    coord (V3.inversesqrt x) i = F.inversesqrt (coord x i) ∧
    coord (V3.exp x) i = F.exp (coord x i) ∧
    coord (V3.exp2 x) i = F.exp2 (coord x i) ∧
    coord (V3.cbrt x) i = F.cbrt (coord x i) ∧
    coord (V3.pow x y) i = F.pow (coord x i) (coord y i) := by
  refine ⟨?_, ?_, ?_, ?_, ?_, ?_, ?_, ?_⟩ <;> fin_cases i <;> rfl

/-- C28, `vec3` overloads of src/angle_and_trigonometry.cpp. -/
theorem C28_vec3_trigonometry (x y : V3 α) (i : Fin 3) :
    coord (V3.cos x) i = F.cos (coord x i) ∧
    coord (V3.sin x) i = F.sin (coord x i) ∧
    coord (V3.acos x) i = F.acos (coord x i) ∧
    coord (V3.acosh x) i = F.acosh (coord x i) ∧
    coord (V3.asin x) i = F.asin (coord x i) ∧
    coord (V3.asinh x) i = F.asinh (coord x i) ∧
    coord (V3.atan x) i = F.atan (coord x i) ∧
    coord (V3.atanh x) i = F.atanh (coord x i) ∧
    coord (V3.cosh x) i = F.cosh (coord x i) ∧
    coord (V3.degrees x) i = F.degrees (coord x i) ∧
    coord (V3.radians x) i = F.radians (coord x i) ∧
    coord (V3.sinh x) i = F.sinh (coord x i) ∧
    coord (V3.tan x) i = F.tan (coord x i) ∧
    coord (V3.tanh x) i = F.tanh (coord x i) ∧
    coord (V3.atan2 x y) i = F.atan2 (coord x i) (coord y i) := by
  refine ⟨?_, ?_, ?_, ?_, ?_, ?_, ?_, ?_, ?_, ?_, ?_, ?_, ?_, ?_, ?_⟩ <;> fin_cases i <;> rfl

/-- C28, `ivec3` overloads of src/common.cpp that cannot fail. -/
theorem C28_ivec3 (x y z : V3 I32) (i : Fin 3) :
    coord (IV3.sign x) i = I.sign (coord x i) ∧
    coord (IV3.signNotZero x) i = I.signNotZero (coord x i) ∧
    coord (IV3.min x y) i = I.min (coord x i) (coord y i) ∧
    coord (IV3.max x y) i = I.max (coord x i) (coord y i) ∧
    coord (IV3.clamp x y z) i = I.clamp (coord x i) (coord y i) (coord z i) := by
  refine ⟨?_, ?_, ?_, ?_, ?_⟩ <;> fin_cases i <;> rfl

/-- C28, `vec4` overloads of src/common.cpp. -/
theorem C28_vec4_common (x y z : V4 α) (s : α) (i : Fin 4) :
    coord (V4.abs x) i = F.abs (coord x i) ∧
    coord (V4.floor x) i = F.floor (coord x i) ∧
    coord (V4.ceil x) i = F.ceil (coord x i) ∧
    coord (V4.trunc x) i = F.trunc (coord x i) ∧
    coord (V4.round x) i = F.round (coord x i) ∧
    coord (V4.roundEven x) i = F.roundEven (coord x i) ∧
    coord (V4.sign x) i = F.sign (coord x i) ∧
    coord (V4.signNotZero x) i = F.signNotZero (coord x i) ∧
    coord (V4.fract x) i = F.fract (coord x i) ∧
    coord (V4.isinf x) i = F.isinf (coord x i) ∧
    coord (V4.isnan x) i = F.isnan (coord x i) ∧
    coord (V4.min x y) i = F.min (coord x i) (coord y i) ∧
    coord (V4.max x y) i = F.max (coord x i) (coord y i) ∧
    coord (V4.mod x y) i = F.mod (coord x i) (coord y i) ∧
    coord (V4.step x y) i = F.step (coord x i) (coord y i) ∧
    coord (V4.clamp x y z) i = F.clamp (coord x i) (coord y i) (coord z i) ∧
    coord (V4.fma x y z) i = F.fma (coord x i) (coord y i) (coord z i) ∧
    coord (V4.mix x y z) i = F.mix (coord x i) (coord y i) (coord z i) ∧
    coord (V4.smoothstep x y z) i = F.smoothstep (coord x i) (coord y i) (coord z i) ∧
    coord (V4.modS x s) i = F.mod (coord x i) s ∧
    coord (V4.mixS x y s) i = F.mix (coord x i) (coord y i) s := by
  refine ⟨?_, ?_, ?_, ?_, ?_, ?_, ?_, ?_, ?_, ?_, ?_, ?_, ?_, ?_, ?_, ?_, ?_, ?_, ?_, ?_, ?_⟩ <;> fin_cases i <;> rfl

/-- C28, `vec4` overloads of src/exponential.cpp. -/
theorem C28_vec4_exponential (x y : V4 α) (i : Fin 4) :
    coord (V4.sqrt x) i = F.sqrt (coord x i) ∧
    coord (V4.log x) i = F.log (coord x i) ∧
    coord (V4.log2 x) i = F.log2 (coord x i) ∧
    coord (V4.inversesqrt x) i = F.inversesqrt (coord x i) ∧
    coord (V4.exp x) i = F.exp (coord x i) ∧
    coord (V4.exp2 x) i = F.exp2 (coord x i) ∧
    coord (V4.cbrt x) i = F.cbrt (coord x i) ∧
    coord (V4.pow x y) i = F.pow (coord x i) (coord y i) := by
  refine ⟨?_, ?_, ?_, ?_, ?_, ?_, ?_, ?_⟩ <;> fin_cases i <;> rfl

/-- C28, `vec4` overloads of src/angle_and_trigonometry.cpp. -/
theorem C28_vec4_trigonometry (x y : V4 α) (i : Fin 4) :
    coord (V4.cos x) i = F.cos (coord x i) ∧
    coord (V4.sin x) i = F.sin (coord x i) ∧
    coord (V4.acos x) i = F.acos (coord x i) ∧
    coord (V4.acosh x) i = F.acosh (coord x i) ∧
    coord (V4.asin x) i = F.asin (coord x i) ∧
    coord (V4.asinh x) i = F.asinh (coord x i) ∧
    coord (V4.atan x) i = F.atan (coord x i) ∧
    coord (V4.atanh x) i = F.atanh (coord x i) ∧
    coord (V4.cosh x) i = F.cosh (coord x i) ∧
    coord (V4.degrees x) i = F.degrees (coord x i) ∧
    coord (V4.radians x) i = F.radians (coord x i) ∧
    coord (V4.sinh x) i = F.sinh (coord x i) ∧
    coord (V4.tan x) i = F.tan (coord x i) ∧
    coord (V4.tanh x) i = F.tanh (coord x i) ∧
    coord (V4.atan2 x y) i = F.atan2 (coord x i) (coord y i) := by
  refine ⟨?_, ?_, ?_, ?_, ?_, ?_, ?_, ?_, ?_, ?_, ?_, ?_, ?_, ?_, ?_⟩ <;> fin_cases i <;> rfl

/-- C28, `ivec4` overloads of src/common.cpp that cannot fail. -/
theorem C28_ivec4 (x y z : V4 I32) (i : Fin 4) :
    coord (IV4.sign x) i = I.sign (coord x i) ∧
    coord (IV4.signNotZero x) i = I.signNotZero (coord x i) ∧
    coord (IV4.min x y) i = I.min (coord x i) (coord y i) ∧
    coord (IV4.max x y) i = I.max (coord x i) (coord y i) ∧
    coord (IV4.clamp x y z) i = I.clamp (coord x i) (coord y i) (coord z i) := by
  refine ⟨?_, ?_, ?_, ?_, ?_⟩ <;> fin_cases i <;> rfl

/-- C28, `quat` overloads. -/
theorem C28_quat (x : Quat α) (s : α) (i : Fin 4) :
    coord (Quat.sqrt x) i = F.sqrt (coord x i) ∧
    coord (Quat.log x) i = F.log (coord x i) ∧
    coord (Quat.log2 x) i = F.log2 (coord x i) ∧
    coord (Quat.inversesqrt x) i = F.inversesqrt (coord x i) ∧
    coord (Quat.exp x) i = F.exp (coord x i) ∧
    coord (Quat.exp2 x) i = F.exp2 (coord x i) ∧
    coord (Quat.cbrt x) i = F.cbrt (coord x i) ∧
    coord (Quat.isnan x) i = F.isnan (coord x i) ∧
    coord (Quat.isinf x) i = F.isinf (coord x i) ∧
    coord (Quat.pow x s) i = F.pow (coord x i) s := by
  refine ⟨?_, ?_, ?_, ?_, ?_, ?_, ?_, ?_, ?_, ?_⟩ <;> fin_cases i <;> rfl

/-- Non-vacuity: a non-constant vector. -/
example : V3.clamp (⟨-1, 2, 9⟩ : V3 ℤ) ⟨0, 0, 0⟩ ⟨5, 5, 5⟩ = ⟨0, 2, 5⟩ := by decide

end Zcm
