import Verif.Model.Common

/-!
# Exponential functions

Model of src/exponential.cpp.
-/

namespace Zcm

variable {α : Type} [Add α] [Sub α] [Mul α] [Div α] [Neg α] [FloatOps α] [Libm α]
  [LT α] [DecidableLT α] [LE α] [DecidableLE α] [BEq α]

/-- `sqrt(float)` src/exponential.cpp:9-12 -/
def F.sqrt (x : α) : α := FloatOps.sqrt x

/-- `sqrt` on `vec2` src/exponential.cpp:14-17 -/
def V2.sqrt (x : V2 α) : V2 α :=
  ⟨F.sqrt x.x, F.sqrt x.y⟩

/-- `sqrt` on `vec3` src/exponential.cpp:19-22 -/
def V3.sqrt (x : V3 α) : V3 α :=
  ⟨F.sqrt x.x, F.sqrt x.y, F.sqrt x.z⟩

/-- `sqrt` on `vec4` src/exponential.cpp:24-27 -/
def V4.sqrt (x : V4 α) : V4 α :=
  ⟨F.sqrt x.x, F.sqrt x.y, F.sqrt x.z, F.sqrt x.w⟩

/-- `sqrt(quat)` src/exponential.cpp:29-32 -/
def Quat.sqrt (x : Quat α) : Quat α :=
  Quat.ofFloats (F.sqrt x.w) (F.sqrt x.x) (F.sqrt x.y) (F.sqrt x.z)

/-- `pow(float, float)` src/exponential.cpp:38-41 -/
def F.pow (x y : α) : α := Libm.powf x y

/-- `pow` on `vec2` src/exponential.cpp:43-46 -/
def V2.pow (x y : V2 α) : V2 α :=
  ⟨F.pow x.x y.x, F.pow x.y y.y⟩

/-- `pow` on `vec3` src/exponential.cpp:48-51 -/
def V3.pow (x y : V3 α) : V3 α :=
  ⟨F.pow x.x y.x, F.pow x.y y.y, F.pow x.z y.z⟩

/-- `pow` on `vec4` src/exponential.cpp:53-56 -/
def V4.pow (x y : V4 α) : V4 α :=
  ⟨F.pow x.x y.x, F.pow x.y y.y, F.pow x.z y.z, F.pow x.w y.w⟩

/-- `pow(quat, float)` src/exponential.cpp:58-61 -/
def Quat.pow (x : Quat α) (y : α) : Quat α :=
  Quat.ofFloats (F.pow x.w y) (F.pow x.x y) (F.pow x.y y) (F.pow x.z y)

/-- `log(float)` src/exponential.cpp:67-70 -/
def F.log (x : α) : α := Libm.logf x

/-- `log` on `vec2` src/exponential.cpp:72-75 -/
def V2.log (x : V2 α) : V2 α :=
  ⟨F.log x.x, F.log x.y⟩

/-- `log` on `vec3` src/exponential.cpp:77-80 -/
def V3.log (x : V3 α) : V3 α :=
  ⟨F.log x.x, F.log x.y, F.log x.z⟩

/-- `log` on `vec4` src/exponential.cpp:82-85 -/
def V4.log (x : V4 α) : V4 α :=
  ⟨F.log x.x, F.log x.y, F.log x.z, F.log x.w⟩

/-- `log(quat)` src/exponential.cpp:88-91 -/
def Quat.log (x : Quat α) : Quat α :=
  Quat.ofFloats (F.log x.w) (F.log x.x) (F.log x.y) (F.log x.z)

/-- `log2(float)` src/exponential.cpp:97-100 -/
def F.log2 (x : α) : α := Libm.log2f x

/-- `log2` on `vec2` src/exponential.cpp:102-105 -/
def V2.log2 (x : V2 α) : V2 α :=
  ⟨F.log2 x.x, F.log2 x.y⟩

/-- `log2` on `vec3` src/exponential.cpp:107-110 -/
def V3.log2 (x : V3 α) : V3 α :=
  ⟨F.log2 x.x, F.log2 x.y, F.log2 x.z⟩

/-- `log2` on `vec4` src/exponential.cpp:112-115 -/
def V4.log2 (x : V4 α) : V4 α :=
  ⟨F.log2 x.x, F.log2 x.y, F.log2 x.z, F.log2 x.w⟩

/-- `log2(quat)` src/exponential.cpp:118-121 -/
def Quat.log2 (x : Quat α) : Quat α :=
  Quat.ofFloats (F.log2 x.w) (F.log2 x.x) (F.log2 x.y) (F.log2 x.z)

/-- `inversesqrt(float)` src/exponential.cpp:127-130 -/
def F.inversesqrt (x : α) : α := lit 1 / F.sqrt x

/-- `inversesqrt` on `vec2` src/exponential.cpp:132-135 -/
def V2.inversesqrt (x : V2 α) : V2 α := (lit 1 : α) / V2.sqrt x

/-- `inversesqrt` on `vec3` src/exponential.cpp:137-140 -/
def V3.inversesqrt (x : V3 α) : V3 α := (lit 1 : α) / V3.sqrt x

/-- `inversesqrt` on `vec4` src/exponential.cpp:142-145 -/
def V4.inversesqrt (x : V4 α) : V4 α := (lit 1 : α) / V4.sqrt x

/-- `inversesqrt(quat)` src/exponential.cpp:147-150 -/
def Quat.inversesqrt (x : Quat α) : Quat α := (lit 1 : α) / Quat.sqrt x

/-- `exp(float)` src/exponential.cpp:156-159 -/
def F.exp (x : α) : α := Libm.expf x

/-- `exp` on `vec2` src/exponential.cpp:161-164 -/
def V2.exp (x : V2 α) : V2 α :=
  ⟨F.exp x.x, F.exp x.y⟩

/-- `exp` on `vec3` src/exponential.cpp:166-169 -/
def V3.exp (x : V3 α) : V3 α :=
  ⟨F.exp x.x, F.exp x.y, F.exp x.z⟩

/-- `exp` on `vec4` src/exponential.cpp:171-174 -/
def V4.exp (x : V4 α) : V4 α :=
  ⟨F.exp x.x, F.exp x.y, F.exp x.z, F.exp x.w⟩

/-- `exp(quat)` src/exponential.cpp:176-179 -/
def Quat.exp (x : Quat α) : Quat α :=
  Quat.ofFloats (F.exp x.w) (F.exp x.x) (F.exp x.y) (F.exp x.z)

/-- `exp2(float)` src/exponential.cpp:185-188 -/
def F.exp2 (x : α) : α := Libm.expf x

/-- `exp2` on `vec2` src/exponential.cpp:190-193 -/
def V2.exp2 (x : V2 α) : V2 α :=
  ⟨F.exp2 x.x, F.exp2 x.y⟩

/-- `exp2` on `vec3` src/exponential.cpp:195-198 -/
def V3.exp2 (x : V3 α) : V3 α :=
  ⟨F.exp2 x.x, F.exp2 x.y, F.exp2 x.z⟩

/-- `exp2` on `vec4` src/exponential.cpp:200-203 -/
def V4.exp2 (x : V4 α) : V4 α :=
  ⟨F.exp2 x.x, F.exp2 x.y, F.exp2 x.z, F.exp2 x.w⟩

/-- `exp2(quat)` src/exponential.cpp:205-208 -/
def Quat.exp2 (x : Quat α) : Quat α :=
  Quat.ofFloats (F.exp2 x.w) (F.exp2 x.x) (F.exp2 x.y) (F.exp2 x.z)

/-- `cbrt(float)` src/exponential.cpp:214-217 -/
def F.cbrt (x : α) : α := Libm.cbrtf x

/-- `cbrt` on `vec2` src/exponential.cpp:219-222 -/
def V2.cbrt (x : V2 α) : V2 α :=
  ⟨F.cbrt x.x, F.cbrt x.y⟩

/-- `cbrt` on `vec3` src/exponential.cpp:224-227 -/
def V3.cbrt (x : V3 α) : V3 α :=
  ⟨F.cbrt x.x, F.cbrt x.y, F.cbrt x.z⟩

/-- `cbrt` on `vec4` src/exponential.cpp:229-232 -/
def V4.cbrt (x : V4 α) : V4 α :=
  ⟨F.cbrt x.x, F.cbrt x.y, F.cbrt x.z, F.cbrt x.w⟩

/-- `cbrt(quat)` src/exponential.cpp:234-237 -/
def Quat.cbrt (x : Quat α) : Quat α :=
  Quat.ofFloats (F.cbrt x.w) (F.cbrt x.x) (F.cbrt x.y) (F.cbrt x.z)

end Zcm
