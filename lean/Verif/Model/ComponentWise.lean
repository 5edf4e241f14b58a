import Verif.Model.Common

/-!
# Component reductions

Model of src/component_wise.cpp.
-/

namespace Zcm

variable {α : Type} [Add α] [Sub α] [Mul α] [Div α] [Neg α] [FloatOps α] [Libm α]
  [LT α] [DecidableLT α] [LE α] [DecidableLE α] [BEq α]

/-- `compAdd(vec2)` src/component_wise.cpp:11-14 -/
def V2.compAdd (v : V2 α) : α := v.x + v.y

/-- `compAdd(vec3)` src/component_wise.cpp:16-19 -/
def V3.compAdd (v : V3 α) : α := v.x + v.y + v.z

/-- `compAdd(vec4)` src/component_wise.cpp:21-24 -/
def V4.compAdd (v : V4 α) : α := v.x + v.y + v.z + v.w

/-- `compAdd(ivec2)` src/component_wise.cpp:26-29 -/
def IV2.compAdd (v : V2 I32) : Res I32 := I32.add v.x v.y

/-- `compAdd(ivec3)` src/component_wise.cpp:31-34 -/
def IV3.compAdd (v : V3 I32) : Res I32 := do
  let a ← I32.add v.x v.y
  I32.add a v.z

/-- `compAdd(ivec4)` src/component_wise.cpp:36-39 -/
def IV4.compAdd (v : V4 I32) : Res I32 := do
  let a ← I32.add v.x v.y
  let b ← I32.add a v.z
  I32.add b v.w

/-- `compMul(vec2)` src/component_wise.cpp:41-44 -/
def V2.compMul (v : V2 α) : α := v.x * v.y

/-- `compMul(vec3)` src/component_wise.cpp:46-49 -/
def V3.compMul (v : V3 α) : α := v.x * v.y * v.z

/-- `compMul(vec4)` src/component_wise.cpp:51-54 -/
def V4.compMul (v : V4 α) : α := v.x * v.y * v.z * v.w

/-- `compMul(ivec2)` src/component_wise.cpp:56-59 -/
def IV2.compMul (v : V2 I32) : Res I32 := I32.mul v.x v.y

/-- `compMul(ivec3)` src/component_wise.cpp:61-64 -/
def IV3.compMul (v : V3 I32) : Res I32 := do
  let a ← I32.mul v.x v.y
  I32.mul a v.z

/-- `compMul(ivec4)` src/component_wise.cpp:66-69 -/
def IV4.compMul (v : V4 I32) : Res I32 := do
  let a ← I32.mul v.x v.y
  let b ← I32.mul a v.z
  I32.mul b v.w

/-- `compMin(vec2)` src/component_wise.cpp:71-74 -/
def V2.compMin (v : V2 α) : α := F.min v.x v.y

/-- `compMin(vec3)` src/component_wise.cpp:76-79 -/
def V3.compMin (v : V3 α) : α := F.min v.x (F.min v.y v.z)

/-- `compMin(vec4)` src/component_wise.cpp:81-84 -/
def V4.compMin (v : V4 α) : α := F.min (F.min v.x v.y) (F.min v.z v.w)

/-- `compMin(ivec2)` src/component_wise.cpp:86-89 -/
def IV2.compMin (v : V2 I32) : I32 := I.min v.x v.y

/-- `compMin(ivec3)` src/component_wise.cpp:91-94 -/
def IV3.compMin (v : V3 I32) : I32 := I.min v.x (I.min v.y v.z)

/-- `compMin(ivec4)` src/component_wise.cpp:96-99 -/
def IV4.compMin (v : V4 I32) : I32 := I.min (I.min v.x v.y) (I.min v.z v.w)

/-- `compMax(vec2)` src/component_wise.cpp:101-104 -/
def V2.compMax (v : V2 α) : α := F.max v.x v.y

/-- `compMax(vec3)` src/component_wise.cpp:106-109 -/
def V3.compMax (v : V3 α) : α := F.max v.x (F.max v.y v.z)

/-- `compMax(vec4)` src/component_wise.cpp:111-114 -/
def V4.compMax (v : V4 α) : α := F.max (F.max v.x v.y) (F.max v.z v.w)

/-- `compMax(ivec2)` src/component_wise.cpp:116-119 -/
def IV2.compMax (v : V2 I32) : I32 := I.max v.x v.y

/-- `compMax(ivec3)` src/component_wise.cpp:121-124 -/
def IV3.compMax (v : V3 I32) : I32 := I.max v.x (I.max v.y v.z)

/-- `compMax(ivec4)` src/component_wise.cpp:126-129 -/
def IV4.compMax (v : V4 I32) : I32 := I.max (I.max v.x v.y) (I.max v.z v.w)

end Zcm
