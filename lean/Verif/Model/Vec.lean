import Verif.Model.Scalar

/-!
# vec2, vec3, vec4

Model of src/vec2.cpp, src/vec3.cpp, src/vec4.cpp and of the operator macros in
include/zcm/detail/impl_op_macro.hpp.  `_data[0.._]` are the fields `x y z w`.
-/

namespace Zcm

/-- `vec2`: include/zcm/vec2.hpp (struct vec2, `_data[2]`); also the carrier of `ivec2` and `bvec2`. -/
@[ext] structure V2 (α : Type) where
  x : α
  y : α
  deriving DecidableEq, Repr

/-- `vec3`: include/zcm/vec3.hpp (struct vec3, `_data[3]`); also the carrier of `ivec3` and `bvec3`. -/
@[ext] structure V3 (α : Type) where
  x : α
  y : α
  z : α
  deriving DecidableEq, Repr

/-- `vec4`: include/zcm/vec4.hpp (struct vec4, `_data[4]`); also the carrier of `ivec4` and `bvec4`. -/
@[ext] structure V4 (α : Type) where
  x : α
  y : α
  z : α
  w : α
  deriving DecidableEq, Repr

variable {α : Type}

/-! ## vec2 -/

/-- `vec2(float value)` src/vec2.cpp:17-21 -/
def V2.splat (value : α) : V2 α := ⟨value, value⟩

/-- `vec2(float, float)` src/vec2.cpp:26-30 -/
def V2.ofXY (x y : α) : V2 α := ⟨x, y⟩

/-- `vec2()` src/vec2.cpp:10-12 -/
def V2.default [FloatOps α] : V2 α := V2.splat (lit 0)

/-- `vec2(int32_t value)` src/vec2.cpp:23-24: converts with `static_cast<float>` (rounded like a literal). -/
def V2.ofInt [FloatOps α] (value : ℤ) : V2 α := V2.splat (lit value)

/-- `make_vec2(const float* ptr)` src/vec2.cpp:32-36: `ptr` is the null pointer (`none`) or the memory it points at. -/
def V2.make (b : Build) (ptr : Option (ℕ → α)) : Res (V2 α) := do
  cassert b ptr.isSome
  match ptr with
  | some p => pure ⟨p 0, p 1⟩
  | none => Res.ub

/-- `vec2 + vec2` include/zcm/detail/impl_op_macro.hpp:36-37, instantiated at src/vec2.cpp:39 -/
instance V2.instAdd [Add α] : Add (V2 α) :=
  ⟨fun first second => ⟨first.x + second.x, first.y + second.y⟩⟩

/-- `vec2 + float` include/zcm/detail/impl_op_macro.hpp:39-40, instantiated at src/vec2.cpp:39 -/
instance V2.instAddS [Add α] : HAdd (V2 α) α (V2 α) :=
  ⟨fun vec scalar => ⟨vec.x + scalar, vec.y + scalar⟩⟩

/-- `float + vec2` include/zcm/detail/impl_op_macro.hpp:42-43, instantiated at src/vec2.cpp:39 (vec2.hpp:69-70 redeclares `(vec2, float)` instead of `(float, vec2)`, so other translation units get `vec2(scalar)` from the implicit constructor and then `vec2 + vec2`: the same value) -/
instance V2.instSAdd [Add α] : HAdd α (V2 α) (V2 α) :=
  ⟨fun scalar vec => ⟨scalar + vec.x, scalar + vec.y⟩⟩

/-- `vec2 += vec2` include/zcm/detail/impl_op_macro.hpp:45-46, instantiated at src/vec2.cpp:45: one write after the other; the operand was copied (by-value parameter). -/
def V2.addAssign [Add α] (this other : V2 α) : V2 α :=
  let this := { this with x := this.x + other.x }
  let this := { this with y := this.y + other.y }
  this

/-- `vec2 += float` include/zcm/detail/impl_op_macro.hpp:48-49, instantiated at src/vec2.cpp:45 -/
def V2.addAssignS [Add α] (this : V2 α) (scalar : α) : V2 α :=
  let this := { this with x := this.x + scalar }
  let this := { this with y := this.y + scalar }
  this

/-- `vec2 - vec2` include/zcm/detail/impl_op_macro.hpp:36-37, instantiated at src/vec2.cpp:40 -/
instance V2.instSub [Sub α] : Sub (V2 α) :=
  ⟨fun first second => ⟨first.x - second.x, first.y - second.y⟩⟩

/-- `vec2 - float` include/zcm/detail/impl_op_macro.hpp:39-40, instantiated at src/vec2.cpp:40 -/
instance V2.instSubS [Sub α] : HSub (V2 α) α (V2 α) :=
  ⟨fun vec scalar => ⟨vec.x - scalar, vec.y - scalar⟩⟩

/-- `float - vec2` include/zcm/detail/impl_op_macro.hpp:42-43, instantiated at src/vec2.cpp:40 (vec2.hpp:69-70 redeclares `(vec2, float)` instead of `(float, vec2)`, so other translation units get `vec2(scalar)` from the implicit constructor and then `vec2 - vec2`: the same value) -/
instance V2.instSSub [Sub α] : HSub α (V2 α) (V2 α) :=
  ⟨fun scalar vec => ⟨scalar - vec.x, scalar - vec.y⟩⟩

/-- `vec2 -= vec2` include/zcm/detail/impl_op_macro.hpp:45-46, instantiated at src/vec2.cpp:46: one write after the other; the operand was copied (by-value parameter). -/
def V2.subAssign [Sub α] (this other : V2 α) : V2 α :=
  let this := { this with x := this.x - other.x }
  let this := { this with y := this.y - other.y }
  this

/-- `vec2 -= float` include/zcm/detail/impl_op_macro.hpp:48-49, instantiated at src/vec2.cpp:46 -/
def V2.subAssignS [Sub α] (this : V2 α) (scalar : α) : V2 α :=
  let this := { this with x := this.x - scalar }
  let this := { this with y := this.y - scalar }
  this

/-- `vec2 * vec2` include/zcm/detail/impl_op_macro.hpp:36-37, instantiated at src/vec2.cpp:41 -/
instance V2.instMul [Mul α] : Mul (V2 α) :=
  ⟨fun first second => ⟨first.x * second.x, first.y * second.y⟩⟩

/-- `vec2 * float` include/zcm/detail/impl_op_macro.hpp:39-40, instantiated at src/vec2.cpp:41 -/
instance V2.instMulS [Mul α] : HMul (V2 α) α (V2 α) :=
  ⟨fun vec scalar => ⟨vec.x * scalar, vec.y * scalar⟩⟩

/-- `float * vec2` include/zcm/detail/impl_op_macro.hpp:42-43, instantiated at src/vec2.cpp:41 -/
instance V2.instSMul [Mul α] : HMul α (V2 α) (V2 α) :=
  ⟨fun scalar vec => ⟨scalar * vec.x, scalar * vec.y⟩⟩

/-- `vec2 *= vec2` include/zcm/detail/impl_op_macro.hpp:45-46, instantiated at src/vec2.cpp:47: one write after the other; the operand was copied (by-value parameter). -/
def V2.mulAssign [Mul α] (this other : V2 α) : V2 α :=
  let this := { this with x := this.x * other.x }
  let this := { this with y := this.y * other.y }
  this

/-- `vec2 *= float` include/zcm/detail/impl_op_macro.hpp:48-49, instantiated at src/vec2.cpp:47 -/
def V2.mulAssignS [Mul α] (this : V2 α) (scalar : α) : V2 α :=
  let this := { this with x := this.x * scalar }
  let this := { this with y := this.y * scalar }
  this

/-- `vec2 / vec2` include/zcm/detail/impl_op_macro.hpp:36-37, instantiated at src/vec2.cpp:42 -/
instance V2.instDiv [Div α] : Div (V2 α) :=
  ⟨fun first second => ⟨first.x / second.x, first.y / second.y⟩⟩

/-- `vec2 / float` include/zcm/detail/impl_op_macro.hpp:39-40, instantiated at src/vec2.cpp:42 -/
instance V2.instDivS [Div α] : HDiv (V2 α) α (V2 α) :=
  ⟨fun vec scalar => ⟨vec.x / scalar, vec.y / scalar⟩⟩

/-- `float / vec2` include/zcm/detail/impl_op_macro.hpp:42-43, instantiated at src/vec2.cpp:42 -/
instance V2.instSDiv [Div α] : HDiv α (V2 α) (V2 α) :=
  ⟨fun scalar vec => ⟨scalar / vec.x, scalar / vec.y⟩⟩

/-- `vec2 /= vec2` include/zcm/detail/impl_op_macro.hpp:45-46, instantiated at src/vec2.cpp:48: one write after the other; the operand was copied (by-value parameter). -/
def V2.divAssign [Div α] (this other : V2 α) : V2 α :=
  let this := { this with x := this.x / other.x }
  let this := { this with y := this.y / other.y }
  this

/-- `vec2 /= float` include/zcm/detail/impl_op_macro.hpp:48-49, instantiated at src/vec2.cpp:48 -/
def V2.divAssignS [Div α] (this : V2 α) (scalar : α) : V2 α :=
  let this := { this with x := this.x / scalar }
  let this := { this with y := this.y / scalar }
  this

/-- unary `-vec2` src/vec2.cpp:56-59 -/
instance V2.instNeg [Neg α] : Neg (V2 α) := ⟨fun first => ⟨-first.x, -first.y⟩⟩

/-- unary `+vec2` src/vec2.cpp:51-54 (unary `+` on a float is the identity) -/
def V2.pos (first : V2 α) : V2 α := ⟨first.x, first.y⟩

/-- prefix `++vec2` src/vec2.cpp:61-66: (object afterwards, value returned by reference to it) -/
def V2.preInc [Add α] [FloatOps α] (this : V2 α) : V2 α × V2 α :=
  let this := { this with x := this.x + lit 1 }
  let this := { this with y := this.y + lit 1 }
  (this, this)

/-- postfix `vec2++` src/vec2.cpp:68-74: (object afterwards, returned value) -/
def V2.postInc [Add α] [FloatOps α] (this : V2 α) : V2 α × V2 α :=
  let tmp := this
  let this := { this with x := this.x + lit 1 }
  let this := { this with y := this.y + lit 1 }
  (this, tmp)

/-- prefix `--vec2` src/vec2.cpp:76-81: (object afterwards, value returned by reference to it) -/
def V2.preDec [Sub α] [FloatOps α] (this : V2 α) : V2 α × V2 α :=
  let this := { this with x := this.x - lit 1 }
  let this := { this with y := this.y - lit 1 }
  (this, this)

/-- postfix `vec2--` src/vec2.cpp:83-89: (object afterwards, returned value) -/
def V2.postDec [Sub α] [FloatOps α] (this : V2 α) : V2 α × V2 α :=
  let tmp := this
  let this := { this with x := this.x - lit 1 }
  let this := { this with y := this.y - lit 1 }
  (this, tmp)

/-- `vec2 == vec2` src/vec2.cpp:91-94 -/
def V2.eq [BEq α] (first second : V2 α) : Bool :=
  first.x == second.x && first.y == second.y

/-- `vec2 != vec2` src/vec2.cpp:96-99 -/
def V2.ne [BEq α] (first second : V2 α) : Bool := !(V2.eq first second)

/-- reading `v[val]` src/vec2.cpp:102-112; `_data[val]` outside the array is undefined. -/
def V2.at (b : Build) (this : V2 α) (val : UInt32) : Res α := do
  cassert b (val < 3)
  match val.toNat with
  | 0 => pure this.x
  | 1 => pure this.y
  | _ => Res.ub

/-- writing `v[val] = a` through the reference of src/vec2.cpp:102-106: the object afterwards. -/
def V2.set (b : Build) (this : V2 α) (val : UInt32) (a : α) : Res (V2 α) := do
  cassert b (val < 3)
  match val.toNat with
  | 0 => pure { this with x := a }
  | 1 => pure { this with y := a }
  | _ => Res.ub

/-! ## vec3 -/

/-- `vec3(float value)` src/vec3.cpp:18-23 -/
def V3.splat (value : α) : V3 α := ⟨value, value, value⟩

/-- `vec3(float, float, float)` src/vec3.cpp:28-33 -/
def V3.ofXYZ (x y z : α) : V3 α := ⟨x, y, z⟩

/-- `vec3()` src/vec3.cpp:11-13 -/
def V3.default [FloatOps α] : V3 α := V3.splat (lit 0)

/-- `vec3(int32_t value)` src/vec3.cpp:25-26: converts with `static_cast<float>` (rounded like a literal). -/
def V3.ofInt [FloatOps α] (value : ℤ) : V3 α := V3.splat (lit value)

/-- `vec3(vec2 xy, float z)` src/vec3.cpp:35-40 -/
def V3.ofXY_Z (xy : V2 α) (z : α) : V3 α := ⟨xy.x, xy.y, z⟩

/-- `vec3(float x, vec2 yz)` src/vec3.cpp:42-47 -/
def V3.ofX_YZ (x : α) (yz : V2 α) : V3 α := ⟨x, yz.x, yz.y⟩

/-- `make_vec3(const float* ptr)` src/vec3.cpp:49-53: `ptr` is the null pointer (`none`) or the memory it points at. -/
def V3.make (b : Build) (ptr : Option (ℕ → α)) : Res (V3 α) := do
  cassert b ptr.isSome
  match ptr with
  | some p => pure ⟨p 0, p 1, p 2⟩
  | none => Res.ub

/-- `vec3 + vec3` include/zcm/detail/impl_op_macro.hpp:53-54, instantiated at src/vec3.cpp:56 -/
instance V3.instAdd [Add α] : Add (V3 α) :=
  ⟨fun first second => ⟨first.x + second.x, first.y + second.y, first.z + second.z⟩⟩

/-- `vec3 + float` include/zcm/detail/impl_op_macro.hpp:56-57, instantiated at src/vec3.cpp:56 -/
instance V3.instAddS [Add α] : HAdd (V3 α) α (V3 α) :=
  ⟨fun vec scalar => ⟨vec.x + scalar, vec.y + scalar, vec.z + scalar⟩⟩

/-- `float + vec3` include/zcm/detail/impl_op_macro.hpp:59-60, instantiated at src/vec3.cpp:56 -/
instance V3.instSAdd [Add α] : HAdd α (V3 α) (V3 α) :=
  ⟨fun scalar vec => ⟨scalar + vec.x, scalar + vec.y, scalar + vec.z⟩⟩

/-- `vec3 += vec3` include/zcm/detail/impl_op_macro.hpp:62-63, instantiated at src/vec3.cpp:62: one write after the other; the operand was copied (by-value parameter). -/
def V3.addAssign [Add α] (this other : V3 α) : V3 α :=
  let this := { this with x := this.x + other.x }
  let this := { this with y := this.y + other.y }
  let this := { this with z := this.z + other.z }
  this

/-- `vec3 += float` include/zcm/detail/impl_op_macro.hpp:65-66, instantiated at src/vec3.cpp:62 -/
def V3.addAssignS [Add α] (this : V3 α) (scalar : α) : V3 α :=
  let this := { this with x := this.x + scalar }
  let this := { this with y := this.y + scalar }
  let this := { this with z := this.z + scalar }
  this

/-- `vec3 - vec3` include/zcm/detail/impl_op_macro.hpp:53-54, instantiated at src/vec3.cpp:57 -/
instance V3.instSub [Sub α] : Sub (V3 α) :=
  ⟨fun first second => ⟨first.x - second.x, first.y - second.y, first.z - second.z⟩⟩

/-- `vec3 - float` include/zcm/detail/impl_op_macro.hpp:56-57, instantiated at src/vec3.cpp:57 -/
instance V3.instSubS [Sub α] : HSub (V3 α) α (V3 α) :=
  ⟨fun vec scalar => ⟨vec.x - scalar, vec.y - scalar, vec.z - scalar⟩⟩

/-- `float - vec3` include/zcm/detail/impl_op_macro.hpp:59-60, instantiated at src/vec3.cpp:57 -/
instance V3.instSSub [Sub α] : HSub α (V3 α) (V3 α) :=
  ⟨fun scalar vec => ⟨scalar - vec.x, scalar - vec.y, scalar - vec.z⟩⟩

/-- `vec3 -= vec3` include/zcm/detail/impl_op_macro.hpp:62-63, instantiated at src/vec3.cpp:63: one write after the other; the operand was copied (by-value parameter). -/
def V3.subAssign [Sub α] (this other : V3 α) : V3 α :=
  let this := { this with x := this.x - other.x }
  let this := { this with y := this.y - other.y }
  let this := { this with z := this.z - other.z }
  this

/-- `vec3 -= float` include/zcm/detail/impl_op_macro.hpp:65-66, instantiated at src/vec3.cpp:63 -/
def V3.subAssignS [Sub α] (this : V3 α) (scalar : α) : V3 α :=
  let this := { this with x := this.x - scalar }
  let this := { this with y := this.y - scalar }
  let this := { this with z := this.z - scalar }
  this

/-- `vec3 * vec3` include/zcm/detail/impl_op_macro.hpp:53-54, instantiated at src/vec3.cpp:58 -/
instance V3.instMul [Mul α] : Mul (V3 α) :=
  ⟨fun first second => ⟨first.x * second.x, first.y * second.y, first.z * second.z⟩⟩

/-- `vec3 * float` include/zcm/detail/impl_op_macro.hpp:56-57, instantiated at src/vec3.cpp:58 -/
instance V3.instMulS [Mul α] : HMul (V3 α) α (V3 α) :=
  ⟨fun vec scalar => ⟨vec.x * scalar, vec.y * scalar, vec.z * scalar⟩⟩

/-- `float * vec3` include/zcm/detail/impl_op_macro.hpp:59-60, instantiated at src/vec3.cpp:58 -/
instance V3.instSMul [Mul α] : HMul α (V3 α) (V3 α) :=
  ⟨fun scalar vec => ⟨scalar * vec.x, scalar * vec.y, scalar * vec.z⟩⟩

/-- `vec3 *= vec3` include/zcm/detail/impl_op_macro.hpp:62-63, instantiated at src/vec3.cpp:64: one write after the other; the operand was copied (by-value parameter). -/
def V3.mulAssign [Mul α] (this other : V3 α) : V3 α :=
  let this := { this with x := this.x * other.x }
  let this := { this with y := this.y * other.y }
  let this := { this with z := this.z * other.z }
  this

/-- `vec3 *= float` include/zcm/detail/impl_op_macro.hpp:65-66, instantiated at src/vec3.cpp:64 -/
def V3.mulAssignS [Mul α] (this : V3 α) (scalar : α) : V3 α :=
  let this := { this with x := this.x * scalar }
  let this := { this with y := this.y * scalar }
  let this := { this with z := this.z * scalar }
  this

/-- `vec3 / vec3` include/zcm/detail/impl_op_macro.hpp:53-54, instantiated at src/vec3.cpp:59 -/
instance V3.instDiv [Div α] : Div (V3 α) :=
  ⟨fun first second => ⟨first.x / second.x, first.y / second.y, first.z / second.z⟩⟩

/-- `vec3 / float` include/zcm/detail/impl_op_macro.hpp:56-57, instantiated at src/vec3.cpp:59 -/
instance V3.instDivS [Div α] : HDiv (V3 α) α (V3 α) :=
  ⟨fun vec scalar => ⟨vec.x / scalar, vec.y / scalar, vec.z / scalar⟩⟩

/-- `float / vec3` include/zcm/detail/impl_op_macro.hpp:59-60, instantiated at src/vec3.cpp:59 -/
instance V3.instSDiv [Div α] : HDiv α (V3 α) (V3 α) :=
  ⟨fun scalar vec => ⟨scalar / vec.x, scalar / vec.y, scalar / vec.z⟩⟩

/-- `vec3 /= vec3` include/zcm/detail/impl_op_macro.hpp:62-63, instantiated at src/vec3.cpp:65: one write after the other; the operand was copied (by-value parameter). -/
def V3.divAssign [Div α] (this other : V3 α) : V3 α :=
  let this := { this with x := this.x / other.x }
  let this := { this with y := this.y / other.y }
  let this := { this with z := this.z / other.z }
  this

/-- `vec3 /= float` include/zcm/detail/impl_op_macro.hpp:65-66, instantiated at src/vec3.cpp:65 -/
def V3.divAssignS [Div α] (this : V3 α) (scalar : α) : V3 α :=
  let this := { this with x := this.x / scalar }
  let this := { this with y := this.y / scalar }
  let this := { this with z := this.z / scalar }
  this

/-- unary `-vec3` src/vec3.cpp:68-71 -/
instance V3.instNeg [Neg α] : Neg (V3 α) := ⟨fun first => ⟨-first.x, -first.y, -first.z⟩⟩

/-- unary `+vec3` src/vec3.cpp:73-76 (unary `+` on a float is the identity) -/
def V3.pos (first : V3 α) : V3 α := ⟨first.x, first.y, first.z⟩

/-- prefix `++vec3` src/vec3.cpp:78-84: (object afterwards, value returned by reference to it) -/
def V3.preInc [Add α] [FloatOps α] (this : V3 α) : V3 α × V3 α :=
  let this := { this with x := this.x + lit 1 }
  let this := { this with y := this.y + lit 1 }
  let this := { this with z := this.z + lit 1 }
  (this, this)

/-- postfix `vec3++` src/vec3.cpp:86-93: (object afterwards, returned value) -/
def V3.postInc [Add α] [FloatOps α] (this : V3 α) : V3 α × V3 α :=
  let tmp := this
  let this := { this with x := this.x + lit 1 }
  let this := { this with y := this.y + lit 1 }
  let this := { this with z := this.z + lit 1 }
  (this, tmp)

/-- prefix `--vec3` src/vec3.cpp:95-101: (object afterwards, value returned by reference to it) -/
def V3.preDec [Sub α] [FloatOps α] (this : V3 α) : V3 α × V3 α :=
  let this := { this with x := this.x - lit 1 }
  let this := { this with y := this.y - lit 1 }
  let this := { this with z := this.z - lit 1 }
  (this, this)

/-- postfix `vec3--` src/vec3.cpp:103-110: (object afterwards, returned value) -/
def V3.postDec [Sub α] [FloatOps α] (this : V3 α) : V3 α × V3 α :=
  let tmp := this
  let this := { this with x := this.x - lit 1 }
  let this := { this with y := this.y - lit 1 }
  let this := { this with z := this.z - lit 1 }
  (this, tmp)

/-- `vec3 == vec3` src/vec3.cpp:112-115 -/
def V3.eq [BEq α] (first second : V3 α) : Bool :=
  first.x == second.x && first.y == second.y && first.z == second.z

/-- `vec3 != vec3` src/vec3.cpp:117-120 -/
def V3.ne [BEq α] (first second : V3 α) : Bool := !(V3.eq first second)

/-- reading `v[val]` src/vec3.cpp:123-133; `_data[val]` outside the array is undefined. -/
def V3.at (b : Build) (this : V3 α) (val : UInt32) : Res α := do
  cassert b (val < 3)
  match val.toNat with
  | 0 => pure this.x
  | 1 => pure this.y
  | 2 => pure this.z
  | _ => Res.ub

/-- writing `v[val] = a` through the reference of src/vec3.cpp:123-127: the object afterwards. -/
def V3.set (b : Build) (this : V3 α) (val : UInt32) (a : α) : Res (V3 α) := do
  cassert b (val < 3)
  match val.toNat with
  | 0 => pure { this with x := a }
  | 1 => pure { this with y := a }
  | 2 => pure { this with z := a }
  | _ => Res.ub

/-! ## vec4 -/

/-- `vec4(float value)` src/vec4.cpp:19-25 -/
def V4.splat (value : α) : V4 α := ⟨value, value, value, value⟩

/-- `vec4(float, float, float, float)` src/vec4.cpp:30-36 -/
def V4.ofXYZW (x y z w : α) : V4 α := ⟨x, y, z, w⟩

/-- `vec4()` src/vec4.cpp:12-14 -/
def V4.default [FloatOps α] : V4 α := V4.splat (lit 0)

/-- `vec4(int32_t value)` src/vec4.cpp:27-28: converts with `static_cast<float>` (rounded like a literal). -/
def V4.ofInt [FloatOps α] (value : ℤ) : V4 α := V4.splat (lit value)

/-- `vec4(vec3 xyz, float w)` src/vec4.cpp:38-44 -/
def V4.ofXYZ_W (xyz : V3 α) (w : α) : V4 α := ⟨xyz.x, xyz.y, xyz.z, w⟩

/-- `vec4(float x, vec3 yzw)` src/vec4.cpp:46-52 -/
def V4.ofX_YZW (x : α) (yzw : V3 α) : V4 α := ⟨x, yzw.x, yzw.y, yzw.z⟩

/-- `vec4(vec2 xy, vec2 zw)` src/vec4.cpp:54-60 -/
def V4.ofXY_ZW (xy zw : V2 α) : V4 α := ⟨xy.x, xy.y, zw.x, zw.y⟩

/-- `vec4(vec2 xy, float z, float w)` src/vec4.cpp:62-68 -/
def V4.ofXY_Z_W (xy : V2 α) (z w : α) : V4 α := ⟨xy.x, xy.y, z, w⟩

/-- `vec4(float x, vec2 yz, float w)` src/vec4.cpp:70-76 -/
def V4.ofX_YZ_W (x : α) (yz : V2 α) (w : α) : V4 α := ⟨x, yz.x, yz.y, w⟩

/-- `vec4(float x, float y, vec2 zw)` src/vec4.cpp:78-84 -/
def V4.ofX_Y_ZW (x y : α) (zw : V2 α) : V4 α := ⟨x, y, zw.x, zw.y⟩

/-- `make_vec4(const float* ptr)` src/vec4.cpp:86-90: `ptr` is the null pointer (`none`) or the memory it points at. -/
def V4.make (b : Build) (ptr : Option (ℕ → α)) : Res (V4 α) := do
  cassert b ptr.isSome
  match ptr with
  | some p => pure ⟨p 0, p 1, p 2, p 3⟩
  | none => Res.ub

/-- `vec4 + vec4` include/zcm/detail/impl_op_macro.hpp:70-71, instantiated at src/vec4.cpp:93 -/
instance V4.instAdd [Add α] : Add (V4 α) :=
  ⟨fun first second => ⟨first.x + second.x, first.y + second.y, first.z + second.z, first.w + second.w⟩⟩

/-- `vec4 + float` include/zcm/detail/impl_op_macro.hpp:73-74, instantiated at src/vec4.cpp:93 -/
instance V4.instAddS [Add α] : HAdd (V4 α) α (V4 α) :=
  ⟨fun vec scalar => ⟨vec.x + scalar, vec.y + scalar, vec.z + scalar, vec.w + scalar⟩⟩

/-- `float + vec4` include/zcm/detail/impl_op_macro.hpp:76-77, instantiated at src/vec4.cpp:93 -/
instance V4.instSAdd [Add α] : HAdd α (V4 α) (V4 α) :=
  ⟨fun scalar vec => ⟨scalar + vec.x, scalar + vec.y, scalar + vec.z, scalar + vec.w⟩⟩

/-- `vec4 += vec4` include/zcm/detail/impl_op_macro.hpp:79-80, instantiated at src/vec4.cpp:99: one write after the other; the operand was copied (by-value parameter). -/
def V4.addAssign [Add α] (this other : V4 α) : V4 α :=
  let this := { this with x := this.x + other.x }
  let this := { this with y := this.y + other.y }
  let this := { this with z := this.z + other.z }
  let this := { this with w := this.w + other.w }
  this

/-- `vec4 += float` include/zcm/detail/impl_op_macro.hpp:82-83, instantiated at src/vec4.cpp:99 -/
def V4.addAssignS [Add α] (this : V4 α) (scalar : α) : V4 α :=
  let this := { this with x := this.x + scalar }
  let this := { this with y := this.y + scalar }
  let this := { this with z := this.z + scalar }
  let this := { this with w := this.w + scalar }
  this

/-- `vec4 - vec4` include/zcm/detail/impl_op_macro.hpp:70-71, instantiated at src/vec4.cpp:94 -/
instance V4.instSub [Sub α] : Sub (V4 α) :=
  ⟨fun first second => ⟨first.x - second.x, first.y - second.y, first.z - second.z, first.w - second.w⟩⟩

/-- `vec4 - float` include/zcm/detail/impl_op_macro.hpp:73-74, instantiated at src/vec4.cpp:94 -/
instance V4.instSubS [Sub α] : HSub (V4 α) α (V4 α) :=
  ⟨fun vec scalar => ⟨vec.x - scalar, vec.y - scalar, vec.z - scalar, vec.w - scalar⟩⟩

/-- `float - vec4` include/zcm/detail/impl_op_macro.hpp:76-77, instantiated at src/vec4.cpp:94 -/
instance V4.instSSub [Sub α] : HSub α (V4 α) (V4 α) :=
  ⟨fun scalar vec => ⟨scalar - vec.x, scalar - vec.y, scalar - vec.z, scalar - vec.w⟩⟩

/-- `vec4 -= vec4` include/zcm/detail/impl_op_macro.hpp:79-80, instantiated at src/vec4.cpp:100: one write after the other; the operand was copied (by-value parameter). -/
def V4.subAssign [Sub α] (this other : V4 α) : V4 α :=
  let this := { this with x := this.x - other.x }
  let this := { this with y := this.y - other.y }
  let this := { this with z := this.z - other.z }
  let this := { this with w := this.w - other.w }
  this

/-- `vec4 -= float` include/zcm/detail/impl_op_macro.hpp:82-83, instantiated at src/vec4.cpp:100 -/
def V4.subAssignS [Sub α] (this : V4 α) (scalar : α) : V4 α :=
  let this := { this with x := this.x - scalar }
  let this := { this with y := this.y - scalar }
  let this := { this with z := this.z - scalar }
  let this := { this with w := this.w - scalar }
  this

/-- `vec4 * vec4` include/zcm/detail/impl_op_macro.hpp:70-71, instantiated at src/vec4.cpp:95 -/
instance V4.instMul [Mul α] : Mul (V4 α) :=
  ⟨fun first second => ⟨first.x * second.x, first.y * second.y, first.z * second.z, first.w * second.w⟩⟩

/-- `vec4 * float` include/zcm/detail/impl_op_macro.hpp:73-74, instantiated at src/vec4.cpp:95 -/
instance V4.instMulS [Mul α] : HMul (V4 α) α (V4 α) :=
  ⟨fun vec scalar => ⟨vec.x * scalar, vec.y * scalar, vec.z * scalar, vec.w * scalar⟩⟩

/-- `float * vec4` include/zcm/detail/impl_op_macro.hpp:76-77, instantiated at src/vec4.cpp:95 -/
instance V4.instSMul [Mul α] : HMul α (V4 α) (V4 α) :=
  ⟨fun scalar vec => ⟨scalar * vec.x, scalar * vec.y, scalar * vec.z, scalar * vec.w⟩⟩

/-- `vec4 *= vec4` include/zcm/detail/impl_op_macro.hpp:79-80, instantiated at src/vec4.cpp:101: one write after the other; the operand was copied (by-value parameter). -/
def V4.mulAssign [Mul α] (this other : V4 α) : V4 α :=
  let this := { this with x := this.x * other.x }
  let this := { this with y := this.y * other.y }
  let this := { this with z := this.z * other.z }
  let this := { this with w := this.w * other.w }
  this

/-- `vec4 *= float` include/zcm/detail/impl_op_macro.hpp:82-83, instantiated at src/vec4.cpp:101 -/
def V4.mulAssignS [Mul α] (this : V4 α) (scalar : α) : V4 α :=
  let this := { this with x := this.x * scalar }
  let this := { this with y := this.y * scalar }
  let this := { this with z := this.z * scalar }
  let this := { this with w := this.w * scalar }
  this

/-- `vec4 / vec4` include/zcm/detail/impl_op_macro.hpp:70-71, instantiated at src/vec4.cpp:96 -/
instance V4.instDiv [Div α] : Div (V4 α) :=
  ⟨fun first second => ⟨first.x / second.x, first.y / second.y, first.z / second.z, first.w / second.w⟩⟩

/-- `vec4 / float` include/zcm/detail/impl_op_macro.hpp:73-74, instantiated at src/vec4.cpp:96 -/
instance V4.instDivS [Div α] : HDiv (V4 α) α (V4 α) :=
  ⟨fun vec scalar => ⟨vec.x / scalar, vec.y / scalar, vec.z / scalar, vec.w / scalar⟩⟩

/-- `float / vec4` include/zcm/detail/impl_op_macro.hpp:76-77, instantiated at src/vec4.cpp:96 -/
instance V4.instSDiv [Div α] : HDiv α (V4 α) (V4 α) :=
  ⟨fun scalar vec => ⟨scalar / vec.x, scalar / vec.y, scalar / vec.z, scalar / vec.w⟩⟩

/-- `vec4 /= vec4` include/zcm/detail/impl_op_macro.hpp:79-80, instantiated at src/vec4.cpp:102: one write after the other; the operand was copied (by-value parameter). -/
def V4.divAssign [Div α] (this other : V4 α) : V4 α :=
  let this := { this with x := this.x / other.x }
  let this := { this with y := this.y / other.y }
  let this := { this with z := this.z / other.z }
  let this := { this with w := this.w / other.w }
  this

/-- `vec4 /= float` include/zcm/detail/impl_op_macro.hpp:82-83, instantiated at src/vec4.cpp:102 -/
def V4.divAssignS [Div α] (this : V4 α) (scalar : α) : V4 α :=
  let this := { this with x := this.x / scalar }
  let this := { this with y := this.y / scalar }
  let this := { this with z := this.z / scalar }
  let this := { this with w := this.w / scalar }
  this

/-- unary `-vec4` src/vec4.cpp:106-112 -/
instance V4.instNeg [Neg α] : Neg (V4 α) := ⟨fun first => ⟨-first.x, -first.y, -first.z, -first.w⟩⟩

/-- unary `+vec4` src/vec4.cpp:115-121 (unary `+` on a float is the identity) -/
def V4.pos (first : V4 α) : V4 α := ⟨first.x, first.y, first.z, first.w⟩

/-- prefix `++vec4` src/vec4.cpp:123-130: (object afterwards, value returned by reference to it) -/
def V4.preInc [Add α] [FloatOps α] (this : V4 α) : V4 α × V4 α :=
  let this := { this with x := this.x + lit 1 }
  let this := { this with y := this.y + lit 1 }
  let this := { this with z := this.z + lit 1 }
  let this := { this with w := this.w + lit 1 }
  (this, this)

/-- postfix `vec4++` src/vec4.cpp:132-140: (object afterwards, returned value) -/
def V4.postInc [Add α] [FloatOps α] (this : V4 α) : V4 α × V4 α :=
  let tmp := this
  let this := { this with x := this.x + lit 1 }
  let this := { this with y := this.y + lit 1 }
  let this := { this with z := this.z + lit 1 }
  let this := { this with w := this.w + lit 1 }
  (this, tmp)

/-- prefix `--vec4` src/vec4.cpp:142-149: (object afterwards, value returned by reference to it) -/
def V4.preDec [Sub α] [FloatOps α] (this : V4 α) : V4 α × V4 α :=
  let this := { this with x := this.x - lit 1 }
  let this := { this with y := this.y - lit 1 }
  let this := { this with z := this.z - lit 1 }
  let this := { this with w := this.w - lit 1 }
  (this, this)

/-- postfix `vec4--` src/vec4.cpp:151-159: (object afterwards, returned value) -/
def V4.postDec [Sub α] [FloatOps α] (this : V4 α) : V4 α × V4 α :=
  let tmp := this
  let this := { this with x := this.x - lit 1 }
  let this := { this with y := this.y - lit 1 }
  let this := { this with z := this.z - lit 1 }
  let this := { this with w := this.w - lit 1 }
  (this, tmp)

/-- `vec4 == vec4` src/vec4.cpp:161-164 -/
def V4.eq [BEq α] (first second : V4 α) : Bool :=
  first.x == second.x && first.y == second.y && first.z == second.z && first.w == second.w

/-- `vec4 != vec4` src/vec4.cpp:166-169 -/
def V4.ne [BEq α] (first second : V4 α) : Bool := !(V4.eq first second)

/-- reading `v[val]` src/vec4.cpp:171-181; `_data[val]` outside the array is undefined. -/
def V4.at (b : Build) (this : V4 α) (val : UInt32) : Res α := do
  cassert b (val < 4)
  match val.toNat with
  | 0 => pure this.x
  | 1 => pure this.y
  | 2 => pure this.z
  | 3 => pure this.w
  | _ => Res.ub

/-- writing `v[val] = a` through the reference of src/vec4.cpp:171-175: the object afterwards. -/
def V4.set (b : Build) (this : V4 α) (val : UInt32) (a : α) : Res (V4 α) := do
  cassert b (val < 4)
  match val.toNat with
  | 0 => pure { this with x := a }
  | 1 => pure { this with y := a }
  | 2 => pure { this with z := a }
  | 3 => pure { this with w := a }
  | _ => Res.ub

/-! ## Projection lemmas (all by definition) -/

section simp
variable {α : Type}
@[simp] theorem V2.add_x [Add α] (a b : V2 α) : (a + b).x = a.x + b.x := rfl
@[simp] theorem V2.addS_x [Add α] (a : V2 α) (b : α) : (a + b).x = a.x + b := rfl
@[simp] theorem V2.Sadd_x [Add α] (a : α) (b : V2 α) : (a + b).x = a + b.x := rfl
@[simp] theorem V2.add_y [Add α] (a b : V2 α) : (a + b).y = a.y + b.y := rfl
@[simp] theorem V2.addS_y [Add α] (a : V2 α) (b : α) : (a + b).y = a.y + b := rfl
@[simp] theorem V2.Sadd_y [Add α] (a : α) (b : V2 α) : (a + b).y = a + b.y := rfl
@[simp] theorem V2.sub_x [Sub α] (a b : V2 α) : (a - b).x = a.x - b.x := rfl
@[simp] theorem V2.subS_x [Sub α] (a : V2 α) (b : α) : (a - b).x = a.x - b := rfl
@[simp] theorem V2.Ssub_x [Sub α] (a : α) (b : V2 α) : (a - b).x = a - b.x := rfl
@[simp] theorem V2.sub_y [Sub α] (a b : V2 α) : (a - b).y = a.y - b.y := rfl
@[simp] theorem V2.subS_y [Sub α] (a : V2 α) (b : α) : (a - b).y = a.y - b := rfl
@[simp] theorem V2.Ssub_y [Sub α] (a : α) (b : V2 α) : (a - b).y = a - b.y := rfl
@[simp] theorem V2.mul_x [Mul α] (a b : V2 α) : (a * b).x = a.x * b.x := rfl
@[simp] theorem V2.mulS_x [Mul α] (a : V2 α) (b : α) : (a * b).x = a.x * b := rfl
@[simp] theorem V2.Smul_x [Mul α] (a : α) (b : V2 α) : (a * b).x = a * b.x := rfl
@[simp] theorem V2.mul_y [Mul α] (a b : V2 α) : (a * b).y = a.y * b.y := rfl
@[simp] theorem V2.mulS_y [Mul α] (a : V2 α) (b : α) : (a * b).y = a.y * b := rfl
@[simp] theorem V2.Smul_y [Mul α] (a : α) (b : V2 α) : (a * b).y = a * b.y := rfl
@[simp] theorem V2.div_x [Div α] (a b : V2 α) : (a / b).x = a.x / b.x := rfl
@[simp] theorem V2.divS_x [Div α] (a : V2 α) (b : α) : (a / b).x = a.x / b := rfl
@[simp] theorem V2.Sdiv_x [Div α] (a : α) (b : V2 α) : (a / b).x = a / b.x := rfl
@[simp] theorem V2.div_y [Div α] (a b : V2 α) : (a / b).y = a.y / b.y := rfl
@[simp] theorem V2.divS_y [Div α] (a : V2 α) (b : α) : (a / b).y = a.y / b := rfl
@[simp] theorem V2.Sdiv_y [Div α] (a : α) (b : V2 α) : (a / b).y = a / b.y := rfl
@[simp] theorem V2.neg_x [Neg α] (a : V2 α) : (-a).x = -a.x := rfl
@[simp] theorem V2.splat_x (a : α) : (V2.splat a).x = a := rfl
@[simp] theorem V2.neg_y [Neg α] (a : V2 α) : (-a).y = -a.y := rfl
@[simp] theorem V2.splat_y (a : α) : (V2.splat a).y = a := rfl
@[simp] theorem V3.add_x [Add α] (a b : V3 α) : (a + b).x = a.x + b.x := rfl
@[simp] theorem V3.addS_x [Add α] (a : V3 α) (b : α) : (a + b).x = a.x + b := rfl
@[simp] theorem V3.Sadd_x [Add α] (a : α) (b : V3 α) : (a + b).x = a + b.x := rfl
@[simp] theorem V3.add_y [Add α] (a b : V3 α) : (a + b).y = a.y + b.y := rfl
@[simp] theorem V3.addS_y [Add α] (a : V3 α) (b : α) : (a + b).y = a.y + b := rfl
@[simp] theorem V3.Sadd_y [Add α] (a : α) (b : V3 α) : (a + b).y = a + b.y := rfl
@[simp] theorem V3.add_z [Add α] (a b : V3 α) : (a + b).z = a.z + b.z := rfl
@[simp] theorem V3.addS_z [Add α] (a : V3 α) (b : α) : (a + b).z = a.z + b := rfl
@[simp] theorem V3.Sadd_z [Add α] (a : α) (b : V3 α) : (a + b).z = a + b.z := rfl
@[simp] theorem V3.sub_x [Sub α] (a b : V3 α) : (a - b).x = a.x - b.x := rfl
@[simp] theorem V3.subS_x [Sub α] (a : V3 α) (b : α) : (a - b).x = a.x - b := rfl
@[simp] theorem V3.Ssub_x [Sub α] (a : α) (b : V3 α) : (a - b).x = a - b.x := rfl
@[simp] theorem V3.sub_y [Sub α] (a b : V3 α) : (a - b).y = a.y - b.y := rfl
@[simp] theorem V3.subS_y [Sub α] (a : V3 α) (b : α) : (a - b).y = a.y - b := rfl
@[simp] theorem V3.Ssub_y [Sub α] (a : α) (b : V3 α) : (a - b).y = a - b.y := rfl
@[simp] theorem V3.sub_z [Sub α] (a b : V3 α) : (a - b).z = a.z - b.z := rfl
@[simp] theorem V3.subS_z [Sub α] (a : V3 α) (b : α) : (a - b).z = a.z - b := rfl
@[simp] theorem V3.Ssub_z [Sub α] (a : α) (b : V3 α) : (a - b).z = a - b.z := rfl
@[simp] theorem V3.mul_x [Mul α] (a b : V3 α) : (a * b).x = a.x * b.x := rfl
@[simp] theorem V3.mulS_x [Mul α] (a : V3 α) (b : α) : (a * b).x = a.x * b := rfl
@[simp] theorem V3.Smul_x [Mul α] (a : α) (b : V3 α) : (a * b).x = a * b.x := rfl
@[simp] theorem V3.mul_y [Mul α] (a b : V3 α) : (a * b).y = a.y * b.y := rfl
@[simp] theorem V3.mulS_y [Mul α] (a : V3 α) (b : α) : (a * b).y = a.y * b := rfl
@[simp] theorem V3.Smul_y [Mul α] (a : α) (b : V3 α) : (a * b).y = a * b.y := rfl
@[simp] theorem V3.mul_z [Mul α] (a b : V3 α) : (a * b).z = a.z * b.z := rfl
@[simp] theorem V3.mulS_z [Mul α] (a : V3 α) (b : α) : (a * b).z = a.z * b := rfl
@[simp] theorem V3.Smul_z [Mul α] (a : α) (b : V3 α) : (a * b).z = a * b.z := rfl
@[simp] theorem V3.div_x [Div α] (a b : V3 α) : (a / b).x = a.x / b.x := rfl
@[simp] theorem V3.divS_x [Div α] (a : V3 α) (b : α) : (a / b).x = a.x / b := rfl
@[simp] theorem V3.Sdiv_x [Div α] (a : α) (b : V3 α) : (a / b).x = a / b.x := rfl
@[simp] theorem V3.div_y [Div α] (a b : V3 α) : (a / b).y = a.y / b.y := rfl
@[simp] theorem V3.divS_y [Div α] (a : V3 α) (b : α) : (a / b).y = a.y / b := rfl
@[simp] theorem V3.Sdiv_y [Div α] (a : α) (b : V3 α) : (a / b).y = a / b.y := rfl
@[simp] theorem V3.div_z [Div α] (a b : V3 α) : (a / b).z = a.z / b.z := rfl
@[simp] theorem V3.divS_z [Div α] (a : V3 α) (b : α) : (a / b).z = a.z / b := rfl
@[simp] theorem V3.Sdiv_z [Div α] (a : α) (b : V3 α) : (a / b).z = a / b.z := rfl
@[simp] theorem V3.neg_x [Neg α] (a : V3 α) : (-a).x = -a.x := rfl
@[simp] theorem V3.splat_x (a : α) : (V3.splat a).x = a := rfl
@[simp] theorem V3.neg_y [Neg α] (a : V3 α) : (-a).y = -a.y := rfl
@[simp] theorem V3.splat_y (a : α) : (V3.splat a).y = a := rfl
@[simp] theorem V3.neg_z [Neg α] (a : V3 α) : (-a).z = -a.z := rfl
@[simp] theorem V3.splat_z (a : α) : (V3.splat a).z = a := rfl
@[simp] theorem V4.add_x [Add α] (a b : V4 α) : (a + b).x = a.x + b.x := rfl
@[simp] theorem V4.addS_x [Add α] (a : V4 α) (b : α) : (a + b).x = a.x + b := rfl
@[simp] theorem V4.Sadd_x [Add α] (a : α) (b : V4 α) : (a + b).x = a + b.x := rfl
@[simp] theorem V4.add_y [Add α] (a b : V4 α) : (a + b).y = a.y + b.y := rfl
@[simp] theorem V4.addS_y [Add α] (a : V4 α) (b : α) : (a + b).y = a.y + b := rfl
@[simp] theorem V4.Sadd_y [Add α] (a : α) (b : V4 α) : (a + b).y = a + b.y := rfl
@[simp] theorem V4.add_z [Add α] (a b : V4 α) : (a + b).z = a.z + b.z := rfl
@[simp] theorem V4.addS_z [Add α] (a : V4 α) (b : α) : (a + b).z = a.z + b := rfl
@[simp] theorem V4.Sadd_z [Add α] (a : α) (b : V4 α) : (a + b).z = a + b.z := rfl
@[simp] theorem V4.add_w [Add α] (a b : V4 α) : (a + b).w = a.w + b.w := rfl
@[simp] theorem V4.addS_w [Add α] (a : V4 α) (b : α) : (a + b).w = a.w + b := rfl
@[simp] theorem V4.Sadd_w [Add α] (a : α) (b : V4 α) : (a + b).w = a + b.w := rfl
@[simp] theorem V4.sub_x [Sub α] (a b : V4 α) : (a - b).x = a.x - b.x := rfl
@[simp] theorem V4.subS_x [Sub α] (a : V4 α) (b : α) : (a - b).x = a.x - b := rfl
@[simp] theorem V4.Ssub_x [Sub α] (a : α) (b : V4 α) : (a - b).x = a - b.x := rfl
@[simp] theorem V4.sub_y [Sub α] (a b : V4 α) : (a - b).y = a.y - b.y := rfl
@[simp] theorem V4.subS_y [Sub α] (a : V4 α) (b : α) : (a - b).y = a.y - b := rfl
@[simp] theorem V4.Ssub_y [Sub α] (a : α) (b : V4 α) : (a - b).y = a - b.y := rfl
@[simp] theorem V4.sub_z [Sub α] (a b : V4 α) : (a - b).z = a.z - b.z := rfl
@[simp] theorem V4.subS_z [Sub α] (a : V4 α) (b : α) : (a - b).z = a.z - b := rfl
@[simp] theorem V4.Ssub_z [Sub α] (a : α) (b : V4 α) : (a - b).z = a - b.z := rfl
@[simp] theorem V4.sub_w [Sub α] (a b : V4 α) : (a - b).w = a.w - b.w := rfl
@[simp] theorem V4.subS_w [Sub α] (a : V4 α) (b : α) : (a - b).w = a.w - b := rfl
@[simp] theorem V4.Ssub_w [Sub α] (a : α) (b : V4 α) : (a - b).w = a - b.w := rfl
@[simp] theorem V4.mul_x [Mul α] (a b : V4 α) : (a * b).x = a.x * b.x := rfl
@[simp] theorem V4.mulS_x [Mul α] (a : V4 α) (b : α) : (a * b).x = a.x * b := rfl
@[simp] theorem V4.Smul_x [Mul α] (a : α) (b : V4 α) : (a * b).x = a * b.x := rfl
@[simp] theorem V4.mul_y [Mul α] (a b : V4 α) : (a * b).y = a.y * b.y := rfl
@[simp] theorem V4.mulS_y [Mul α] (a : V4 α) (b : α) : (a * b).y = a.y * b := rfl
@[simp] theorem V4.Smul_y [Mul α] (a : α) (b : V4 α) : (a * b).y = a * b.y := rfl
@[simp] theorem V4.mul_z [Mul α] (a b : V4 α) : (a * b).z = a.z * b.z := rfl
@[simp] theorem V4.mulS_z [Mul α] (a : V4 α) (b : α) : (a * b).z = a.z * b := rfl
@[simp] theorem V4.Smul_z [Mul α] (a : α) (b : V4 α) : (a * b).z = a * b.z := rfl
@[simp] theorem V4.mul_w [Mul α] (a b : V4 α) : (a * b).w = a.w * b.w := rfl
@[simp] theorem V4.mulS_w [Mul α] (a : V4 α) (b : α) : (a * b).w = a.w * b := rfl
@[simp] theorem V4.Smul_w [Mul α] (a : α) (b : V4 α) : (a * b).w = a * b.w := rfl
@[simp] theorem V4.div_x [Div α] (a b : V4 α) : (a / b).x = a.x / b.x := rfl
@[simp] theorem V4.divS_x [Div α] (a : V4 α) (b : α) : (a / b).x = a.x / b := rfl
@[simp] theorem V4.Sdiv_x [Div α] (a : α) (b : V4 α) : (a / b).x = a / b.x := rfl
@[simp] theorem V4.div_y [Div α] (a b : V4 α) : (a / b).y = a.y / b.y := rfl
@[simp] theorem V4.divS_y [Div α] (a : V4 α) (b : α) : (a / b).y = a.y / b := rfl
@[simp] theorem V4.Sdiv_y [Div α] (a : α) (b : V4 α) : (a / b).y = a / b.y := rfl
@[simp] theorem V4.div_z [Div α] (a b : V4 α) : (a / b).z = a.z / b.z := rfl
@[simp] theorem V4.divS_z [Div α] (a : V4 α) (b : α) : (a / b).z = a.z / b := rfl
@[simp] theorem V4.Sdiv_z [Div α] (a : α) (b : V4 α) : (a / b).z = a / b.z := rfl
@[simp] theorem V4.div_w [Div α] (a b : V4 α) : (a / b).w = a.w / b.w := rfl
@[simp] theorem V4.divS_w [Div α] (a : V4 α) (b : α) : (a / b).w = a.w / b := rfl
@[simp] theorem V4.Sdiv_w [Div α] (a : α) (b : V4 α) : (a / b).w = a / b.w := rfl
@[simp] theorem V4.neg_x [Neg α] (a : V4 α) : (-a).x = -a.x := rfl
@[simp] theorem V4.splat_x (a : α) : (V4.splat a).x = a := rfl
@[simp] theorem V4.neg_y [Neg α] (a : V4 α) : (-a).y = -a.y := rfl
@[simp] theorem V4.splat_y (a : α) : (V4.splat a).y = a := rfl
@[simp] theorem V4.neg_z [Neg α] (a : V4 α) : (-a).z = -a.z := rfl
@[simp] theorem V4.splat_z (a : α) : (V4.splat a).z = a := rfl
@[simp] theorem V4.neg_w [Neg α] (a : V4 α) : (-a).w = -a.w := rfl
@[simp] theorem V4.splat_w (a : α) : (V4.splat a).w = a := rfl
end simp

end Zcm
