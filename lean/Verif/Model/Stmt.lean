import Verif.Model.MatrixTransform

/-!
# The matrix code, statement by statement

A second transcription of src/matrix.cpp, src/mat2.cpp, src/mat3.cpp, src/mat4.cpp, src/matrix_transform.cpp and the matrix
part of src/quaternion.cpp, closer to the C++ text than the functional model: one `let` per C++ statement, every subscript
goes through `operator[]` with its assertion, and matrices made with `no_init_t` start with indeterminate components.
Simplification: in C++ `matN(no_init_t)` default-constructs its columns, which zero-fills them (`matN.ofNoInit` below), so
nothing is really indeterminate there; the programs below start from `MN.noInit` instead, which makes them undefined as soon
as they rely on those zeros.
`none` is an indeterminate component; reading one, alone or as part of a copy of the whole object, is undefined behaviour.
(C++ allows some copies of indeterminate bytes that this model forbids.)  Operators on `vecN` use `_data` directly and are
taken from the functional model.
-/

namespace Zcm

/-- reading a component that may be indeterminate (the lvalue-to-rvalue conversion in e.g. src/matrix.cpp:364) -/
def Cell.read {α : Type} : Option α → Res α
  | some a => .ok a
  | none => .ub

/-- copying a whole `vec2` whose components may be indeterminate (implicit copy constructor of include/zcm/vec2.hpp) -/
def V2.load {α : Type} (v : V2 (Option α)) : Res (V2 α) := do
  let x ← Cell.read v.x
  let y ← Cell.read v.y
  pure ⟨x, y⟩

/-- a `vec2` all of whose components are determinate, as memory (include/zcm/vec2.hpp) -/
def V2.cells {α : Type} (v : V2 α) : V2 (Option α) := ⟨some v.x, some v.y⟩

/-- copying a whole `vec3` whose components may be indeterminate (implicit copy constructor of include/zcm/vec3.hpp) -/
def V3.load {α : Type} (v : V3 (Option α)) : Res (V3 α) := do
  let x ← Cell.read v.x
  let y ← Cell.read v.y
  let z ← Cell.read v.z
  pure ⟨x, y, z⟩

/-- a `vec3` all of whose components are determinate, as memory (include/zcm/vec3.hpp) -/
def V3.cells {α : Type} (v : V3 α) : V3 (Option α) := ⟨some v.x, some v.y, some v.z⟩

/-- copying a whole `vec4` whose components may be indeterminate (implicit copy constructor of include/zcm/vec4.hpp) -/
def V4.load {α : Type} (v : V4 (Option α)) : Res (V4 α) := do
  let x ← Cell.read v.x
  let y ← Cell.read v.y
  let z ← Cell.read v.z
  let w ← Cell.read v.w
  pure ⟨x, y, z, w⟩

/-- a `vec4` all of whose components are determinate, as memory (include/zcm/vec4.hpp) -/
def V4.cells {α : Type} (v : V4 α) : V4 (Option α) := ⟨some v.x, some v.y, some v.z, some v.w⟩

/-- `vec2(no_init_t)` src/vec2.cpp:14-15 and `ivec2(no_init_t)` src/ivec2.cpp:14-15: nothing is written, every component is indeterminate -/
def V2.noInit {α : Type} : V2 (Option α) := ⟨none, none⟩

/-- `vec3(no_init_t)` src/vec3.cpp:15-16 and `ivec3(no_init_t)` src/ivec3.cpp:15-16: nothing is written, every component is indeterminate -/
def V3.noInit {α : Type} : V3 (Option α) := ⟨none, none, none⟩

/-- `vec4(no_init_t)` src/vec4.cpp:16-17 and `ivec4(no_init_t)` src/ivec4.cpp:16-17: nothing is written, every component is indeterminate -/
def V4.noInit {α : Type} : V4 (Option α) := ⟨none, none, none, none⟩

/-- `quat(no_init_t)` src/quat.cpp:23-24: nothing is written, every component is indeterminate -/
def Quat.noInit {α : Type} : Quat (Option α) := ⟨none, none, none, none⟩

/-- a `quat` all of whose components are determinate, as memory (include/zcm/quat.hpp) -/
def Quat.cells {α : Type} (q : Quat α) : Quat (Option α) := ⟨some q.x, some q.y, some q.z, some q.w⟩

/-- `mat2(no_init_t)` src/mat2.cpp:13-14: the body is empty, so the columns are default-constructed by `vec2()`, which writes zeros -/
def M2.ofNoInit {α : Type} [FloatOps α] : M2 α := ⟨V2.default, V2.default⟩

/-- what a user of `mat2(no_init_t)` (src/mat2.cpp:13-14) may assume: every component is indeterminate.  Stricter than the code, see above. -/
def M2.noInit {α : Type} : M2 (Option α) := ⟨⟨none, none⟩, ⟨none, none⟩⟩

/-- `m[pos][row] = a` on an object that may be partly indeterminate: src/mat2.cpp:36-40 and the subscript of `vec2` -/
def M2.storeEntry {α : Type} (b : Build) (this : M2 (Option α)) (pos row : UInt32) (a : α) : Res (M2 (Option α)) :=
  M2.setEntry b this pos row (some a)

/-- `m[pos] = v` on an object that may be partly indeterminate: src/mat2.cpp:36-40 -/
def M2.storeCol {α : Type} (b : Build) (this : M2 (Option α)) (pos : UInt32) (v : V2 α) : Res (M2 (Option α)) :=
  M2.set b this pos (V2.cells v)

/-- reading `m[pos][row]` of an object that may be partly indeterminate: src/mat2.cpp:42-46 and the subscript of `vec2` -/
def M2.loadEntry {α : Type} (b : Build) (this : M2 (Option α)) (pos row : UInt32) : Res α := do
  Cell.read (← M2.entry b this pos row)

/-- reading the column `m[pos]` of an object that may be partly indeterminate: src/mat2.cpp:42-46 -/
def M2.loadCol {α : Type} (b : Build) (this : M2 (Option α)) (pos : UInt32) : Res (V2 α) := do
  V2.load (← M2.at b this pos)

/-- copying or returning the whole object (implicit copy constructor of include/zcm/mat2.hpp) -/
def M2.load {α : Type} (this : M2 (Option α)) : Res (M2 α) := do
  let c0 ← V2.load this.c0
  let c1 ← V2.load this.c1
  pure ⟨c0, c1⟩

/-- `mat3(no_init_t)` src/mat3.cpp:13-14: the body is empty, so the columns are default-constructed by `vec3()`, which writes zeros -/
def M3.ofNoInit {α : Type} [FloatOps α] : M3 α := ⟨V3.default, V3.default, V3.default⟩

/-- what a user of `mat3(no_init_t)` (src/mat3.cpp:13-14) may assume: every component is indeterminate.  Stricter than the code, see above. -/
def M3.noInit {α : Type} : M3 (Option α) := ⟨⟨none, none, none⟩, ⟨none, none, none⟩, ⟨none, none, none⟩⟩

/-- `m[pos][row] = a` on an object that may be partly indeterminate: src/mat3.cpp:162-166 and the subscript of `vec3` -/
def M3.storeEntry {α : Type} (b : Build) (this : M3 (Option α)) (pos row : UInt32) (a : α) : Res (M3 (Option α)) :=
  M3.setEntry b this pos row (some a)

/-- `m[pos] = v` on an object that may be partly indeterminate: src/mat3.cpp:162-166 -/
def M3.storeCol {α : Type} (b : Build) (this : M3 (Option α)) (pos : UInt32) (v : V3 α) : Res (M3 (Option α)) :=
  M3.set b this pos (V3.cells v)

/-- reading `m[pos][row]` of an object that may be partly indeterminate: src/mat3.cpp:168-172 and the subscript of `vec3` -/
def M3.loadEntry {α : Type} (b : Build) (this : M3 (Option α)) (pos row : UInt32) : Res α := do
  Cell.read (← M3.entry b this pos row)

/-- reading the column `m[pos]` of an object that may be partly indeterminate: src/mat3.cpp:168-172 -/
def M3.loadCol {α : Type} (b : Build) (this : M3 (Option α)) (pos : UInt32) : Res (V3 α) := do
  V3.load (← M3.at b this pos)

/-- copying or returning the whole object (implicit copy constructor of include/zcm/mat3.hpp) -/
def M3.load {α : Type} (this : M3 (Option α)) : Res (M3 α) := do
  let c0 ← V3.load this.c0
  let c1 ← V3.load this.c1
  let c2 ← V3.load this.c2
  pure ⟨c0, c1, c2⟩

/-- `mat4(no_init_t)` src/mat4.cpp:13-14: the body is empty, so the columns are default-constructed by `vec4()`, which writes zeros -/
def M4.ofNoInit {α : Type} [FloatOps α] : M4 α := ⟨V4.default, V4.default, V4.default, V4.default⟩

/-- what a user of `mat4(no_init_t)` (src/mat4.cpp:13-14) may assume: every component is indeterminate.  Stricter than the code, see above. -/
def M4.noInit {α : Type} : M4 (Option α) := ⟨⟨none, none, none, none⟩, ⟨none, none, none, none⟩, ⟨none, none, none, none⟩, ⟨none, none, none, none⟩⟩

/-- `m[pos][row] = a` on an object that may be partly indeterminate: src/mat4.cpp:167-171 and the subscript of `vec4` -/
def M4.storeEntry {α : Type} (b : Build) (this : M4 (Option α)) (pos row : UInt32) (a : α) : Res (M4 (Option α)) :=
  M4.setEntry b this pos row (some a)

/-- `m[pos] = v` on an object that may be partly indeterminate: src/mat4.cpp:167-171 -/
def M4.storeCol {α : Type} (b : Build) (this : M4 (Option α)) (pos : UInt32) (v : V4 α) : Res (M4 (Option α)) :=
  M4.set b this pos (V4.cells v)

/-- reading `m[pos][row]` of an object that may be partly indeterminate: src/mat4.cpp:173-177 and the subscript of `vec4` -/
def M4.loadEntry {α : Type} (b : Build) (this : M4 (Option α)) (pos row : UInt32) : Res α := do
  Cell.read (← M4.entry b this pos row)

/-- reading the column `m[pos]` of an object that may be partly indeterminate: src/mat4.cpp:173-177 -/
def M4.loadCol {α : Type} (b : Build) (this : M4 (Option α)) (pos : UInt32) : Res (V4 α) := do
  V4.load (← M4.at b this pos)

/-- copying or returning the whole object (implicit copy constructor of include/zcm/mat4.hpp) -/
def M4.load {α : Type} (this : M4 (Option α)) : Res (M4 α) := do
  let c0 ← V4.load this.c0
  let c1 ← V4.load this.c1
  let c2 ← V4.load this.c2
  let c3 ← V4.load this.c3
  pure ⟨c0, c1, c2, c3⟩

namespace Stmt

variable {α : Type} [Add α] [Sub α] [Mul α] [Div α] [Neg α] [FloatOps α] [Libm α]
  [LT α] [DecidableLT α] [LE α] [DecidableLE α] [BEq α]

/-- `mat2 + mat2` src/mat2.cpp:48-52 -/
def add2 (b : Build) (first : M2 α) (second : M2 α) : Res (M2 α) := do
  pure (M2.ofCols ((← M2.at b first 0) + (← M2.at b second 0)) ((← M2.at b first 1) + (← M2.at b second 1)))

/-- `mat2 - mat2` src/mat2.cpp:54-58 -/
def sub2 (b : Build) (first : M2 α) (second : M2 α) : Res (M2 α) := do
  pure (M2.ofCols ((← M2.at b first 0) - (← M2.at b second 0)) ((← M2.at b first 1) - (← M2.at b second 1)))

/-- `-mat2` src/mat2.cpp:60-64 -/
def neg2 (b : Build) (first : M2 α) : Res (M2 α) := do
  pure (M2.ofCols (-(← M2.at b first 0)) (-(← M2.at b first 1)))

/-- `mat2 * mat2` src/mat2.cpp:72-79 -/
def mul2 (b : Build) (m1 : M2 α) (m2 : M2 α) : Res (M2 α) := do
  pure (M2.ofFloats ((← M2.entry b m1 0 0) * (← M2.entry b m2 0 0) + (← M2.entry b m1 1 0) * (← M2.entry b m2 0 1)) ((← M2.entry b m1 0 1) * (← M2.entry b m2 0 0) + (← M2.entry b m1 1 1) * (← M2.entry b m2 0 1)) ((← M2.entry b m1 0 0) * (← M2.entry b m2 1 0) + (← M2.entry b m1 1 0) * (← M2.entry b m2 1 1)) ((← M2.entry b m1 0 1) * (← M2.entry b m2 1 0) + (← M2.entry b m1 1 1) * (← M2.entry b m2 1 1)))

/-- `mat2 * float` src/mat2.cpp:88-92 -/
def mulS2 (b : Build) (mat : M2 α) (scalar : α) : Res (M2 α) := do
  pure (M2.ofCols ((← M2.at b mat 0) * scalar) ((← M2.at b mat 1) * scalar))

/-- `mat2 / float` src/mat2.cpp:94-98 -/
def divS2 (b : Build) (mat : M2 α) (scalar : α) : Res (M2 α) := do
  pure (M2.ofCols ((← M2.at b mat 0) / scalar) ((← M2.at b mat 1) / scalar))

/-- `float * mat2` src/mat2.cpp:100-104 -/
def smul2 (b : Build) (scalar : α) (mat : M2 α) : Res (M2 α) := do
  pure (M2.ofCols (scalar * (← M2.at b mat 0)) (scalar * (← M2.at b mat 1)))

/-- `float / mat2` src/mat2.cpp:106-110 -/
def sdiv2 (b : Build) (scalar : α) (mat : M2 α) : Res (M2 α) := do
  pure (M2.ofCols (scalar / (← M2.at b mat 0)) (scalar / (← M2.at b mat 1)))

/-- `mat2 * vec2` src/mat2.cpp:112-116 -/
def mulV2 (b : Build) (m : M2 α) (v : V2 α) : Res (V2 α) := do
  pure ⟨(← M2.entry b m 0 0) * v.x + (← M2.entry b m 1 0) * v.y, (← M2.entry b m 0 1) * v.x + (← M2.entry b m 1 1) * v.y⟩

/-- `vec2 * mat2` src/mat2.cpp:118-122 -/
def vmul2 (b : Build) (v : V2 α) (m : M2 α) : Res (V2 α) := do
  pure ⟨v.x * (← M2.entry b m 0 0) + v.y * (← M2.entry b m 0 1), v.x * (← M2.entry b m 1 0) + v.y * (← M2.entry b m 1 1)⟩

/-- `mat2 == mat2` src/mat2.cpp:154-157 -/
def eq2 (b : Build) (first : M2 α) (second : M2 α) : Res (Bool) := do
  pure (V2.eq (← M2.at b first 0) (← M2.at b second 0) && V2.eq (← M2.at b first 1) (← M2.at b second 1))

/-- `mat3 + mat3` src/mat3.cpp:50-55 -/
def add3 (b : Build) (first : M3 α) (second : M3 α) : Res (M3 α) := do
  pure (M3.ofCols ((← M3.at b first 0) + (← M3.at b second 0)) ((← M3.at b first 1) + (← M3.at b second 1)) ((← M3.at b first 2) + (← M3.at b second 2)))

/-- `mat3 - mat3` src/mat3.cpp:57-62 -/
def sub3 (b : Build) (first : M3 α) (second : M3 α) : Res (M3 α) := do
  pure (M3.ofCols ((← M3.at b first 0) - (← M3.at b second 0)) ((← M3.at b first 1) - (← M3.at b second 1)) ((← M3.at b first 2) - (← M3.at b second 2)))

/-- `-mat3` src/mat3.cpp:64-69 -/
def neg3 (b : Build) (first : M3 α) : Res (M3 α) := do
  pure (M3.ofCols (-(← M3.at b first 0)) (-(← M3.at b first 1)) (-(← M3.at b first 2)))

/-- `mat3 * mat3` src/mat3.cpp:94-127 -/
def mul3 (b : Build) (m1 : M3 α) (m2 : M3 α) : Res (M3 α) := do
  let SrcA00 : α := (← M3.entry b m1 0 0)
  let SrcA01 : α := (← M3.entry b m1 0 1)
  let SrcA02 : α := (← M3.entry b m1 0 2)
  let SrcA10 : α := (← M3.entry b m1 1 0)
  let SrcA11 : α := (← M3.entry b m1 1 1)
  let SrcA12 : α := (← M3.entry b m1 1 2)
  let SrcA20 : α := (← M3.entry b m1 2 0)
  let SrcA21 : α := (← M3.entry b m1 2 1)
  let SrcA22 : α := (← M3.entry b m1 2 2)
  let SrcB00 : α := (← M3.entry b m2 0 0)
  let SrcB01 : α := (← M3.entry b m2 0 1)
  let SrcB02 : α := (← M3.entry b m2 0 2)
  let SrcB10 : α := (← M3.entry b m2 1 0)
  let SrcB11 : α := (← M3.entry b m2 1 1)
  let SrcB12 : α := (← M3.entry b m2 1 2)
  let SrcB20 : α := (← M3.entry b m2 2 0)
  let SrcB21 : α := (← M3.entry b m2 2 1)
  let SrcB22 : α := (← M3.entry b m2 2 2)
  let Result : M3 α := M3.default
  let Result ← M3.setEntry b Result 0 0 (SrcA00 * SrcB00 + SrcA10 * SrcB01 + SrcA20 * SrcB02)
  let Result ← M3.setEntry b Result 0 1 (SrcA01 * SrcB00 + SrcA11 * SrcB01 + SrcA21 * SrcB02)
  let Result ← M3.setEntry b Result 0 2 (SrcA02 * SrcB00 + SrcA12 * SrcB01 + SrcA22 * SrcB02)
  let Result ← M3.setEntry b Result 1 0 (SrcA00 * SrcB10 + SrcA10 * SrcB11 + SrcA20 * SrcB12)
  let Result ← M3.setEntry b Result 1 1 (SrcA01 * SrcB10 + SrcA11 * SrcB11 + SrcA21 * SrcB12)
  let Result ← M3.setEntry b Result 1 2 (SrcA02 * SrcB10 + SrcA12 * SrcB11 + SrcA22 * SrcB12)
  let Result ← M3.setEntry b Result 2 0 (SrcA00 * SrcB20 + SrcA10 * SrcB21 + SrcA20 * SrcB22)
  let Result ← M3.setEntry b Result 2 1 (SrcA01 * SrcB20 + SrcA11 * SrcB21 + SrcA21 * SrcB22)
  let Result ← M3.setEntry b Result 2 2 (SrcA02 * SrcB20 + SrcA12 * SrcB21 + SrcA22 * SrcB22)
  pure Result

/-- `mat3 * float` src/mat3.cpp:134-139 -/
def mulS3 (b : Build) (mat : M3 α) (scalar : α) : Res (M3 α) := do
  pure (M3.ofCols ((← M3.at b mat 0) * scalar) ((← M3.at b mat 1) * scalar) ((← M3.at b mat 2) * scalar))

/-- `mat3 / float` src/mat3.cpp:141-146 -/
def divS3 (b : Build) (mat : M3 α) (scalar : α) : Res (M3 α) := do
  pure (M3.ofCols ((← M3.at b mat 0) / scalar) ((← M3.at b mat 1) / scalar) ((← M3.at b mat 2) / scalar))

/-- `float * mat3` src/mat3.cpp:148-153 -/
def smul3 (b : Build) (scalar : α) (mat : M3 α) : Res (M3 α) := do
  pure (M3.ofCols (scalar * (← M3.at b mat 0)) (scalar * (← M3.at b mat 1)) (scalar * (← M3.at b mat 2)))

/-- `float / mat3` src/mat3.cpp:155-160 -/
def sdiv3 (b : Build) (scalar : α) (mat : M3 α) : Res (M3 α) := do
  pure (M3.ofCols (scalar / (← M3.at b mat 0)) (scalar / (← M3.at b mat 1)) (scalar / (← M3.at b mat 2)))

/-- `mat3 * vec3` src/mat3.cpp:194-199 -/
def mulV3 (b : Build) (m : M3 α) (v : V3 α) : Res (V3 α) := do
  pure ⟨(← M3.entry b m 0 0) * v.x + (← M3.entry b m 1 0) * v.y + (← M3.entry b m 2 0) * v.z, (← M3.entry b m 0 1) * v.x + (← M3.entry b m 1 1) * v.y + (← M3.entry b m 2 1) * v.z, (← M3.entry b m 0 2) * v.x + (← M3.entry b m 1 2) * v.y + (← M3.entry b m 2 2) * v.z⟩

/-- `vec3 * mat3` src/mat3.cpp:201-206 -/
def vmul3 (b : Build) (v : V3 α) (m : M3 α) : Res (V3 α) := do
  pure ⟨(← M3.entry b m 0 0) * v.x + (← M3.entry b m 0 1) * v.y + (← M3.entry b m 0 2) * v.z, (← M3.entry b m 1 0) * v.x + (← M3.entry b m 1 1) * v.y + (← M3.entry b m 1 2) * v.z, (← M3.entry b m 2 0) * v.x + (← M3.entry b m 2 1) * v.y + (← M3.entry b m 2 2) * v.z⟩

/-- `mat3 == mat3` src/mat3.cpp:218-221 -/
def eq3 (b : Build) (first : M3 α) (second : M3 α) : Res (Bool) := do
  pure (V3.eq (← M3.at b first 0) (← M3.at b second 0) && V3.eq (← M3.at b first 1) (← M3.at b second 1) && V3.eq (← M3.at b first 2) (← M3.at b second 2))

/-- `mat4 + mat4` src/mat4.cpp:59-65 -/
def add4 (b : Build) (first : M4 α) (second : M4 α) : Res (M4 α) := do
  pure (M4.ofCols ((← M4.at b first 0) + (← M4.at b second 0)) ((← M4.at b first 1) + (← M4.at b second 1)) ((← M4.at b first 2) + (← M4.at b second 2)) ((← M4.at b first 3) + (← M4.at b second 3)))

/-- `mat4 - mat4` src/mat4.cpp:67-73 -/
def sub4 (b : Build) (first : M4 α) (second : M4 α) : Res (M4 α) := do
  pure (M4.ofCols ((← M4.at b first 0) - (← M4.at b second 0)) ((← M4.at b first 1) - (← M4.at b second 1)) ((← M4.at b first 2) - (← M4.at b second 2)) ((← M4.at b first 3) - (← M4.at b second 3)))

/-- `-mat4` src/mat4.cpp:75-81 -/
def neg4 (b : Build) (first : M4 α) : Res (M4 α) := do
  pure (M4.ofCols (-(← M4.at b first 0)) (-(← M4.at b first 1)) (-(← M4.at b first 2)) (-(← M4.at b first 3)))

/-- `mat4 * mat4` src/mat4.cpp:88-106 -/
def mul4 (b : Build) (m1 : M4 α) (m2 : M4 α) : Res (M4 α) := do
  let SrcA0 : V4 α := (← M4.at b m1 0)
  let SrcA1 : V4 α := (← M4.at b m1 1)
  let SrcA2 : V4 α := (← M4.at b m1 2)
  let SrcA3 : V4 α := (← M4.at b m1 3)
  let SrcB0 : V4 α := (← M4.at b m2 0)
  let SrcB1 : V4 α := (← M4.at b m2 1)
  let SrcB2 : V4 α := (← M4.at b m2 2)
  let SrcB3 : V4 α := (← M4.at b m2 3)
  let Result : M4 α := M4.default
  let Result ← M4.set b Result 0 (SrcA0 * (← V4.at b SrcB0 0) + SrcA1 * (← V4.at b SrcB0 1) + SrcA2 * (← V4.at b SrcB0 2) + SrcA3 * (← V4.at b SrcB0 3))
  let Result ← M4.set b Result 1 (SrcA0 * (← V4.at b SrcB1 0) + SrcA1 * (← V4.at b SrcB1 1) + SrcA2 * (← V4.at b SrcB1 2) + SrcA3 * (← V4.at b SrcB1 3))
  let Result ← M4.set b Result 2 (SrcA0 * (← V4.at b SrcB2 0) + SrcA1 * (← V4.at b SrcB2 1) + SrcA2 * (← V4.at b SrcB2 2) + SrcA3 * (← V4.at b SrcB2 3))
  let Result ← M4.set b Result 3 (SrcA0 * (← V4.at b SrcB3 0) + SrcA1 * (← V4.at b SrcB3 1) + SrcA2 * (← V4.at b SrcB3 2) + SrcA3 * (← V4.at b SrcB3 3))
  pure Result

/-- `mat4 * float` src/mat4.cpp:114-120 -/
def mulS4 (b : Build) (mat : M4 α) (scalar : α) : Res (M4 α) := do
  pure (M4.ofCols ((← M4.at b mat 0) * scalar) ((← M4.at b mat 1) * scalar) ((← M4.at b mat 2) * scalar) ((← M4.at b mat 3) * scalar))

/-- `mat4 / float` src/mat4.cpp:122-128 -/
def divS4 (b : Build) (mat : M4 α) (scalar : α) : Res (M4 α) := do
  pure (M4.ofCols ((← M4.at b mat 0) / scalar) ((← M4.at b mat 1) / scalar) ((← M4.at b mat 2) / scalar) ((← M4.at b mat 3) / scalar))

/-- `float * mat4` src/mat4.cpp:130-136 -/
def smul4 (b : Build) (scalar : α) (mat : M4 α) : Res (M4 α) := do
  pure (M4.ofCols (scalar * (← M4.at b mat 0)) (scalar * (← M4.at b mat 1)) (scalar * (← M4.at b mat 2)) (scalar * (← M4.at b mat 3)))

/-- `float / mat4` src/mat4.cpp:138-144 -/
def sdiv4 (b : Build) (scalar : α) (mat : M4 α) : Res (M4 α) := do
  pure (M4.ofCols (scalar / (← M4.at b mat 0)) (scalar / (← M4.at b mat 1)) (scalar / (← M4.at b mat 2)) (scalar / (← M4.at b mat 3)))

/-- `mat4 * vec4` src/mat4.cpp:179-193 -/
def mulV4 (b : Build) (m : M4 α) (v : V4 α) : Res (V4 α) := do
  let Mov0 : α := (← V4.at b v 0)
  let Mov1 : α := (← V4.at b v 1)
  let Mul0 : V4 α := (← M4.at b m 0) * Mov0
  let Mul1 : V4 α := (← M4.at b m 1) * Mov1
  let Add0 : V4 α := Mul0 + Mul1
  let Mov2 : α := (← V4.at b v 2)
  let Mov3 : α := (← V4.at b v 3)
  let Mul2 : V4 α := (← M4.at b m 2) * Mov2
  let Mul3 : V4 α := (← M4.at b m 3) * Mov3
  let Add1 : V4 α := Mul2 + Mul3
  let Add2 : V4 α := Add0 + Add1
  pure Add2

/-- `vec4 * mat4` src/mat4.cpp:195-201 -/
def vmul4 (b : Build) (v : V4 α) (m : M4 α) : Res (V4 α) := do
  pure ⟨(← M4.entry b m 0 0) * (← V4.at b v 0) + (← M4.entry b m 0 1) * (← V4.at b v 1) + (← M4.entry b m 0 2) * (← V4.at b v 2) + (← M4.entry b m 0 3) * (← V4.at b v 3), (← M4.entry b m 1 0) * (← V4.at b v 0) + (← M4.entry b m 1 1) * (← V4.at b v 1) + (← M4.entry b m 1 2) * (← V4.at b v 2) + (← M4.entry b m 1 3) * (← V4.at b v 3), (← M4.entry b m 2 0) * (← V4.at b v 0) + (← M4.entry b m 2 1) * (← V4.at b v 1) + (← M4.entry b m 2 2) * (← V4.at b v 2) + (← M4.entry b m 2 3) * (← V4.at b v 3), (← M4.entry b m 3 0) * (← V4.at b v 0) + (← M4.entry b m 3 1) * (← V4.at b v 1) + (← M4.entry b m 3 2) * (← V4.at b v 2) + (← M4.entry b m 3 3) * (← V4.at b v 3)⟩

/-- `mat4 == mat4` src/mat4.cpp:213-216 -/
def eq4 (b : Build) (first : M4 α) (second : M4 α) : Res (Bool) := do
  pure (V4.eq (← M4.at b first 0) (← M4.at b second 0) && V4.eq (← M4.at b first 1) (← M4.at b second 1) && V4.eq (← M4.at b first 2) (← M4.at b second 2) && V4.eq (← M4.at b first 3) (← M4.at b second 3))

/-- `matrixCompMult(mat2, mat2)` src/matrix.cpp:6-9 -/
def matrixCompMult2 (b : Build) (x : M2 α) (y : M2 α) : Res (M2 α) := do
  pure (M2.ofCols ((← M2.at b x 0) * (← M2.at b y 0)) ((← M2.at b x 1) * (← M2.at b y 1)))

/-- `matrixCompMult(mat3, mat3)` src/matrix.cpp:12-15 -/
def matrixCompMult3 (b : Build) (x : M3 α) (y : M3 α) : Res (M3 α) := do
  pure (M3.ofCols ((← M3.at b x 0) * (← M3.at b y 0)) ((← M3.at b x 1) * (← M3.at b y 1)) ((← M3.at b x 2) * (← M3.at b y 2)))

/-- `matrixCompMult(mat4, mat4)` src/matrix.cpp:17-20 -/
def matrixCompMult4 (b : Build) (x : M4 α) (y : M4 α) : Res (M4 α) := do
  pure (M4.ofCols ((← M4.at b x 0) * (← M4.at b y 0)) ((← M4.at b x 1) * (← M4.at b y 1)) ((← M4.at b x 2) * (← M4.at b y 2)) ((← M4.at b x 3) * (← M4.at b y 3)))

/-- `transpose(mat2)` src/matrix.cpp:22-32 -/
def transpose2 (b : Build) (m : M2 α) : Res (M2 α) := do
  let result : M2 (Option α) := M2.noInit
  let result ← M2.storeEntry b result 0 0 (← M2.entry b m 0 0)
  let result ← M2.storeEntry b result 0 1 (← M2.entry b m 1 0)
  let result ← M2.storeEntry b result 1 0 (← M2.entry b m 0 1)
  let result ← M2.storeEntry b result 1 1 (← M2.entry b m 1 1)
  M2.load result

/-- `transpose(mat3)` src/matrix.cpp:34-51 -/
def transpose3 (b : Build) (m : M3 α) : Res (M3 α) := do
  let result : M3 (Option α) := M3.noInit
  let result ← M3.storeEntry b result 0 0 (← M3.entry b m 0 0)
  let result ← M3.storeEntry b result 0 1 (← M3.entry b m 1 0)
  let result ← M3.storeEntry b result 0 2 (← M3.entry b m 2 0)
  let result ← M3.storeEntry b result 1 0 (← M3.entry b m 0 1)
  let result ← M3.storeEntry b result 1 1 (← M3.entry b m 1 1)
  let result ← M3.storeEntry b result 1 2 (← M3.entry b m 2 1)
  let result ← M3.storeEntry b result 2 0 (← M3.entry b m 0 2)
  let result ← M3.storeEntry b result 2 1 (← M3.entry b m 1 2)
  let result ← M3.storeEntry b result 2 2 (← M3.entry b m 2 2)
  M3.load result

/-- `transpose(mat4)` src/matrix.cpp:53-78 -/
def transpose4 (b : Build) (m : M4 α) : Res (M4 α) := do
  let result : M4 (Option α) := M4.noInit
  let result ← M4.storeEntry b result 0 0 (← M4.entry b m 0 0)
  let result ← M4.storeEntry b result 0 1 (← M4.entry b m 1 0)
  let result ← M4.storeEntry b result 0 2 (← M4.entry b m 2 0)
  let result ← M4.storeEntry b result 0 3 (← M4.entry b m 3 0)
  let result ← M4.storeEntry b result 1 0 (← M4.entry b m 0 1)
  let result ← M4.storeEntry b result 1 1 (← M4.entry b m 1 1)
  let result ← M4.storeEntry b result 1 2 (← M4.entry b m 2 1)
  let result ← M4.storeEntry b result 1 3 (← M4.entry b m 3 1)
  let result ← M4.storeEntry b result 2 0 (← M4.entry b m 0 2)
  let result ← M4.storeEntry b result 2 1 (← M4.entry b m 1 2)
  let result ← M4.storeEntry b result 2 2 (← M4.entry b m 2 2)
  let result ← M4.storeEntry b result 2 3 (← M4.entry b m 3 2)
  let result ← M4.storeEntry b result 3 0 (← M4.entry b m 0 3)
  let result ← M4.storeEntry b result 3 1 (← M4.entry b m 1 3)
  let result ← M4.storeEntry b result 3 2 (← M4.entry b m 2 3)
  let result ← M4.storeEntry b result 3 3 (← M4.entry b m 3 3)
  M4.load result

/-- `determinant(mat2)` src/matrix.cpp:80-83 -/
def determinant2 (b : Build) (m : M2 α) : Res (α) := do
  pure ((← M2.entry b m 0 0) * (← M2.entry b m 1 1) - (← M2.entry b m 1 0) * (← M2.entry b m 0 1))

/-- `determinant(mat3)` src/matrix.cpp:85-91 -/
def determinant3 (b : Build) (m : M3 α) : Res (α) := do
  pure ((← M3.entry b m 0 0) * ((← M3.entry b m 1 1) * (← M3.entry b m 2 2) - (← M3.entry b m 2 1) * (← M3.entry b m 1 2)) - (← M3.entry b m 1 0) * ((← M3.entry b m 0 1) * (← M3.entry b m 2 2) - (← M3.entry b m 2 1) * (← M3.entry b m 0 2)) + (← M3.entry b m 2 0) * ((← M3.entry b m 0 1) * (← M3.entry b m 1 2) - (← M3.entry b m 1 1) * (← M3.entry b m 0 2)))

/-- `determinant(mat4)` src/matrix.cpp:93-111 -/
def determinant4 (b : Build) (m : M4 α) : Res (α) := do
  let SubFactor00 : α := (← M4.entry b m 2 2) * (← M4.entry b m 3 3) - (← M4.entry b m 3 2) * (← M4.entry b m 2 3)
  let SubFactor01 : α := (← M4.entry b m 2 1) * (← M4.entry b m 3 3) - (← M4.entry b m 3 1) * (← M4.entry b m 2 3)
  let SubFactor02 : α := (← M4.entry b m 2 1) * (← M4.entry b m 3 2) - (← M4.entry b m 3 1) * (← M4.entry b m 2 2)
  let SubFactor03 : α := (← M4.entry b m 2 0) * (← M4.entry b m 3 3) - (← M4.entry b m 3 0) * (← M4.entry b m 2 3)
  let SubFactor04 : α := (← M4.entry b m 2 0) * (← M4.entry b m 3 2) - (← M4.entry b m 3 0) * (← M4.entry b m 2 2)
  let SubFactor05 : α := (← M4.entry b m 2 0) * (← M4.entry b m 3 1) - (← M4.entry b m 3 0) * (← M4.entry b m 2 1)
  let DetCof : V4 α := ⟨(← M4.entry b m 1 1) * SubFactor00 - (← M4.entry b m 1 2) * SubFactor01 + (← M4.entry b m 1 3) * SubFactor02, -((← M4.entry b m 1 0) * SubFactor00 - (← M4.entry b m 1 2) * SubFactor03 + (← M4.entry b m 1 3) * SubFactor04), (← M4.entry b m 1 0) * SubFactor01 - (← M4.entry b m 1 1) * SubFactor03 + (← M4.entry b m 1 3) * SubFactor05, -((← M4.entry b m 1 0) * SubFactor02 - (← M4.entry b m 1 1) * SubFactor04 + (← M4.entry b m 1 2) * SubFactor05)⟩
  pure ((← M4.entry b m 0 0) * (← V4.at b DetCof 0) + (← M4.entry b m 0 1) * (← V4.at b DetCof 1) + (← M4.entry b m 0 2) * (← V4.at b DetCof 2) + (← M4.entry b m 0 3) * (← V4.at b DetCof 3))

/-- `inverse(mat2)` src/matrix.cpp:113-125 -/
def inverse2 (b : Build) (m : M2 α) : Res (M2 α) := do
  let OneOverDeterminant : α := lit 1 / ((← M2.entry b m 0 0) * (← M2.entry b m 1 1) - (← M2.entry b m 1 0) * (← M2.entry b m 0 1))
  let inverse : M2 α := M2.ofFloats ((← M2.entry b m 1 1) * OneOverDeterminant) (-(← M2.entry b m 0 1) * OneOverDeterminant) (-(← M2.entry b m 1 0) * OneOverDeterminant) ((← M2.entry b m 0 0) * OneOverDeterminant)
  pure inverse

/-- `inverse(mat3)` src/matrix.cpp:127-146 -/
def inverse3 (b : Build) (m : M3 α) : Res (M3 α) := do
  let oneOverDeterminant : α := lit 1 / ((← M3.entry b m 0 0) * ((← M3.entry b m 1 1) * (← M3.entry b m 2 2) - (← M3.entry b m 2 1) * (← M3.entry b m 1 2)) - (← M3.entry b m 1 0) * ((← M3.entry b m 0 1) * (← M3.entry b m 2 2) - (← M3.entry b m 2 1) * (← M3.entry b m 0 2)) + (← M3.entry b m 2 0) * ((← M3.entry b m 0 1) * (← M3.entry b m 1 2) - (← M3.entry b m 1 1) * (← M3.entry b m 0 2)))
  let inverse : M3 (Option α) := M3.noInit
  let inverse ← M3.storeEntry b inverse 0 0 (((← M3.entry b m 1 1) * (← M3.entry b m 2 2) - (← M3.entry b m 2 1) * (← M3.entry b m 1 2)) * oneOverDeterminant)
  let inverse ← M3.storeEntry b inverse 1 0 (-((← M3.entry b m 1 0) * (← M3.entry b m 2 2) - (← M3.entry b m 2 0) * (← M3.entry b m 1 2)) * oneOverDeterminant)
  let inverse ← M3.storeEntry b inverse 2 0 (((← M3.entry b m 1 0) * (← M3.entry b m 2 1) - (← M3.entry b m 2 0) * (← M3.entry b m 1 1)) * oneOverDeterminant)
  let inverse ← M3.storeEntry b inverse 0 1 (-((← M3.entry b m 0 1) * (← M3.entry b m 2 2) - (← M3.entry b m 2 1) * (← M3.entry b m 0 2)) * oneOverDeterminant)
  let inverse ← M3.storeEntry b inverse 1 1 (((← M3.entry b m 0 0) * (← M3.entry b m 2 2) - (← M3.entry b m 2 0) * (← M3.entry b m 0 2)) * oneOverDeterminant)
  let inverse ← M3.storeEntry b inverse 2 1 (-((← M3.entry b m 0 0) * (← M3.entry b m 2 1) - (← M3.entry b m 2 0) * (← M3.entry b m 0 1)) * oneOverDeterminant)
  let inverse ← M3.storeEntry b inverse 0 2 (((← M3.entry b m 0 1) * (← M3.entry b m 1 2) - (← M3.entry b m 1 1) * (← M3.entry b m 0 2)) * oneOverDeterminant)
  let inverse ← M3.storeEntry b inverse 1 2 (-((← M3.entry b m 0 0) * (← M3.entry b m 1 2) - (← M3.entry b m 1 0) * (← M3.entry b m 0 2)) * oneOverDeterminant)
  let inverse ← M3.storeEntry b inverse 2 2 (((← M3.entry b m 0 0) * (← M3.entry b m 1 1) - (← M3.entry b m 1 0) * (← M3.entry b m 0 1)) * oneOverDeterminant)
  M3.load inverse

/-- `inverse(mat4)` src/matrix.cpp:148-203 -/
def inverse4 (b : Build) (m : M4 α) : Res (M4 α) := do
  let Coef00 : α := (← M4.entry b m 2 2) * (← M4.entry b m 3 3) - (← M4.entry b m 3 2) * (← M4.entry b m 2 3)
  let Coef02 : α := (← M4.entry b m 1 2) * (← M4.entry b m 3 3) - (← M4.entry b m 3 2) * (← M4.entry b m 1 3)
  let Coef03 : α := (← M4.entry b m 1 2) * (← M4.entry b m 2 3) - (← M4.entry b m 2 2) * (← M4.entry b m 1 3)
  let Coef04 : α := (← M4.entry b m 2 1) * (← M4.entry b m 3 3) - (← M4.entry b m 3 1) * (← M4.entry b m 2 3)
  let Coef06 : α := (← M4.entry b m 1 1) * (← M4.entry b m 3 3) - (← M4.entry b m 3 1) * (← M4.entry b m 1 3)
  let Coef07 : α := (← M4.entry b m 1 1) * (← M4.entry b m 2 3) - (← M4.entry b m 2 1) * (← M4.entry b m 1 3)
  let Coef08 : α := (← M4.entry b m 2 1) * (← M4.entry b m 3 2) - (← M4.entry b m 3 1) * (← M4.entry b m 2 2)
  let Coef10 : α := (← M4.entry b m 1 1) * (← M4.entry b m 3 2) - (← M4.entry b m 3 1) * (← M4.entry b m 1 2)
  let Coef11 : α := (← M4.entry b m 1 1) * (← M4.entry b m 2 2) - (← M4.entry b m 2 1) * (← M4.entry b m 1 2)
  let Coef12 : α := (← M4.entry b m 2 0) * (← M4.entry b m 3 3) - (← M4.entry b m 3 0) * (← M4.entry b m 2 3)
  let Coef14 : α := (← M4.entry b m 1 0) * (← M4.entry b m 3 3) - (← M4.entry b m 3 0) * (← M4.entry b m 1 3)
  let Coef15 : α := (← M4.entry b m 1 0) * (← M4.entry b m 2 3) - (← M4.entry b m 2 0) * (← M4.entry b m 1 3)
  let Coef16 : α := (← M4.entry b m 2 0) * (← M4.entry b m 3 2) - (← M4.entry b m 3 0) * (← M4.entry b m 2 2)
  let Coef18 : α := (← M4.entry b m 1 0) * (← M4.entry b m 3 2) - (← M4.entry b m 3 0) * (← M4.entry b m 1 2)
  let Coef19 : α := (← M4.entry b m 1 0) * (← M4.entry b m 2 2) - (← M4.entry b m 2 0) * (← M4.entry b m 1 2)
  let Coef20 : α := (← M4.entry b m 2 0) * (← M4.entry b m 3 1) - (← M4.entry b m 3 0) * (← M4.entry b m 2 1)
  let Coef22 : α := (← M4.entry b m 1 0) * (← M4.entry b m 3 1) - (← M4.entry b m 3 0) * (← M4.entry b m 1 1)
  let Coef23 : α := (← M4.entry b m 1 0) * (← M4.entry b m 2 1) - (← M4.entry b m 2 0) * (← M4.entry b m 1 1)
  let Fac0 : V4 α := ⟨Coef00, Coef00, Coef02, Coef03⟩
  let Fac1 : V4 α := ⟨Coef04, Coef04, Coef06, Coef07⟩
  let Fac2 : V4 α := ⟨Coef08, Coef08, Coef10, Coef11⟩
  let Fac3 : V4 α := ⟨Coef12, Coef12, Coef14, Coef15⟩
  let Fac4 : V4 α := ⟨Coef16, Coef16, Coef18, Coef19⟩
  let Fac5 : V4 α := ⟨Coef20, Coef20, Coef22, Coef23⟩
  let Vec0 : V4 α := ⟨(← M4.entry b m 1 0), (← M4.entry b m 0 0), (← M4.entry b m 0 0), (← M4.entry b m 0 0)⟩
  let Vec1 : V4 α := ⟨(← M4.entry b m 1 1), (← M4.entry b m 0 1), (← M4.entry b m 0 1), (← M4.entry b m 0 1)⟩
  let Vec2 : V4 α := ⟨(← M4.entry b m 1 2), (← M4.entry b m 0 2), (← M4.entry b m 0 2), (← M4.entry b m 0 2)⟩
  let Vec3 : V4 α := ⟨(← M4.entry b m 1 3), (← M4.entry b m 0 3), (← M4.entry b m 0 3), (← M4.entry b m 0 3)⟩
  let Inv0 : V4 α := Vec1 * Fac0 - Vec2 * Fac1 + Vec3 * Fac2
  let Inv1 : V4 α := Vec0 * Fac0 - Vec2 * Fac3 + Vec3 * Fac4
  let Inv2 : V4 α := Vec0 * Fac1 - Vec1 * Fac3 + Vec3 * Fac5
  let Inv3 : V4 α := Vec0 * Fac2 - Vec1 * Fac4 + Vec2 * Fac5
  let SignA : V4 α := ⟨lit 1, lit (-1), lit 1, lit (-1)⟩
  let SignB : V4 α := ⟨lit (-1), lit 1, lit (-1), lit 1⟩
  let inverse : M4 α := M4.ofCols (Inv0 * SignA) (Inv1 * SignB) (Inv2 * SignA) (Inv3 * SignB)
  let Row0 : V4 α := ⟨(← M4.entry b inverse 0 0), (← M4.entry b inverse 1 0), (← M4.entry b inverse 2 0), (← M4.entry b inverse 3 0)⟩
  let Dot0 : V4 α := (← M4.at b m 0) * Row0
  let Dot1 : α := Dot0.x + Dot0.y + (Dot0.z + Dot0.w)
  let oneOverDeterminant : α := lit 1 / Dot1
  mulS4 b inverse oneOverDeterminant

/-- `adjugate(mat2)` src/matrix.cpp:206-214 -/
def adjugate2 (b : Build) (m : M2 α) : Res (M2 α) := do
  let Adjugate : M2 α := M2.ofFloats (← M2.entry b m 1 1) (-(← M2.entry b m 0 1)) (-(← M2.entry b m 1 0)) (← M2.entry b m 0 0)
  pure Adjugate

/-- `adjugate(mat3)` src/matrix.cpp:217-231 -/
def adjugate3 (b : Build) (m : M3 α) : Res (M3 α) := do
  let Adjugate : M3 (Option α) := M3.noInit
  let Adjugate ← M3.storeEntry b Adjugate 0 0 ((← M3.entry b m 1 1) * (← M3.entry b m 2 2) - (← M3.entry b m 2 1) * (← M3.entry b m 1 2))
  let Adjugate ← M3.storeEntry b Adjugate 1 0 (-((← M3.entry b m 1 0) * (← M3.entry b m 2 2) - (← M3.entry b m 2 0) * (← M3.entry b m 1 2)))
  let Adjugate ← M3.storeEntry b Adjugate 2 0 ((← M3.entry b m 1 0) * (← M3.entry b m 2 1) - (← M3.entry b m 2 0) * (← M3.entry b m 1 1))
  let Adjugate ← M3.storeEntry b Adjugate 0 1 (-((← M3.entry b m 0 1) * (← M3.entry b m 2 2) - (← M3.entry b m 2 1) * (← M3.entry b m 0 2)))
  let Adjugate ← M3.storeEntry b Adjugate 1 1 ((← M3.entry b m 0 0) * (← M3.entry b m 2 2) - (← M3.entry b m 2 0) * (← M3.entry b m 0 2))
  let Adjugate ← M3.storeEntry b Adjugate 2 1 (-((← M3.entry b m 0 0) * (← M3.entry b m 2 1) - (← M3.entry b m 2 0) * (← M3.entry b m 0 1)))
  let Adjugate ← M3.storeEntry b Adjugate 0 2 ((← M3.entry b m 0 1) * (← M3.entry b m 1 2) - (← M3.entry b m 1 1) * (← M3.entry b m 0 2))
  let Adjugate ← M3.storeEntry b Adjugate 1 2 (-((← M3.entry b m 0 0) * (← M3.entry b m 1 2) - (← M3.entry b m 1 0) * (← M3.entry b m 0 2)))
  let Adjugate ← M3.storeEntry b Adjugate 2 2 ((← M3.entry b m 0 0) * (← M3.entry b m 1 1) - (← M3.entry b m 1 0) * (← M3.entry b m 0 1))
  M3.load Adjugate

/-- `adjugate(mat4)` src/matrix.cpp:233-281 -/
def adjugate4 (b : Build) (m : M4 α) : Res (M4 α) := do
  let Coef00 : α := (← M4.entry b m 2 2) * (← M4.entry b m 3 3) - (← M4.entry b m 3 2) * (← M4.entry b m 2 3)
  let Coef02 : α := (← M4.entry b m 1 2) * (← M4.entry b m 3 3) - (← M4.entry b m 3 2) * (← M4.entry b m 1 3)
  let Coef03 : α := (← M4.entry b m 1 2) * (← M4.entry b m 2 3) - (← M4.entry b m 2 2) * (← M4.entry b m 1 3)
  let Coef04 : α := (← M4.entry b m 2 1) * (← M4.entry b m 3 3) - (← M4.entry b m 3 1) * (← M4.entry b m 2 3)
  let Coef06 : α := (← M4.entry b m 1 1) * (← M4.entry b m 3 3) - (← M4.entry b m 3 1) * (← M4.entry b m 1 3)
  let Coef07 : α := (← M4.entry b m 1 1) * (← M4.entry b m 2 3) - (← M4.entry b m 2 1) * (← M4.entry b m 1 3)
  let Coef08 : α := (← M4.entry b m 2 1) * (← M4.entry b m 3 2) - (← M4.entry b m 3 1) * (← M4.entry b m 2 2)
  let Coef10 : α := (← M4.entry b m 1 1) * (← M4.entry b m 3 2) - (← M4.entry b m 3 1) * (← M4.entry b m 1 2)
  let Coef11 : α := (← M4.entry b m 1 1) * (← M4.entry b m 2 2) - (← M4.entry b m 2 1) * (← M4.entry b m 1 2)
  let Coef12 : α := (← M4.entry b m 2 0) * (← M4.entry b m 3 3) - (← M4.entry b m 3 0) * (← M4.entry b m 2 3)
  let Coef14 : α := (← M4.entry b m 1 0) * (← M4.entry b m 3 3) - (← M4.entry b m 3 0) * (← M4.entry b m 1 3)
  let Coef15 : α := (← M4.entry b m 1 0) * (← M4.entry b m 2 3) - (← M4.entry b m 2 0) * (← M4.entry b m 1 3)
  let Coef16 : α := (← M4.entry b m 2 0) * (← M4.entry b m 3 2) - (← M4.entry b m 3 0) * (← M4.entry b m 2 2)
  let Coef18 : α := (← M4.entry b m 1 0) * (← M4.entry b m 3 2) - (← M4.entry b m 3 0) * (← M4.entry b m 1 2)
  let Coef19 : α := (← M4.entry b m 1 0) * (← M4.entry b m 2 2) - (← M4.entry b m 2 0) * (← M4.entry b m 1 2)
  let Coef20 : α := (← M4.entry b m 2 0) * (← M4.entry b m 3 1) - (← M4.entry b m 3 0) * (← M4.entry b m 2 1)
  let Coef22 : α := (← M4.entry b m 1 0) * (← M4.entry b m 3 1) - (← M4.entry b m 3 0) * (← M4.entry b m 1 1)
  let Coef23 : α := (← M4.entry b m 1 0) * (← M4.entry b m 2 1) - (← M4.entry b m 2 0) * (← M4.entry b m 1 1)
  let Fac0 : V4 α := ⟨Coef00, Coef00, Coef02, Coef03⟩
  let Fac1 : V4 α := ⟨Coef04, Coef04, Coef06, Coef07⟩
  let Fac2 : V4 α := ⟨Coef08, Coef08, Coef10, Coef11⟩
  let Fac3 : V4 α := ⟨Coef12, Coef12, Coef14, Coef15⟩
  let Fac4 : V4 α := ⟨Coef16, Coef16, Coef18, Coef19⟩
  let Fac5 : V4 α := ⟨Coef20, Coef20, Coef22, Coef23⟩
  let Vec0 : V4 α := ⟨(← M4.entry b m 1 0), (← M4.entry b m 0 0), (← M4.entry b m 0 0), (← M4.entry b m 0 0)⟩
  let Vec1 : V4 α := ⟨(← M4.entry b m 1 1), (← M4.entry b m 0 1), (← M4.entry b m 0 1), (← M4.entry b m 0 1)⟩
  let Vec2 : V4 α := ⟨(← M4.entry b m 1 2), (← M4.entry b m 0 2), (← M4.entry b m 0 2), (← M4.entry b m 0 2)⟩
  let Vec3 : V4 α := ⟨(← M4.entry b m 1 3), (← M4.entry b m 0 3), (← M4.entry b m 0 3), (← M4.entry b m 0 3)⟩
  let Inv0 : V4 α := Vec1 * Fac0 - Vec2 * Fac1 + Vec3 * Fac2
  let Inv1 : V4 α := Vec0 * Fac0 - Vec2 * Fac3 + Vec3 * Fac4
  let Inv2 : V4 α := Vec0 * Fac1 - Vec1 * Fac3 + Vec3 * Fac5
  let Inv3 : V4 α := Vec0 * Fac2 - Vec1 * Fac4 + Vec2 * Fac5
  let SignA : V4 α := ⟨lit 1, lit (-1), lit 1, lit (-1)⟩
  let SignB : V4 α := ⟨lit (-1), lit 1, lit (-1), lit 1⟩
  let inverse : M4 α := M4.ofCols (Inv0 * SignA) (Inv1 * SignB) (Inv2 * SignA) (Inv3 * SignB)
  pure inverse

/-- `inverseTranspose(mat2)` src/matrix.cpp:283-294 -/
def inverseTranspose2 (b : Build) (m : M2 α) : Res (M2 α) := do
  let Determinant : α := (← M2.entry b m 0 0) * (← M2.entry b m 1 1) - (← M2.entry b m 1 0) * (← M2.entry b m 0 1)
  let Inverse : M2 α := M2.ofFloats ((← M2.entry b m 1 1) / Determinant) (-(← M2.entry b m 0 1) / Determinant) (-(← M2.entry b m 1 0) / Determinant) ((← M2.entry b m 0 0) / Determinant)
  pure Inverse

/-- `inverseTranspose(mat3)` src/matrix.cpp:296-314 -/
def inverseTranspose3 (b : Build) (m : M3 α) : Res (M3 α) := do
  let Determinant : α := (← M3.entry b m 0 0) * ((← M3.entry b m 1 1) * (← M3.entry b m 2 2) - (← M3.entry b m 1 2) * (← M3.entry b m 2 1)) - (← M3.entry b m 0 1) * ((← M3.entry b m 1 0) * (← M3.entry b m 2 2) - (← M3.entry b m 1 2) * (← M3.entry b m 2 0)) + (← M3.entry b m 0 2) * ((← M3.entry b m 1 0) * (← M3.entry b m 2 1) - (← M3.entry b m 1 1) * (← M3.entry b m 2 0))
  let Inverse : M3 (Option α) := M3.noInit
  let Inverse ← M3.storeEntry b Inverse 0 0 ((← M3.entry b m 1 1) * (← M3.entry b m 2 2) - (← M3.entry b m 2 1) * (← M3.entry b m 1 2))
  let Inverse ← M3.storeEntry b Inverse 0 1 (-((← M3.entry b m 1 0) * (← M3.entry b m 2 2) - (← M3.entry b m 2 0) * (← M3.entry b m 1 2)))
  let Inverse ← M3.storeEntry b Inverse 0 2 ((← M3.entry b m 1 0) * (← M3.entry b m 2 1) - (← M3.entry b m 2 0) * (← M3.entry b m 1 1))
  let Inverse ← M3.storeEntry b Inverse 1 0 (-((← M3.entry b m 0 1) * (← M3.entry b m 2 2) - (← M3.entry b m 2 1) * (← M3.entry b m 0 2)))
  let Inverse ← M3.storeEntry b Inverse 1 1 ((← M3.entry b m 0 0) * (← M3.entry b m 2 2) - (← M3.entry b m 2 0) * (← M3.entry b m 0 2))
  let Inverse ← M3.storeEntry b Inverse 1 2 (-((← M3.entry b m 0 0) * (← M3.entry b m 2 1) - (← M3.entry b m 2 0) * (← M3.entry b m 0 1)))
  let Inverse ← M3.storeEntry b Inverse 2 0 ((← M3.entry b m 0 1) * (← M3.entry b m 1 2) - (← M3.entry b m 1 1) * (← M3.entry b m 0 2))
  let Inverse ← M3.storeEntry b Inverse 2 1 (-((← M3.entry b m 0 0) * (← M3.entry b m 1 2) - (← M3.entry b m 1 0) * (← M3.entry b m 0 2)))
  let Inverse ← M3.storeEntry b Inverse 2 2 ((← M3.entry b m 0 0) * (← M3.entry b m 1 1) - (← M3.entry b m 1 0) * (← M3.entry b m 0 1))
  pure (← divS3 b (← M3.load Inverse) Determinant)

/-- `inverseTranspose(mat4)` src/matrix.cpp:316-366 -/
def inverseTranspose4 (b : Build) (m : M4 α) : Res (M4 α) := do
  let SubFactor00 : α := (← M4.entry b m 2 2) * (← M4.entry b m 3 3) - (← M4.entry b m 3 2) * (← M4.entry b m 2 3)
  let SubFactor01 : α := (← M4.entry b m 2 1) * (← M4.entry b m 3 3) - (← M4.entry b m 3 1) * (← M4.entry b m 2 3)
  let SubFactor02 : α := (← M4.entry b m 2 1) * (← M4.entry b m 3 2) - (← M4.entry b m 3 1) * (← M4.entry b m 2 2)
  let SubFactor03 : α := (← M4.entry b m 2 0) * (← M4.entry b m 3 3) - (← M4.entry b m 3 0) * (← M4.entry b m 2 3)
  let SubFactor04 : α := (← M4.entry b m 2 0) * (← M4.entry b m 3 2) - (← M4.entry b m 3 0) * (← M4.entry b m 2 2)
  let SubFactor05 : α := (← M4.entry b m 2 0) * (← M4.entry b m 3 1) - (← M4.entry b m 3 0) * (← M4.entry b m 2 1)
  let SubFactor06 : α := (← M4.entry b m 1 2) * (← M4.entry b m 3 3) - (← M4.entry b m 3 2) * (← M4.entry b m 1 3)
  let SubFactor07 : α := (← M4.entry b m 1 1) * (← M4.entry b m 3 3) - (← M4.entry b m 3 1) * (← M4.entry b m 1 3)
  let SubFactor08 : α := (← M4.entry b m 1 1) * (← M4.entry b m 3 2) - (← M4.entry b m 3 1) * (← M4.entry b m 1 2)
  let SubFactor09 : α := (← M4.entry b m 1 0) * (← M4.entry b m 3 3) - (← M4.entry b m 3 0) * (← M4.entry b m 1 3)
  let SubFactor10 : α := (← M4.entry b m 1 0) * (← M4.entry b m 3 2) - (← M4.entry b m 3 0) * (← M4.entry b m 1 2)
  let SubFactor11 : α := (← M4.entry b m 1 1) * (← M4.entry b m 3 3) - (← M4.entry b m 3 1) * (← M4.entry b m 1 3)
  let SubFactor12 : α := (← M4.entry b m 1 0) * (← M4.entry b m 3 1) - (← M4.entry b m 3 0) * (← M4.entry b m 1 1)
  let SubFactor13 : α := (← M4.entry b m 1 2) * (← M4.entry b m 2 3) - (← M4.entry b m 2 2) * (← M4.entry b m 1 3)
  let SubFactor14 : α := (← M4.entry b m 1 1) * (← M4.entry b m 2 3) - (← M4.entry b m 2 1) * (← M4.entry b m 1 3)
  let SubFactor15 : α := (← M4.entry b m 1 1) * (← M4.entry b m 2 2) - (← M4.entry b m 2 1) * (← M4.entry b m 1 2)
  let SubFactor16 : α := (← M4.entry b m 1 0) * (← M4.entry b m 2 3) - (← M4.entry b m 2 0) * (← M4.entry b m 1 3)
  let SubFactor17 : α := (← M4.entry b m 1 0) * (← M4.entry b m 2 2) - (← M4.entry b m 2 0) * (← M4.entry b m 1 2)
  let SubFactor18 : α := (← M4.entry b m 1 0) * (← M4.entry b m 2 1) - (← M4.entry b m 2 0) * (← M4.entry b m 1 1)
  let Inverse : M4 α := M4.default
  let Inverse ← M4.setEntry b Inverse 0 0 ((← M4.entry b m 1 1) * SubFactor00 - (← M4.entry b m 1 2) * SubFactor01 + (← M4.entry b m 1 3) * SubFactor02)
  let Inverse ← M4.setEntry b Inverse 0 1 (-((← M4.entry b m 1 0) * SubFactor00 - (← M4.entry b m 1 2) * SubFactor03 + (← M4.entry b m 1 3) * SubFactor04))
  let Inverse ← M4.setEntry b Inverse 0 2 ((← M4.entry b m 1 0) * SubFactor01 - (← M4.entry b m 1 1) * SubFactor03 + (← M4.entry b m 1 3) * SubFactor05)
  let Inverse ← M4.setEntry b Inverse 0 3 (-((← M4.entry b m 1 0) * SubFactor02 - (← M4.entry b m 1 1) * SubFactor04 + (← M4.entry b m 1 2) * SubFactor05))
  let Inverse ← M4.setEntry b Inverse 1 0 (-((← M4.entry b m 0 1) * SubFactor00 - (← M4.entry b m 0 2) * SubFactor01 + (← M4.entry b m 0 3) * SubFactor02))
  let Inverse ← M4.setEntry b Inverse 1 1 ((← M4.entry b m 0 0) * SubFactor00 - (← M4.entry b m 0 2) * SubFactor03 + (← M4.entry b m 0 3) * SubFactor04)
  let Inverse ← M4.setEntry b Inverse 1 2 (-((← M4.entry b m 0 0) * SubFactor01 - (← M4.entry b m 0 1) * SubFactor03 + (← M4.entry b m 0 3) * SubFactor05))
  let Inverse ← M4.setEntry b Inverse 1 3 ((← M4.entry b m 0 0) * SubFactor02 - (← M4.entry b m 0 1) * SubFactor04 + (← M4.entry b m 0 2) * SubFactor05)
  let Inverse ← M4.setEntry b Inverse 2 0 ((← M4.entry b m 0 1) * SubFactor06 - (← M4.entry b m 0 2) * SubFactor07 + (← M4.entry b m 0 3) * SubFactor08)
  let Inverse ← M4.setEntry b Inverse 2 1 (-((← M4.entry b m 0 0) * SubFactor06 - (← M4.entry b m 0 2) * SubFactor09 + (← M4.entry b m 0 3) * SubFactor10))
  let Inverse ← M4.setEntry b Inverse 2 2 ((← M4.entry b m 0 0) * SubFactor11 - (← M4.entry b m 0 1) * SubFactor09 + (← M4.entry b m 0 3) * SubFactor12)
  let Inverse ← M4.setEntry b Inverse 2 3 (-((← M4.entry b m 0 0) * SubFactor08 - (← M4.entry b m 0 1) * SubFactor10 + (← M4.entry b m 0 2) * SubFactor12))
  let Inverse ← M4.setEntry b Inverse 3 0 (-((← M4.entry b m 0 1) * SubFactor13 - (← M4.entry b m 0 2) * SubFactor14 + (← M4.entry b m 0 3) * SubFactor15))
  let Inverse ← M4.setEntry b Inverse 3 1 ((← M4.entry b m 0 0) * SubFactor13 - (← M4.entry b m 0 2) * SubFactor16 + (← M4.entry b m 0 3) * SubFactor17)
  let Inverse ← M4.setEntry b Inverse 3 2 (-((← M4.entry b m 0 0) * SubFactor14 - (← M4.entry b m 0 1) * SubFactor16 + (← M4.entry b m 0 3) * SubFactor18))
  let Inverse ← M4.setEntry b Inverse 3 3 ((← M4.entry b m 0 0) * SubFactor15 - (← M4.entry b m 0 1) * SubFactor17 + (← M4.entry b m 0 2) * SubFactor18)
  let Determinant : α := (← M4.entry b m 0 0) * (← M4.entry b Inverse 0 0) + (← M4.entry b m 0 1) * (← M4.entry b Inverse 0 1) + (← M4.entry b m 0 2) * (← M4.entry b Inverse 0 2) + (← M4.entry b m 0 3) * (← M4.entry b Inverse 0 3)
  divS4 b Inverse Determinant

/-- `adjugateTranspose(mat2)` src/matrix.cpp:368-376 -/
def adjugateTranspose2 (b : Build) (m : M2 α) : Res (M2 α) := do
  let Adjugate : M2 α := M2.ofFloats (← M2.entry b m 1 1) (-(← M2.entry b m 0 1)) (-(← M2.entry b m 1 0)) (← M2.entry b m 0 0)
  pure Adjugate

/-- `adjugateTranspose(mat3)` src/matrix.cpp:378-391 -/
def adjugateTranspose3 (b : Build) (m : M3 α) : Res (M3 α) := do
  let Adjugate : M3 (Option α) := M3.noInit
  let Adjugate ← M3.storeEntry b Adjugate 0 0 ((← M3.entry b m 1 1) * (← M3.entry b m 2 2) - (← M3.entry b m 2 1) * (← M3.entry b m 1 2))
  let Adjugate ← M3.storeEntry b Adjugate 0 1 (-((← M3.entry b m 1 0) * (← M3.entry b m 2 2) - (← M3.entry b m 2 0) * (← M3.entry b m 1 2)))
  let Adjugate ← M3.storeEntry b Adjugate 0 2 ((← M3.entry b m 1 0) * (← M3.entry b m 2 1) - (← M3.entry b m 2 0) * (← M3.entry b m 1 1))
  let Adjugate ← M3.storeEntry b Adjugate 1 0 (-((← M3.entry b m 0 1) * (← M3.entry b m 2 2) - (← M3.entry b m 2 1) * (← M3.entry b m 0 2)))
  let Adjugate ← M3.storeEntry b Adjugate 1 1 ((← M3.entry b m 0 0) * (← M3.entry b m 2 2) - (← M3.entry b m 2 0) * (← M3.entry b m 0 2))
  let Adjugate ← M3.storeEntry b Adjugate 1 2 (-((← M3.entry b m 0 0) * (← M3.entry b m 2 1) - (← M3.entry b m 2 0) * (← M3.entry b m 0 1)))
  let Adjugate ← M3.storeEntry b Adjugate 2 0 ((← M3.entry b m 0 1) * (← M3.entry b m 1 2) - (← M3.entry b m 1 1) * (← M3.entry b m 0 2))
  let Adjugate ← M3.storeEntry b Adjugate 2 1 (-((← M3.entry b m 0 0) * (← M3.entry b m 1 2) - (← M3.entry b m 1 0) * (← M3.entry b m 0 2)))
  let Adjugate ← M3.storeEntry b Adjugate 2 2 ((← M3.entry b m 0 0) * (← M3.entry b m 1 1) - (← M3.entry b m 1 0) * (← M3.entry b m 0 1))
  M3.load Adjugate

/-- `adjugateTranspose(mat4)` src/matrix.cpp:393-437 -/
def adjugateTranspose4 (b : Build) (m : M4 α) : Res (M4 α) := do
  let SubFactor00 : α := (← M4.entry b m 2 2) * (← M4.entry b m 3 3) - (← M4.entry b m 3 2) * (← M4.entry b m 2 3)
  let SubFactor01 : α := (← M4.entry b m 2 1) * (← M4.entry b m 3 3) - (← M4.entry b m 3 1) * (← M4.entry b m 2 3)
  let SubFactor02 : α := (← M4.entry b m 2 1) * (← M4.entry b m 3 2) - (← M4.entry b m 3 1) * (← M4.entry b m 2 2)
  let SubFactor03 : α := (← M4.entry b m 2 0) * (← M4.entry b m 3 3) - (← M4.entry b m 3 0) * (← M4.entry b m 2 3)
  let SubFactor04 : α := (← M4.entry b m 2 0) * (← M4.entry b m 3 2) - (← M4.entry b m 3 0) * (← M4.entry b m 2 2)
  let SubFactor05 : α := (← M4.entry b m 2 0) * (← M4.entry b m 3 1) - (← M4.entry b m 3 0) * (← M4.entry b m 2 1)
  let SubFactor06 : α := (← M4.entry b m 1 2) * (← M4.entry b m 3 3) - (← M4.entry b m 3 2) * (← M4.entry b m 1 3)
  let SubFactor07 : α := (← M4.entry b m 1 1) * (← M4.entry b m 3 3) - (← M4.entry b m 3 1) * (← M4.entry b m 1 3)
  let SubFactor08 : α := (← M4.entry b m 1 1) * (← M4.entry b m 3 2) - (← M4.entry b m 3 1) * (← M4.entry b m 1 2)
  let SubFactor09 : α := (← M4.entry b m 1 0) * (← M4.entry b m 3 3) - (← M4.entry b m 3 0) * (← M4.entry b m 1 3)
  let SubFactor10 : α := (← M4.entry b m 1 0) * (← M4.entry b m 3 2) - (← M4.entry b m 3 0) * (← M4.entry b m 1 2)
  let SubFactor11 : α := (← M4.entry b m 1 1) * (← M4.entry b m 3 3) - (← M4.entry b m 3 1) * (← M4.entry b m 1 3)
  let SubFactor12 : α := (← M4.entry b m 1 0) * (← M4.entry b m 3 1) - (← M4.entry b m 3 0) * (← M4.entry b m 1 1)
  let SubFactor13 : α := (← M4.entry b m 1 2) * (← M4.entry b m 2 3) - (← M4.entry b m 2 2) * (← M4.entry b m 1 3)
  let SubFactor14 : α := (← M4.entry b m 1 1) * (← M4.entry b m 2 3) - (← M4.entry b m 2 1) * (← M4.entry b m 1 3)
  let SubFactor15 : α := (← M4.entry b m 1 1) * (← M4.entry b m 2 2) - (← M4.entry b m 2 1) * (← M4.entry b m 1 2)
  let SubFactor16 : α := (← M4.entry b m 1 0) * (← M4.entry b m 2 3) - (← M4.entry b m 2 0) * (← M4.entry b m 1 3)
  let SubFactor17 : α := (← M4.entry b m 1 0) * (← M4.entry b m 2 2) - (← M4.entry b m 2 0) * (← M4.entry b m 1 2)
  let SubFactor18 : α := (← M4.entry b m 1 0) * (← M4.entry b m 2 1) - (← M4.entry b m 2 0) * (← M4.entry b m 1 1)
  let Adjugate : M4 (Option α) := M4.noInit
  let Adjugate ← M4.storeEntry b Adjugate 0 0 ((← M4.entry b m 1 1) * SubFactor00 - (← M4.entry b m 1 2) * SubFactor01 + (← M4.entry b m 1 3) * SubFactor02)
  let Adjugate ← M4.storeEntry b Adjugate 0 1 (-((← M4.entry b m 1 0) * SubFactor00 - (← M4.entry b m 1 2) * SubFactor03 + (← M4.entry b m 1 3) * SubFactor04))
  let Adjugate ← M4.storeEntry b Adjugate 0 2 ((← M4.entry b m 1 0) * SubFactor01 - (← M4.entry b m 1 1) * SubFactor03 + (← M4.entry b m 1 3) * SubFactor05)
  let Adjugate ← M4.storeEntry b Adjugate 0 3 (-((← M4.entry b m 1 0) * SubFactor02 - (← M4.entry b m 1 1) * SubFactor04 + (← M4.entry b m 1 2) * SubFactor05))
  let Adjugate ← M4.storeEntry b Adjugate 1 0 (-((← M4.entry b m 0 1) * SubFactor00 - (← M4.entry b m 0 2) * SubFactor01 + (← M4.entry b m 0 3) * SubFactor02))
  let Adjugate ← M4.storeEntry b Adjugate 1 1 ((← M4.entry b m 0 0) * SubFactor00 - (← M4.entry b m 0 2) * SubFactor03 + (← M4.entry b m 0 3) * SubFactor04)
  let Adjugate ← M4.storeEntry b Adjugate 1 2 (-((← M4.entry b m 0 0) * SubFactor01 - (← M4.entry b m 0 1) * SubFactor03 + (← M4.entry b m 0 3) * SubFactor05))
  let Adjugate ← M4.storeEntry b Adjugate 1 3 ((← M4.entry b m 0 0) * SubFactor02 - (← M4.entry b m 0 1) * SubFactor04 + (← M4.entry b m 0 2) * SubFactor05)
  let Adjugate ← M4.storeEntry b Adjugate 2 0 ((← M4.entry b m 0 1) * SubFactor06 - (← M4.entry b m 0 2) * SubFactor07 + (← M4.entry b m 0 3) * SubFactor08)
  let Adjugate ← M4.storeEntry b Adjugate 2 1 (-((← M4.entry b m 0 0) * SubFactor06 - (← M4.entry b m 0 2) * SubFactor09 + (← M4.entry b m 0 3) * SubFactor10))
  let Adjugate ← M4.storeEntry b Adjugate 2 2 ((← M4.entry b m 0 0) * SubFactor11 - (← M4.entry b m 0 1) * SubFactor09 + (← M4.entry b m 0 3) * SubFactor12)
  let Adjugate ← M4.storeEntry b Adjugate 2 3 (-((← M4.entry b m 0 0) * SubFactor08 - (← M4.entry b m 0 1) * SubFactor10 + (← M4.entry b m 0 2) * SubFactor12))
  let Adjugate ← M4.storeEntry b Adjugate 3 0 (-((← M4.entry b m 0 1) * SubFactor13 - (← M4.entry b m 0 2) * SubFactor14 + (← M4.entry b m 0 3) * SubFactor15))
  let Adjugate ← M4.storeEntry b Adjugate 3 1 ((← M4.entry b m 0 0) * SubFactor13 - (← M4.entry b m 0 2) * SubFactor16 + (← M4.entry b m 0 3) * SubFactor17)
  let Adjugate ← M4.storeEntry b Adjugate 3 2 (-((← M4.entry b m 0 0) * SubFactor14 - (← M4.entry b m 0 1) * SubFactor16 + (← M4.entry b m 0 3) * SubFactor18))
  let Adjugate ← M4.storeEntry b Adjugate 3 3 ((← M4.entry b m 0 0) * SubFactor15 - (← M4.entry b m 0 1) * SubFactor17 + (← M4.entry b m 0 2) * SubFactor18)
  M4.load Adjugate

/-- `mat2 / mat2` src/mat2.cpp:82-85 -/
def div2 (b : Build) (first : M2 α) (second : M2 α) : Res (M2 α) := do
  pure (← mul2 b first (← inverse2 b second))

/-- `mat2 / vec2` src/mat2.cpp:124-127 -/
def divV2 (b : Build) (mat : M2 α) (vec : V2 α) : Res (V2 α) := do
  pure (← mulV2 b (← inverse2 b mat) vec)

/-- `vec2 / mat2` src/mat2.cpp:129-132 -/
def vdiv2 (b : Build) (vec : V2 α) (mat : M2 α) : Res (V2 α) := do
  pure (← vmul2 b vec (← inverse2 b mat))

/-- `mat3 / mat3` src/mat3.cpp:129-132 -/
def div3 (b : Build) (first : M3 α) (second : M3 α) : Res (M3 α) := do
  pure (← mul3 b first (← inverse3 b second))

/-- `mat3 / vec3` src/mat3.cpp:208-211 -/
def divV3 (b : Build) (mat : M3 α) (vec : V3 α) : Res (V3 α) := do
  pure (← mulV3 b (← inverse3 b mat) vec)

/-- `vec3 / mat3` src/mat3.cpp:213-216 -/
def vdiv3 (b : Build) (vec : V3 α) (mat : M3 α) : Res (V3 α) := do
  pure (← vmul3 b vec (← inverse3 b mat))

/-- `mat4 / mat4` src/mat4.cpp:108-111 -/
def div4 (b : Build) (first : M4 α) (second : M4 α) : Res (M4 α) := do
  pure (← mul4 b first (← inverse4 b second))

/-- `mat4 / vec4` src/mat4.cpp:203-206 -/
def divV4 (b : Build) (mat : M4 α) (vec : V4 α) : Res (V4 α) := do
  pure (← mulV4 b (← inverse4 b mat) vec)

/-- `vec4 / mat4` src/mat4.cpp:208-211 -/
def vdiv4 (b : Build) (vec : V4 α) (mat : M4 α) : Res (V4 α) := do
  pure (← vmul4 b vec (← inverse4 b mat))

/-- `translate` src/matrix_transform.cpp:13-18 -/
def translate (b : Build) (m : M4 α) (v : V3 α) : Res (M4 α) := do
  let Result : M4 α := m
  let Result ← M4.set b Result 3 ((← M4.at b m 0) * (← V3.at b v 0) + (← M4.at b m 1) * (← V3.at b v 1) + (← M4.at b m 2) * (← V3.at b v 2) + (← M4.at b m 3))
  pure Result

/-- `rotate(mat4, float, vec3)` src/matrix_transform.cpp:20-48 -/
def rotate (b : Build) (m : M4 α) (angle : α) (v : V3 α) : Res (M4 α) := do
  let a : α := angle
  let c : α := F.cos a
  let s : α := F.sin a
  let axis : V3 α := V3.normalize v
  let temp : V3 α := (lit 1 - c) * axis
  let Rotate : M3 (Option α) := M3.noInit
  let Rotate ← M3.storeEntry b Rotate 0 0 (c + (← V3.at b temp 0) * (← V3.at b axis 0))
  let Rotate ← M3.storeEntry b Rotate 0 1 ((← V3.at b temp 0) * (← V3.at b axis 1) + s * (← V3.at b axis 2))
  let Rotate ← M3.storeEntry b Rotate 0 2 ((← V3.at b temp 0) * (← V3.at b axis 2) - s * (← V3.at b axis 1))
  let Rotate ← M3.storeEntry b Rotate 1 0 ((← V3.at b temp 1) * (← V3.at b axis 0) - s * (← V3.at b axis 2))
  let Rotate ← M3.storeEntry b Rotate 1 1 (c + (← V3.at b temp 1) * (← V3.at b axis 1))
  let Rotate ← M3.storeEntry b Rotate 1 2 ((← V3.at b temp 1) * (← V3.at b axis 2) + s * (← V3.at b axis 0))
  let Rotate ← M3.storeEntry b Rotate 2 0 ((← V3.at b temp 2) * (← V3.at b axis 0) + s * (← V3.at b axis 1))
  let Rotate ← M3.storeEntry b Rotate 2 1 ((← V3.at b temp 2) * (← V3.at b axis 1) - s * (← V3.at b axis 0))
  let Rotate ← M3.storeEntry b Rotate 2 2 (c + (← V3.at b temp 2) * (← V3.at b axis 2))
  let Result : M4 (Option α) := M4.noInit
  let Result ← M4.storeCol b Result 0 ((← M4.at b m 0) * (← M3.loadEntry b Rotate 0 0) + (← M4.at b m 1) * (← M3.loadEntry b Rotate 0 1) + (← M4.at b m 2) * (← M3.loadEntry b Rotate 0 2))
  let Result ← M4.storeCol b Result 1 ((← M4.at b m 0) * (← M3.loadEntry b Rotate 1 0) + (← M4.at b m 1) * (← M3.loadEntry b Rotate 1 1) + (← M4.at b m 2) * (← M3.loadEntry b Rotate 1 2))
  let Result ← M4.storeCol b Result 2 ((← M4.at b m 0) * (← M3.loadEntry b Rotate 2 0) + (← M4.at b m 1) * (← M3.loadEntry b Rotate 2 1) + (← M4.at b m 2) * (← M3.loadEntry b Rotate 2 2))
  let Result ← M4.storeCol b Result 3 (← M4.at b m 3)
  M4.load Result

/-- `scale` src/matrix_transform.cpp:50-58 -/
def scale (b : Build) (m : M4 α) (v : V3 α) : Res (M4 α) := do
  let Result : M4 (Option α) := M4.noInit
  let Result ← M4.storeCol b Result 0 ((← M4.at b m 0) * (← V3.at b v 0))
  let Result ← M4.storeCol b Result 1 ((← M4.at b m 1) * (← V3.at b v 1))
  let Result ← M4.storeCol b Result 2 ((← M4.at b m 2) * (← V3.at b v 2))
  let Result ← M4.storeCol b Result 3 (← M4.at b m 3)
  M4.load Result

/-- `lookAtRH` src/matrix_transform.cpp:60-80 -/
def lookAtRH (b : Build) (eye : V3 α) (center : V3 α) (up : V3 α) : Res (M4 α) := do
  let f : V3 α := V3.normalize (center - eye)
  let s : V3 α := V3.normalize (V3.cross f up)
  let u : V3 α := V3.cross s f
  let Result : M4 α := M4.diag (lit 1)
  let Result ← M4.setEntry b Result 0 0 s.x
  let Result ← M4.setEntry b Result 1 0 s.y
  let Result ← M4.setEntry b Result 2 0 s.z
  let Result ← M4.setEntry b Result 0 1 u.x
  let Result ← M4.setEntry b Result 1 1 u.y
  let Result ← M4.setEntry b Result 2 1 u.z
  let Result ← M4.setEntry b Result 0 2 (-f.x)
  let Result ← M4.setEntry b Result 1 2 (-f.y)
  let Result ← M4.setEntry b Result 2 2 (-f.z)
  let Result ← M4.setEntry b Result 3 0 (-(V3.dot s eye))
  let Result ← M4.setEntry b Result 3 1 (-(V3.dot u eye))
  let Result ← M4.setEntry b Result 3 2 (V3.dot f eye)
  pure Result

/-- `lookAtLH` src/matrix_transform.cpp:82-102 -/
def lookAtLH (b : Build) (eye : V3 α) (center : V3 α) (up : V3 α) : Res (M4 α) := do
  let f : V3 α := V3.normalize (center - eye)
  let s : V3 α := V3.normalize (V3.cross up f)
  let u : V3 α := V3.cross f s
  let Result : M4 α := M4.diag (lit 1)
  let Result ← M4.setEntry b Result 0 0 s.x
  let Result ← M4.setEntry b Result 1 0 s.y
  let Result ← M4.setEntry b Result 2 0 s.z
  let Result ← M4.setEntry b Result 0 1 u.x
  let Result ← M4.setEntry b Result 1 1 u.y
  let Result ← M4.setEntry b Result 2 1 u.z
  let Result ← M4.setEntry b Result 0 2 f.x
  let Result ← M4.setEntry b Result 1 2 f.y
  let Result ← M4.setEntry b Result 2 2 f.z
  let Result ← M4.setEntry b Result 3 0 (-(V3.dot s eye))
  let Result ← M4.setEntry b Result 3 1 (-(V3.dot u eye))
  let Result ← M4.setEntry b Result 3 2 (-(V3.dot f eye))
  pure Result

/-- `ortho(left, right, bottom, top)` src/matrix_transform.cpp:104-113 -/
def ortho (b : Build) (left : α) (right : α) (bottom : α) (top : α) : Res (M4 α) := do
  let Result : M4 α := M4.diag (lit 1)
  let Result ← M4.setEntry b Result 0 0 (lit 2 / (right - left))
  let Result ← M4.setEntry b Result 1 1 (lit 2 / (top - bottom))
  let Result ← M4.setEntry b Result 2 2 (-(lit 1))
  let Result ← M4.setEntry b Result 3 0 (-(right + left) / (right - left))
  let Result ← M4.setEntry b Result 3 1 (-(top + bottom) / (top - bottom))
  pure Result

/-- `orthoLH_ZO` src/matrix_transform.cpp:115-125 -/
def orthoLH_ZO (b : Build) (left : α) (right : α) (bottom : α) (top : α) (zNear : α) (zFar : α) : Res (M4 α) := do
  let Result : M4 α := M4.diag (lit 1)
  let Result ← M4.setEntry b Result 0 0 (lit 2 / (right - left))
  let Result ← M4.setEntry b Result 1 1 (lit 2 / (top - bottom))
  let Result ← M4.setEntry b Result 2 2 (lit 1 / (zFar - zNear))
  let Result ← M4.setEntry b Result 3 0 (-(right + left) / (right - left))
  let Result ← M4.setEntry b Result 3 1 (-(top + bottom) / (top - bottom))
  let Result ← M4.setEntry b Result 3 2 (-zNear / (zFar - zNear))
  pure Result

/-- `orthoRH_ZO` src/matrix_transform.cpp:127-137 -/
def orthoRH_ZO (b : Build) (left : α) (right : α) (bottom : α) (top : α) (zNear : α) (zFar : α) : Res (M4 α) := do
  let Result : M4 α := M4.diag (lit 1)
  let Result ← M4.setEntry b Result 0 0 (lit 2 / (right - left))
  let Result ← M4.setEntry b Result 1 1 (lit 2 / (top - bottom))
  let Result ← M4.setEntry b Result 2 2 (-(lit 1) / (zFar - zNear))
  let Result ← M4.setEntry b Result 3 0 (-(right + left) / (right - left))
  let Result ← M4.setEntry b Result 3 1 (-(top + bottom) / (top - bottom))
  let Result ← M4.setEntry b Result 3 2 (-zNear / (zFar - zNear))
  pure Result

/-- `orthoLH_NO` src/matrix_transform.cpp:139-149 -/
def orthoLH_NO (b : Build) (left : α) (right : α) (bottom : α) (top : α) (zNear : α) (zFar : α) : Res (M4 α) := do
  let Result : M4 α := M4.diag (lit 1)
  let Result ← M4.setEntry b Result 0 0 (lit 2 / (right - left))
  let Result ← M4.setEntry b Result 1 1 (lit 2 / (top - bottom))
  let Result ← M4.setEntry b Result 2 2 (lit 2 / (zFar - zNear))
  let Result ← M4.setEntry b Result 3 0 (-(right + left) / (right - left))
  let Result ← M4.setEntry b Result 3 1 (-(top + bottom) / (top - bottom))
  let Result ← M4.setEntry b Result 3 2 (-(zFar + zNear) / (zFar - zNear))
  pure Result

/-- `orthoRH_NO` src/matrix_transform.cpp:151-161 -/
def orthoRH_NO (b : Build) (left : α) (right : α) (bottom : α) (top : α) (zNear : α) (zFar : α) : Res (M4 α) := do
  let Result : M4 α := M4.diag (lit 1)
  let Result ← M4.setEntry b Result 0 0 (lit 2 / (right - left))
  let Result ← M4.setEntry b Result 1 1 (lit 2 / (top - bottom))
  let Result ← M4.setEntry b Result 2 2 (-(lit 2) / (zFar - zNear))
  let Result ← M4.setEntry b Result 3 0 (-(right + left) / (right - left))
  let Result ← M4.setEntry b Result 3 1 (-(top + bottom) / (top - bottom))
  let Result ← M4.setEntry b Result 3 2 (-(zFar + zNear) / (zFar - zNear))
  pure Result

/-- `perspectiveRH_ZO` src/matrix_transform.cpp:163-176 -/
def perspectiveRH_ZO (b : Build) (fovy : α) (aspect : α) (zNear : α) (zFar : α) : Res (M4 α) := do
  cassert b (decide (F.abs (aspect - epsilonf) > lit 0))
  let tanHalfFovy : α := F.tan (fovy * lit 0.5)
  let Result : M4 α := M4.diag (lit 0)
  let Result ← M4.setEntry b Result 0 0 (lit 1 / (aspect * tanHalfFovy))
  let Result ← M4.setEntry b Result 1 1 (lit 1 / tanHalfFovy)
  let Result ← M4.setEntry b Result 2 2 (zFar / (zNear - zFar))
  let Result ← M4.setEntry b Result 2 3 (-(lit 1))
  let Result ← M4.setEntry b Result 3 2 (-(zFar * zNear) / (zFar - zNear))
  pure Result

/-- `perspectiveRH_NO` src/matrix_transform.cpp:178-191 -/
def perspectiveRH_NO (b : Build) (fovy : α) (aspect : α) (zNear : α) (zFar : α) : Res (M4 α) := do
  cassert b (decide (F.abs (aspect - epsilonf) > lit 0))
  let tanHalfFovy : α := F.tan (fovy * lit 0.5)
  let Result : M4 α := M4.diag (lit 0)
  let Result ← M4.setEntry b Result 0 0 (lit 1 / (aspect * tanHalfFovy))
  let Result ← M4.setEntry b Result 1 1 (lit 1 / tanHalfFovy)
  let Result ← M4.setEntry b Result 2 2 (-(zFar + zNear) / (zFar - zNear))
  let Result ← M4.setEntry b Result 2 3 (-(lit 1))
  let Result ← M4.setEntry b Result 3 2 (-(lit 2 * zFar * zNear) / (zFar - zNear))
  pure Result

/-- `perspectiveLH_ZO` src/matrix_transform.cpp:193-206 -/
def perspectiveLH_ZO (b : Build) (fovy : α) (aspect : α) (zNear : α) (zFar : α) : Res (M4 α) := do
  cassert b (decide (F.abs (aspect - epsilonf) > lit 0))
  let tanHalfFovy : α := F.tan (fovy * lit 0.5)
  let Result : M4 α := M4.diag (lit 0)
  let Result ← M4.setEntry b Result 0 0 (lit 1 / (aspect * tanHalfFovy))
  let Result ← M4.setEntry b Result 1 1 (lit 1 / tanHalfFovy)
  let Result ← M4.setEntry b Result 2 2 (zFar / (zFar - zNear))
  let Result ← M4.setEntry b Result 2 3 (lit 1)
  let Result ← M4.setEntry b Result 3 2 (-(zFar * zNear) / (zFar - zNear))
  pure Result

/-- `perspectiveLH_NO` src/matrix_transform.cpp:208-221 -/
def perspectiveLH_NO (b : Build) (fovy : α) (aspect : α) (zNear : α) (zFar : α) : Res (M4 α) := do
  cassert b (decide (F.abs (aspect - epsilonf) > lit 0))
  let tanHalfFovy : α := F.tan (fovy * lit 0.5)
  let Result : M4 α := M4.diag (lit 0)
  let Result ← M4.setEntry b Result 0 0 (lit 1 / (aspect * tanHalfFovy))
  let Result ← M4.setEntry b Result 1 1 (lit 1 / tanHalfFovy)
  let Result ← M4.setEntry b Result 2 2 ((zFar + zNear) / (zFar - zNear))
  let Result ← M4.setEntry b Result 2 3 (lit 1)
  let Result ← M4.setEntry b Result 3 2 (-(lit 2 * zFar * zNear) / (zFar - zNear))
  pure Result

/-- `mat3_cast(quat)` src/quaternion.cpp:40-65 -/
def mat3_cast (b : Build) (q : Quat α) : Res (M3 α) := do
  let Result : M3 (Option α) := M3.noInit
  let qxx : α := q.x * q.x
  let qyy : α := q.y * q.y
  let qzz : α := q.z * q.z
  let qxz : α := q.x * q.z
  let qxy : α := q.x * q.y
  let qyz : α := q.y * q.z
  let qwx : α := q.w * q.x
  let qwy : α := q.w * q.y
  let qwz : α := q.w * q.z
  let Result ← M3.storeEntry b Result 0 0 (lit 1 - lit 2 * (qyy + qzz))
  let Result ← M3.storeEntry b Result 0 1 (lit 2 * (qxy + qwz))
  let Result ← M3.storeEntry b Result 0 2 (lit 2 * (qxz - qwy))
  let Result ← M3.storeEntry b Result 1 0 (lit 2 * (qxy - qwz))
  let Result ← M3.storeEntry b Result 1 1 (lit 1 - lit 2 * (qxx + qzz))
  let Result ← M3.storeEntry b Result 1 2 (lit 2 * (qyz + qwx))
  let Result ← M3.storeEntry b Result 2 0 (lit 2 * (qxz + qwy))
  let Result ← M3.storeEntry b Result 2 1 (lit 2 * (qyz - qwx))
  let Result ← M3.storeEntry b Result 2 2 (lit 1 - lit 2 * (qxx + qyy))
  M3.load Result

/-- `mat4(const mat3&)` src/mat4.cpp:44-50 -/
def mat4_of_mat3 (b : Build) (m : M3 α) : Res (M4 α) := do
  let columns : M4 (Option α) := M4.noInit
  let columns : M4 (Option α) := { columns with c0 := V4.cells (V4.ofXYZ_W (← M3.at b m 0) (lit 0)) }
  let columns : M4 (Option α) := { columns with c1 := V4.cells (V4.ofXYZ_W (← M3.at b m 1) (lit 0)) }
  let columns : M4 (Option α) := { columns with c2 := V4.cells (V4.ofXYZ_W (← M3.at b m 2) (lit 0)) }
  let columns : M4 (Option α) := { columns with c3 := V4.cells ⟨lit 0, lit 0, lit 0, lit 1⟩ }
  M4.load columns

/-- `mat4_cast(quat)` src/quaternion.cpp:67-70 -/
def mat4_cast (b : Build) (q : Quat α) : Res (M4 α) := do
  pure (← mat4_of_mat3 b (← mat3_cast b q))

/-- `quat_cast(mat3)` src/quaternion.cpp:72-112, with the `switch` and the unreachable last line -/
def quat_cast3 (b : Build) (m : M3 α) : Res (Quat α) := do
  let fourXSquaredMinus1 : α := (← M3.entry b m 0 0) - (← M3.entry b m 1 1) - (← M3.entry b m 2 2)
  let fourYSquaredMinus1 : α := (← M3.entry b m 1 1) - (← M3.entry b m 0 0) - (← M3.entry b m 2 2)
  let fourZSquaredMinus1 : α := (← M3.entry b m 2 2) - (← M3.entry b m 0 0) - (← M3.entry b m 1 1)
  let fourWSquaredMinus1 : α := (← M3.entry b m 0 0) + (← M3.entry b m 1 1) + (← M3.entry b m 2 2)
  let biggestIndex : ℕ := 0
  let fourBiggestSquaredMinus1 : α := fourWSquaredMinus1
  let (fourBiggestSquaredMinus1, biggestIndex) :=
    if fourXSquaredMinus1 > fourBiggestSquaredMinus1 then (fourXSquaredMinus1, 1)
    else (fourBiggestSquaredMinus1, biggestIndex)
  let (fourBiggestSquaredMinus1, biggestIndex) :=
    if fourYSquaredMinus1 > fourBiggestSquaredMinus1 then (fourYSquaredMinus1, 2)
    else (fourBiggestSquaredMinus1, biggestIndex)
  let (fourBiggestSquaredMinus1, biggestIndex) :=
    if fourZSquaredMinus1 > fourBiggestSquaredMinus1 then (fourZSquaredMinus1, 3)
    else (fourBiggestSquaredMinus1, biggestIndex)
  let biggestVal : α := F.sqrt (fourBiggestSquaredMinus1 + lit 1) * lit 0.5
  let mult : α := lit 0.25 / biggestVal
  match biggestIndex with
  | 0 => pure (Quat.wxyz biggestVal (((← M3.entry b m 1 2) - (← M3.entry b m 2 1)) * mult) (((← M3.entry b m 2 0) - (← M3.entry b m 0 2)) * mult) (((← M3.entry b m 0 1) - (← M3.entry b m 1 0)) * mult))
  | 1 => pure (Quat.wxyz (((← M3.entry b m 1 2) - (← M3.entry b m 2 1)) * mult) biggestVal (((← M3.entry b m 0 1) + (← M3.entry b m 1 0)) * mult) (((← M3.entry b m 2 0) + (← M3.entry b m 0 2)) * mult))
  | 2 => pure (Quat.wxyz (((← M3.entry b m 2 0) - (← M3.entry b m 0 2)) * mult) (((← M3.entry b m 0 1) + (← M3.entry b m 1 0)) * mult) biggestVal (((← M3.entry b m 1 2) + (← M3.entry b m 2 1)) * mult))
  | 3 => pure (Quat.wxyz (((← M3.entry b m 0 1) - (← M3.entry b m 1 0)) * mult) (((← M3.entry b m 2 0) + (← M3.entry b m 0 2)) * mult) (((← M3.entry b m 1 2) + (← M3.entry b m 2 1)) * mult) biggestVal)
  | _ => pure Quat.default

/-- `quat_cast(mat4)` src/quaternion.cpp:114-117 -/
def quat_cast4 (b : Build) (m : M4 α) : Res (Quat α) := do
  quat_cast3 b (M4.toMat3 m)

/-- `quatLookAtLH` src/quaternion.cpp:119-128 -/
def quatLookAtLH (b : Build) (direction : V3 α) (up : V3 α) : Res (Quat α) := do
  let Result : M3 (Option α) := M3.noInit
  let Result ← M3.storeCol b Result 2 direction
  let Result ← M3.storeCol b Result 0 (V3.normalize (V3.cross up (← M3.loadCol b Result 2)))
  let Result ← M3.storeCol b Result 1 (V3.cross (← M3.loadCol b Result 2) (← M3.loadCol b Result 0))
  pure (← quat_cast3 b (← M3.load Result))

/-- `quatLookAtRH` src/quaternion.cpp:130-139 -/
def quatLookAtRH (b : Build) (direction : V3 α) (up : V3 α) : Res (Quat α) := do
  let Result : M3 (Option α) := M3.noInit
  let Result ← M3.storeCol b Result 2 (-direction)
  let Result ← M3.storeCol b Result 0 (V3.normalize (V3.cross up (← M3.loadCol b Result 2)))
  let Result ← M3.storeCol b Result 1 (V3.cross (← M3.loadCol b Result 2) (← M3.loadCol b Result 0))
  pure (← quat_cast3 b (← M3.load Result))

/-- `Row[i]` on the local `vec3 Row[3]` of src/matrix_transform.cpp:230 (a built-in array: no assertion) -/
def rowAt (Row : M3 α) (i : UInt32) : Res (V3 α) :=
  match i.toNat with
  | 0 => .ok Row.c0
  | 1 => .ok Row.c1
  | 2 => .ok Row.c2
  | _ => .ub

/-- `Row[i] = v` on the same array -/
def rowSet (Row : M3 α) (i : UInt32) (v : V3 α) : Res (M3 α) :=
  match i.toNat with
  | 0 => .ok { Row with c0 := v }
  | 1 => .ok { Row with c1 := v }
  | 2 => .ok { Row with c2 := v }
  | _ => .ub

/-- `Next[i]` on the table of src/matrix_transform.cpp:271 -/
def nextAt (i : UInt32) : Res UInt32 :=
  match i.toNat with
  | 0 => .ok 1
  | 1 => .ok 2
  | 2 => .ok 0
  | _ => .ub

/-- the statements of `decompose_orthogonal` src/matrix_transform.cpp:228-247: `translation`, `Row` and `scale`.  The
caller's `vec3` objects live in a store, so that the addresses `scale` and `translation` may be the same. -/
def decompose_rows (b : Build) (model_mat : M4 α) (σ : Store (V3 (Option α))) (scale translation : ℕ) :
    Res (Store (V3 (Option α)) × M3 α) := do
  let σ : Store (V3 (Option α)) := Function.update σ translation
    (V3.cells ⟨(← M4.at b model_mat 3).x, (← M4.at b model_mat 3).y, (← M4.at b model_mat 3).z⟩)
  let Row : M3 α := ⟨V3.default, V3.default, V3.default⟩
  let Row ← [0, 1, 2].foldlM (fun Row i => [0, 1, 2].foldlM (fun Row j => do
    rowSet Row i (← V3.set b (← rowAt Row i) j (← M4.entry b model_mat i j))) Row) Row
  let σ : Store (V3 (Option α)) := Function.update σ scale { σ scale with x := some (V3.length (← rowAt Row 0)) }
  let Row ← rowSet Row 0 (V3.divAssignS (← rowAt Row 0) (← Cell.read (σ scale).x))
  let σ : Store (V3 (Option α)) := Function.update σ scale { σ scale with y := some (V3.length (← rowAt Row 1)) }
  let Row ← rowSet Row 1 (V3.divAssignS (← rowAt Row 1) (← Cell.read (σ scale).y))
  let σ : Store (V3 (Option α)) := Function.update σ scale { σ scale with z := some (V3.length (← rowAt Row 2)) }
  let Row ← rowSet Row 2 (V3.divAssignS (← rowAt Row 2) (← Cell.read (σ scale).z))
  pure (σ, Row)

/-- the statements of `decompose_orthogonal` src/matrix_transform.cpp:249-257: undo a reflection -/
def decompose_flip (b : Build) (σ : Store (V3 (Option α))) (scale : ℕ) (Row : M3 α) :
    Res (Store (V3 (Option α)) × M3 α) := do
  if V3.dot (← rowAt Row 0) (V3.cross (← rowAt Row 1) (← rowAt Row 2)) < lit 0 then
    [0, 1, 2].foldlM (fun p i => do
      let s ← Cell.read (← V3.at b (p.1 scale) i)
      let σ : Store (V3 (Option α)) := Function.update p.1 scale (← V3.set b (p.1 scale) i (some (s * (-(lit 1)))))
      let Row ← rowSet p.2 i (V3.mulAssignS (← rowAt p.2 i) (-(lit 1)))
      pure (σ, Row)) (σ, Row)
  else pure (σ, Row)

/-- the statements of `decompose_orthogonal` src/matrix_transform.cpp:259-286: the orientation -/
def decompose_orientation (b : Build) (Row : M3 α) (orientation : Quat (Option α)) : Res (Quat (Option α)) := do
  let trace : α := (← rowAt Row 0).x + (← rowAt Row 1).y + (← rowAt Row 2).z
  if trace > lit 0 then
    let root : α := F.sqrt (trace + lit 1)
    let orientation : Quat (Option α) := { orientation with w := some (lit 0.5 * root) }
    let root : α := lit 0.5 / root
    let orientation : Quat (Option α) := { orientation with x := some (root * ((← rowAt Row 1).z - (← rowAt Row 2).y)) }
    let orientation : Quat (Option α) := { orientation with y := some (root * ((← rowAt Row 2).x - (← rowAt Row 0).z)) }
    let orientation : Quat (Option α) := { orientation with z := some (root * ((← rowAt Row 0).y - (← rowAt Row 1).x)) }
    pure orientation
  else
    let i : UInt32 := 0
    let i : UInt32 := if (← rowAt Row 1).y > (← rowAt Row 0).x then 1 else i
    let i : UInt32 := if (← rowAt Row 2).z > (← V3.at b (← rowAt Row i) i) then 2 else i
    let j ← nextAt i
    let k ← nextAt j
    let root : α := F.sqrt ((← V3.at b (← rowAt Row i) i) - (← V3.at b (← rowAt Row j) j) - (← V3.at b (← rowAt Row k) k) + lit 1)
    let orientation ← Quat.set b orientation i (some (lit 0.5 * root))
    let root : α := lit 0.5 / root
    let orientation ← Quat.set b orientation j (some (root * ((← V3.at b (← rowAt Row i) j) + (← V3.at b (← rowAt Row j) i))))
    let orientation ← Quat.set b orientation k (some (root * ((← V3.at b (← rowAt Row i) k) + (← V3.at b (← rowAt Row k) i))))
    let orientation : Quat (Option α) := { orientation with w := some (root * ((← V3.at b (← rowAt Row j) k) - (← V3.at b (← rowAt Row k) j))) }
    pure orientation

/-- `decompose_orthogonal` src/matrix_transform.cpp:223-286 -/
def decompose_orthogonal (b : Build) (model_mat : M4 α) (σ : Store (V3 (Option α))) (scale translation : ℕ)
    (orientation : Quat (Option α)) : Res (Store (V3 (Option α)) × Quat (Option α)) := do
  let (σ, Row) ← decompose_rows b model_mat σ scale translation
  let (σ, Row) ← decompose_flip b σ scale Row
  let orientation ← decompose_orientation b Row orientation
  pure (σ, orientation)

end Stmt

end Zcm
