import Verif.Model.IVec
import Verif.Model.BVec

/-!
# mat2, mat3, mat4

Model of src/mat2.cpp, src/mat3.cpp, src/mat4.cpp except the operators that need `inverse`
(those are at the end of `Model/Matrix.lean`).  `_columns[i]` is the field `ci`, so `m[i][j]`
is `m.ci.x/y/z/w` for `j = 0/1/2/3`.  Subscripts with constant in-range indices are written as
field accesses (`M2.at`, `V2.at` below and property C05 justify this); the one subscript with a
constant out-of-range index (src/mat3.cpp:27) goes through `M2.at`.
-/

namespace Zcm

/-- A store of objects of type `β` indexed by address: used to run the operators that take
their operand by reference (src/mat2.cpp:134-152, src/quat.cpp:126-158) when both references
may name the same object.  (Simplification: distinct addresses never overlap partially.) -/
abbrev Store (β : Type) := ℕ → β

/-- `mat2`: include/zcm/mat2.hpp, `vec2 _columns[2]`. -/
@[ext] structure M2 (α : Type) where
  c0 : V2 α
  c1 : V2 α
  deriving DecidableEq, Repr

/-- `mat3`: include/zcm/mat3.hpp, `vec3 _columns[3]`. -/
@[ext] structure M3 (α : Type) where
  c0 : V3 α
  c1 : V3 α
  c2 : V3 α
  deriving DecidableEq, Repr

/-- `mat4`: include/zcm/mat4.hpp, `vec4 _columns[4]`. -/
@[ext] structure M4 (α : Type) where
  c0 : V4 α
  c1 : V4 α
  c2 : V4 α
  c3 : V4 α
  deriving DecidableEq, Repr

variable {α : Type}

/-! ## mat2 -/

/-- `mat2(float value)` src/mat2.cpp:16-20 -/
def M2.diag [FloatOps α] (value : α) : M2 α :=
  ⟨⟨value, lit 0⟩, ⟨lit 0, value⟩⟩

/-- `mat2()` src/mat2.cpp:10-11 -/
def M2.default [FloatOps α] : M2 α := M2.diag (lit 1)

/-- `mat2(float × 4)` src/mat2.cpp:22-28: column by column -/
def M2.ofFloats (a00 a01 a10 a11 : α) : M2 α :=
  ⟨⟨a00, a01⟩, ⟨a10, a11⟩⟩

/-- `mat2(vec2, vec2)` src/mat2.cpp:30-34: one argument per column -/
def M2.ofCols (c0 c1 : V2 α) : M2 α := ⟨c0, c1⟩

/-- `make_mat2(const float* ptr)` src/mat2.cpp:166-173 -/
def M2.make (b : Build) (ptr : Option (ℕ → α)) : Res (M2 α) := do
  cassert b ptr.isSome
  match ptr with
  | some p => pure (M2.ofFloats (p 0) (p 1) (p 2) (p 3))
  | none => Res.ub

/-- reading `m[pos]` src/mat2.cpp:42-46; `_columns[pos]` outside the array is undefined. -/
def M2.at (b : Build) (this : M2 α) (pos : UInt32) : Res (V2 α) := do
  cassert b (pos < 2)
  match pos.toNat with
  | 0 => pure this.c0
  | 1 => pure this.c1
  | _ => Res.ub

/-- writing `m[pos] = v` through the reference of src/mat2.cpp:36-40 -/
def M2.set (b : Build) (this : M2 α) (pos : UInt32) (v : V2 α) : Res (M2 α) := do
  cassert b (pos < 2)
  match pos.toNat with
  | 0 => pure { this with c0 := v }
  | 1 => pure { this with c1 := v }
  | _ => Res.ub

/-- writing one entry `m[pos][row] = a`: src/mat2.cpp:36-40 followed by the subscript of `vec2` -/
def M2.setEntry (b : Build) (this : M2 α) (pos row : UInt32) (a : α) : Res (M2 α) := do
  let col ← M2.at b this pos
  let col' ← V2.set b col row a
  M2.set b this pos col'

/-- reading one entry `m[pos][row]`: src/mat2.cpp:42-46 followed by the subscript of `vec2` -/
def M2.entry (b : Build) (this : M2 α) (pos row : UInt32) : Res α := do
  let col ← M2.at b this pos
  V2.at b col row

/-- `mat2 + mat2` src/mat2.cpp:48-52 -/
instance M2.instAdd [Add α] : Add (M2 α) :=
  ⟨fun first second => ⟨first.c0 + second.c0, first.c1 + second.c1⟩⟩

/-- `mat2 - mat2` src/mat2.cpp:54-58 -/
instance M2.instSub [Sub α] : Sub (M2 α) :=
  ⟨fun first second => ⟨first.c0 - second.c0, first.c1 - second.c1⟩⟩

/-- unary `-mat2` src/mat2.cpp:60-64 -/
instance M2.instNeg [Neg α] : Neg (M2 α) := ⟨fun first => ⟨-first.c0, -first.c1⟩⟩

/-- unary `+mat2` src/mat2.cpp:66-69 -/
def M2.pos (first : M2 α) : M2 α := first

/-- `mat2 * float` src/mat2.cpp:88-92 -/
instance M2.instMulS [Mul α] : HMul (M2 α) α (M2 α) :=
  ⟨fun mat scalar => ⟨mat.c0 * scalar, mat.c1 * scalar⟩⟩

/-- `mat2 / float` src/mat2.cpp:94-98 -/
instance M2.instDivS [Div α] : HDiv (M2 α) α (M2 α) :=
  ⟨fun mat scalar => ⟨mat.c0 / scalar, mat.c1 / scalar⟩⟩

/-- `float * mat2` src/mat2.cpp:100-104 -/
instance M2.instSMul [Mul α] : HMul α (M2 α) (M2 α) :=
  ⟨fun scalar mat => ⟨scalar * mat.c0, scalar * mat.c1⟩⟩

/-- `float / mat2` src/mat2.cpp:106-110 -/
instance M2.instSDiv [Div α] : HDiv α (M2 α) (M2 α) :=
  ⟨fun scalar mat => ⟨scalar / mat.c0, scalar / mat.c1⟩⟩

/-- `mat2 * mat2` src/mat2.cpp:72-79 -/
instance M2.instMul [Add α] [Mul α] : Mul (M2 α) :=
  ⟨fun m1 m2 =>
    ⟨⟨m1.c0.x * m2.c0.x + m1.c1.x * m2.c0.y,
      m1.c0.y * m2.c0.x + m1.c1.y * m2.c0.y⟩,
     ⟨m1.c0.x * m2.c1.x + m1.c1.x * m2.c1.y,
      m1.c0.y * m2.c1.x + m1.c1.y * m2.c1.y⟩⟩⟩

/-- `mat2 * vec2` src/mat2.cpp:112-116 -/
instance M2.instMulV [Add α] [Mul α] : HMul (M2 α) (V2 α) (V2 α) :=
  ⟨fun m v =>
    ⟨m.c0.x * v.x + m.c1.x * v.y,
     m.c0.y * v.x + m.c1.y * v.y⟩⟩

/-- `vec2 * mat2` src/mat2.cpp:118-122 -/
instance M2.instVMul [Add α] [Mul α] : HMul (V2 α) (M2 α) (V2 α) :=
  ⟨fun v m =>
    ⟨v.x * m.c0.x + v.y * m.c0.y,
     v.x * m.c1.x + v.y * m.c1.y⟩⟩

/-- `mat2 == mat2` src/mat2.cpp:154-157 -/
def M2.eq [BEq α] (first second : M2 α) : Bool :=
  V2.eq first.c0 second.c0 && V2.eq first.c1 second.c1

/-- `mat2 != mat2` src/mat2.cpp:159-162 -/
def M2.ne [BEq α] (first second : M2 α) : Bool := !(M2.eq first second)

/-- `mat2 += const mat2&` src/mat2.cpp:134-137, on a store: `this` and `first` may be the same address. -/
def M2.addAssign [Add α] (σ : Store (M2 α)) (this first : ℕ) : Store (M2 α) :=
  Function.update σ this (σ this + σ first)

/-- `mat2 -= const mat2&` src/mat2.cpp:139-142, on a store: `this` and `first` may be the same address. -/
def M2.subAssign [Sub α] (σ : Store (M2 α)) (this first : ℕ) : Store (M2 α) :=
  Function.update σ this (σ this - σ first)

/-- `mat2 *= const mat2&` src/mat2.cpp:144-147, on a store: `this` and `first` may be the same address. -/
def M2.mulAssign [Add α] [Mul α] (σ : Store (M2 α)) (this first : ℕ) : Store (M2 α) :=
  Function.update σ this (σ this * σ first)

/-! ## mat3 -/

/-- `mat3(float value)` src/mat3.cpp:16-21 -/
def M3.diag [FloatOps α] (value : α) : M3 α :=
  ⟨⟨value, lit 0, lit 0⟩, ⟨lit 0, value, lit 0⟩, ⟨lit 0, lit 0, value⟩⟩

/-- `mat3()` src/mat3.cpp:10-11 -/
def M3.default [FloatOps α] : M3 α := M3.diag (lit 1)

/-- `mat3(float × 9)` src/mat3.cpp:43-48: column by column -/
def M3.ofFloats (a00 a01 a02 a10 a11 a12 a20 a21 a22 : α) : M3 α :=
  ⟨⟨a00, a01, a02⟩, ⟨a10, a11, a12⟩, ⟨a20, a21, a22⟩⟩

/-- `mat3(vec3, vec3, vec3)` src/mat3.cpp:36-41: one argument per column -/
def M3.ofCols (c0 c1 c2 : V3 α) : M3 α := ⟨c0, c1, c2⟩

/-- `make_mat3(const float* ptr)` src/mat3.cpp:228-236 -/
def M3.make (b : Build) (ptr : Option (ℕ → α)) : Res (M3 α) := do
  cassert b ptr.isSome
  match ptr with
  | some p => pure (M3.ofFloats (p 0) (p 1) (p 2) (p 3) (p 4) (p 5) (p 6) (p 7) (p 8))
  | none => Res.ub

/-- reading `m[pos]` src/mat3.cpp:168-172; `_columns[pos]` outside the array is undefined. -/
def M3.at (b : Build) (this : M3 α) (pos : UInt32) : Res (V3 α) := do
  cassert b (pos < 3)
  match pos.toNat with
  | 0 => pure this.c0
  | 1 => pure this.c1
  | 2 => pure this.c2
  | _ => Res.ub

/-- writing `m[pos] = v` through the reference of src/mat3.cpp:162-166 -/
def M3.set (b : Build) (this : M3 α) (pos : UInt32) (v : V3 α) : Res (M3 α) := do
  cassert b (pos < 3)
  match pos.toNat with
  | 0 => pure { this with c0 := v }
  | 1 => pure { this with c1 := v }
  | 2 => pure { this with c2 := v }
  | _ => Res.ub

/-- writing one entry `m[pos][row] = a`: src/mat3.cpp:162-166 followed by the subscript of `vec3` -/
def M3.setEntry (b : Build) (this : M3 α) (pos row : UInt32) (a : α) : Res (M3 α) := do
  let col ← M3.at b this pos
  let col' ← V3.set b col row a
  M3.set b this pos col'

/-- reading one entry `m[pos][row]`: src/mat3.cpp:168-172 followed by the subscript of `vec3` -/
def M3.entry (b : Build) (this : M3 α) (pos row : UInt32) : Res α := do
  let col ← M3.at b this pos
  V3.at b col row

/-- `mat3(const mat2& m2)` src/mat3.cpp:23-28: line 27 reads `m2[2]`, a column that a `mat2` does not have. -/
def M3.ofMat2 [FloatOps α] (b : Build) (m2 : M2 α) : Res (M3 α) := do
  let col0 : V3 α := ⟨m2.c0.x, m2.c0.y, lit 0⟩
  let col1 : V3 α := ⟨m2.c1.x, m2.c1.y, lit 0⟩
  let m22 ← M2.at b m2 2
  let col2 : V3 α := ⟨m22.x, m22.y, lit 1⟩
  pure ⟨col0, col1, col2⟩

/-- conversion to `mat2` src/mat3.cpp:30-33 -/
def M3.toMat2 (this : M3 α) : M2 α := M2.ofFloats this.c0.x this.c0.y this.c1.x this.c1.y

/-- `mat3 + mat3` src/mat3.cpp:50-55 -/
instance M3.instAdd [Add α] : Add (M3 α) :=
  ⟨fun first second => ⟨first.c0 + second.c0, first.c1 + second.c1, first.c2 + second.c2⟩⟩

/-- `mat3 - mat3` src/mat3.cpp:57-62 -/
instance M3.instSub [Sub α] : Sub (M3 α) :=
  ⟨fun first second => ⟨first.c0 - second.c0, first.c1 - second.c1, first.c2 - second.c2⟩⟩

/-- unary `-mat3` src/mat3.cpp:64-69 -/
instance M3.instNeg [Neg α] : Neg (M3 α) := ⟨fun first => ⟨-first.c0, -first.c1, -first.c2⟩⟩

/-- unary `+mat3` src/mat3.cpp:71-74 -/
def M3.pos (first : M3 α) : M3 α := first

/-- `mat3 * float` src/mat3.cpp:134-139 -/
instance M3.instMulS [Mul α] : HMul (M3 α) α (M3 α) :=
  ⟨fun mat scalar => ⟨mat.c0 * scalar, mat.c1 * scalar, mat.c2 * scalar⟩⟩

/-- `mat3 / float` src/mat3.cpp:141-146 -/
instance M3.instDivS [Div α] : HDiv (M3 α) α (M3 α) :=
  ⟨fun mat scalar => ⟨mat.c0 / scalar, mat.c1 / scalar, mat.c2 / scalar⟩⟩

/-- `float * mat3` src/mat3.cpp:148-153 -/
instance M3.instSMul [Mul α] : HMul α (M3 α) (M3 α) :=
  ⟨fun scalar mat => ⟨scalar * mat.c0, scalar * mat.c1, scalar * mat.c2⟩⟩

/-- `float / mat3` src/mat3.cpp:155-160 -/
instance M3.instSDiv [Div α] : HDiv α (M3 α) (M3 α) :=
  ⟨fun scalar mat => ⟨scalar / mat.c0, scalar / mat.c1, scalar / mat.c2⟩⟩

/-- `mat3 * mat3` src/mat3.cpp:94-127 -/
instance M3.instMul [Add α] [Mul α] : Mul (M3 α) :=
  ⟨fun m1 m2 =>
    ⟨⟨m1.c0.x * m2.c0.x + m1.c1.x * m2.c0.y + m1.c2.x * m2.c0.z,
      m1.c0.y * m2.c0.x + m1.c1.y * m2.c0.y + m1.c2.y * m2.c0.z,
      m1.c0.z * m2.c0.x + m1.c1.z * m2.c0.y + m1.c2.z * m2.c0.z⟩,
     ⟨m1.c0.x * m2.c1.x + m1.c1.x * m2.c1.y + m1.c2.x * m2.c1.z,
      m1.c0.y * m2.c1.x + m1.c1.y * m2.c1.y + m1.c2.y * m2.c1.z,
      m1.c0.z * m2.c1.x + m1.c1.z * m2.c1.y + m1.c2.z * m2.c1.z⟩,
     ⟨m1.c0.x * m2.c2.x + m1.c1.x * m2.c2.y + m1.c2.x * m2.c2.z,
      m1.c0.y * m2.c2.x + m1.c1.y * m2.c2.y + m1.c2.y * m2.c2.z,
      m1.c0.z * m2.c2.x + m1.c1.z * m2.c2.y + m1.c2.z * m2.c2.z⟩⟩⟩

/-- `mat3 * vec3` src/mat3.cpp:194-199 -/
instance M3.instMulV [Add α] [Mul α] : HMul (M3 α) (V3 α) (V3 α) :=
  ⟨fun m v =>
    ⟨m.c0.x * v.x + m.c1.x * v.y + m.c2.x * v.z,
     m.c0.y * v.x + m.c1.y * v.y + m.c2.y * v.z,
     m.c0.z * v.x + m.c1.z * v.y + m.c2.z * v.z⟩⟩

/-- `vec3 * mat3` src/mat3.cpp:201-206 -/
instance M3.instVMul [Add α] [Mul α] : HMul (V3 α) (M3 α) (V3 α) :=
  ⟨fun v m =>
    ⟨m.c0.x * v.x + m.c0.y * v.y + m.c0.z * v.z,
     m.c1.x * v.x + m.c1.y * v.y + m.c1.z * v.z,
     m.c2.x * v.x + m.c2.y * v.y + m.c2.z * v.z⟩⟩

/-- `mat3 == mat3` src/mat3.cpp:218-221 -/
def M3.eq [BEq α] (first second : M3 α) : Bool :=
  V3.eq first.c0 second.c0 && V3.eq first.c1 second.c1 && V3.eq first.c2 second.c2

/-- `mat3 != mat3` src/mat3.cpp:223-226 -/
def M3.ne [BEq α] (first second : M3 α) : Bool := !(M3.eq first second)

/-- `mat3 += const mat3&` src/mat3.cpp:174-177, on a store: `this` and `first` may be the same address. -/
def M3.addAssign [Add α] (σ : Store (M3 α)) (this first : ℕ) : Store (M3 α) :=
  Function.update σ this (σ this + σ first)

/-- `mat3 -= const mat3&` src/mat3.cpp:179-182, on a store: `this` and `first` may be the same address. -/
def M3.subAssign [Sub α] (σ : Store (M3 α)) (this first : ℕ) : Store (M3 α) :=
  Function.update σ this (σ this - σ first)

/-- `mat3 *= const mat3&` src/mat3.cpp:184-187, on a store: `this` and `first` may be the same address. -/
def M3.mulAssign [Add α] [Mul α] (σ : Store (M3 α)) (this first : ℕ) : Store (M3 α) :=
  Function.update σ this (σ this * σ first)

/-! ## mat4 -/

/-- `mat4(float value)` src/mat4.cpp:16-22 -/
def M4.diag [FloatOps α] (value : α) : M4 α :=
  ⟨⟨value, lit 0, lit 0, lit 0⟩, ⟨lit 0, value, lit 0, lit 0⟩, ⟨lit 0, lit 0, value, lit 0⟩, ⟨lit 0, lit 0, lit 0, value⟩⟩

/-- `mat4()` src/mat4.cpp:10-11 -/
def M4.default [FloatOps α] : M4 α := M4.diag (lit 1)

/-- `mat4(float × 16)` src/mat4.cpp:32-41: column by column -/
def M4.ofFloats (a00 a01 a02 a03 a10 a11 a12 a13 a20 a21 a22 a23 a30 a31 a32 a33 : α) : M4 α :=
  ⟨⟨a00, a01, a02, a03⟩, ⟨a10, a11, a12, a13⟩, ⟨a20, a21, a22, a23⟩, ⟨a30, a31, a32, a33⟩⟩

/-- `mat4(vec4, vec4, vec4, vec4)` src/mat4.cpp:24-30: one argument per column -/
def M4.ofCols (c0 c1 c2 c3 : V4 α) : M4 α := ⟨c0, c1, c2, c3⟩

/-- `make_mat4(const float* ptr)` src/mat4.cpp:223-232 -/
def M4.make (b : Build) (ptr : Option (ℕ → α)) : Res (M4 α) := do
  cassert b ptr.isSome
  match ptr with
  | some p => pure (M4.ofFloats (p 0) (p 1) (p 2) (p 3) (p 4) (p 5) (p 6) (p 7) (p 8) (p 9) (p 10) (p 11) (p 12) (p 13) (p 14) (p 15))
  | none => Res.ub

/-- reading `m[pos]` src/mat4.cpp:173-177; `_columns[pos]` outside the array is undefined. -/
def M4.at (b : Build) (this : M4 α) (pos : UInt32) : Res (V4 α) := do
  cassert b (pos < 4)
  match pos.toNat with
  | 0 => pure this.c0
  | 1 => pure this.c1
  | 2 => pure this.c2
  | 3 => pure this.c3
  | _ => Res.ub

/-- writing `m[pos] = v` through the reference of src/mat4.cpp:167-171 -/
def M4.set (b : Build) (this : M4 α) (pos : UInt32) (v : V4 α) : Res (M4 α) := do
  cassert b (pos < 4)
  match pos.toNat with
  | 0 => pure { this with c0 := v }
  | 1 => pure { this with c1 := v }
  | 2 => pure { this with c2 := v }
  | 3 => pure { this with c3 := v }
  | _ => Res.ub

/-- writing one entry `m[pos][row] = a`: src/mat4.cpp:167-171 followed by the subscript of `vec4` -/
def M4.setEntry (b : Build) (this : M4 α) (pos row : UInt32) (a : α) : Res (M4 α) := do
  let col ← M4.at b this pos
  let col' ← V4.set b col row a
  M4.set b this pos col'

/-- reading one entry `m[pos][row]`: src/mat4.cpp:173-177 followed by the subscript of `vec4` -/
def M4.entry (b : Build) (this : M4 α) (pos row : UInt32) : Res α := do
  let col ← M4.at b this pos
  V4.at b col row

/-- `mat4(const mat3& m)` src/mat4.cpp:43-49 -/
def M4.ofMat3 [FloatOps α] (m : M3 α) : M4 α :=
  ⟨V4.ofXYZ_W m.c0 (lit 0), V4.ofXYZ_W m.c1 (lit 0), V4.ofXYZ_W m.c2 (lit 0),
   ⟨lit 0, lit 0, lit 0, lit 1⟩⟩

/-- conversion to `mat3` src/mat4.cpp:51-56 -/
def M4.toMat3 (this : M4 α) : M3 α :=
  ⟨⟨this.c0.x, this.c0.y, this.c0.z⟩, ⟨this.c1.x, this.c1.y, this.c1.z⟩,
   ⟨this.c2.x, this.c2.y, this.c2.z⟩⟩

/-- `mat4 + mat4` src/mat4.cpp:59-65 -/
instance M4.instAdd [Add α] : Add (M4 α) :=
  ⟨fun first second => ⟨first.c0 + second.c0, first.c1 + second.c1, first.c2 + second.c2, first.c3 + second.c3⟩⟩

/-- `mat4 - mat4` src/mat4.cpp:67-73 -/
instance M4.instSub [Sub α] : Sub (M4 α) :=
  ⟨fun first second => ⟨first.c0 - second.c0, first.c1 - second.c1, first.c2 - second.c2, first.c3 - second.c3⟩⟩

/-- unary `-mat4` src/mat4.cpp:75-81 -/
instance M4.instNeg [Neg α] : Neg (M4 α) := ⟨fun first => ⟨-first.c0, -first.c1, -first.c2, -first.c3⟩⟩

/-- unary `+mat4` src/mat4.cpp:83-86 -/
def M4.pos (first : M4 α) : M4 α := first

/-- `mat4 * float` src/mat4.cpp:114-120 -/
instance M4.instMulS [Mul α] : HMul (M4 α) α (M4 α) :=
  ⟨fun mat scalar => ⟨mat.c0 * scalar, mat.c1 * scalar, mat.c2 * scalar, mat.c3 * scalar⟩⟩

/-- `mat4 / float` src/mat4.cpp:122-128 -/
instance M4.instDivS [Div α] : HDiv (M4 α) α (M4 α) :=
  ⟨fun mat scalar => ⟨mat.c0 / scalar, mat.c1 / scalar, mat.c2 / scalar, mat.c3 / scalar⟩⟩

/-- `float * mat4` src/mat4.cpp:130-136 -/
instance M4.instSMul [Mul α] : HMul α (M4 α) (M4 α) :=
  ⟨fun scalar mat => ⟨scalar * mat.c0, scalar * mat.c1, scalar * mat.c2, scalar * mat.c3⟩⟩

/-- `float / mat4` src/mat4.cpp:138-144 -/
instance M4.instSDiv [Div α] : HDiv α (M4 α) (M4 α) :=
  ⟨fun scalar mat => ⟨scalar / mat.c0, scalar / mat.c1, scalar / mat.c2, scalar / mat.c3⟩⟩

/-- `mat4 * mat4` src/mat4.cpp:88-106 -/
instance M4.instMul [Add α] [Mul α] : Mul (M4 α) :=
  ⟨fun m1 m2 =>
    ⟨m1.c0 * m2.c0.x + m1.c1 * m2.c0.y + m1.c2 * m2.c0.z + m1.c3 * m2.c0.w,
     m1.c0 * m2.c1.x + m1.c1 * m2.c1.y + m1.c2 * m2.c1.z + m1.c3 * m2.c1.w,
     m1.c0 * m2.c2.x + m1.c1 * m2.c2.y + m1.c2 * m2.c2.z + m1.c3 * m2.c2.w,
     m1.c0 * m2.c3.x + m1.c1 * m2.c3.y + m1.c2 * m2.c3.z + m1.c3 * m2.c3.w⟩⟩

/-- `mat4 * vec4` src/mat4.cpp:179-193 -/
instance M4.instMulV [Add α] [Mul α] : HMul (M4 α) (V4 α) (V4 α) :=
  ⟨fun m v =>
    let Mul0 := m.c0 * v.x
    let Mul1 := m.c1 * v.y
    let Add0 := Mul0 + Mul1
    let Mul2 := m.c2 * v.z
    let Mul3 := m.c3 * v.w
    let Add1 := Mul2 + Mul3
    let Add2 := Add0 + Add1
    Add2⟩

/-- `vec4 * mat4` src/mat4.cpp:195-201 -/
instance M4.instVMul [Add α] [Mul α] : HMul (V4 α) (M4 α) (V4 α) :=
  ⟨fun v m =>
    ⟨m.c0.x * v.x + m.c0.y * v.y + m.c0.z * v.z + m.c0.w * v.w,
     m.c1.x * v.x + m.c1.y * v.y + m.c1.z * v.z + m.c1.w * v.w,
     m.c2.x * v.x + m.c2.y * v.y + m.c2.z * v.z + m.c2.w * v.w,
     m.c3.x * v.x + m.c3.y * v.y + m.c3.z * v.z + m.c3.w * v.w⟩⟩

/-- `mat4 == mat4` src/mat4.cpp:213-216 -/
def M4.eq [BEq α] (first second : M4 α) : Bool :=
  V4.eq first.c0 second.c0 && V4.eq first.c1 second.c1 && V4.eq first.c2 second.c2 && V4.eq first.c3 second.c3

/-- `mat4 != mat4` src/mat4.cpp:218-221 -/
def M4.ne [BEq α] (first second : M4 α) : Bool := !(M4.eq first second)

/-- `mat4 += const mat4&` src/mat4.cpp:147-150, on a store: `this` and `first` may be the same address. -/
def M4.addAssign [Add α] (σ : Store (M4 α)) (this first : ℕ) : Store (M4 α) :=
  Function.update σ this (σ this + σ first)

/-- `mat4 -= const mat4&` src/mat4.cpp:152-155, on a store: `this` and `first` may be the same address. -/
def M4.subAssign [Sub α] (σ : Store (M4 α)) (this first : ℕ) : Store (M4 α) :=
  Function.update σ this (σ this - σ first)

/-- `mat4 *= const mat4&` src/mat4.cpp:157-160, on a store: `this` and `first` may be the same address. -/
def M4.mulAssign [Add α] [Mul α] (σ : Store (M4 α)) (this first : ℕ) : Store (M4 α) :=
  Function.update σ this (σ this * σ first)

section simp
@[simp] theorem M2.add_c0 [Add α] (a b : M2 α) : (a + b).c0 = a.c0 + b.c0 := rfl
@[simp] theorem M2.sub_c0 [Sub α] (a b : M2 α) : (a - b).c0 = a.c0 - b.c0 := rfl
@[simp] theorem M2.neg_c0 [Neg α] (a : M2 α) : (-a).c0 = -a.c0 := rfl
@[simp] theorem M2.mulS_c0 [Mul α] (a : M2 α) (s : α) : (a * s).c0 = a.c0 * s := rfl
@[simp] theorem M2.Smul_c0 [Mul α] (a : M2 α) (s : α) : (s * a).c0 = s * a.c0 := rfl
@[simp] theorem M2.divS_c0 [Div α] (a : M2 α) (s : α) : (a / s).c0 = a.c0 / s := rfl
@[simp] theorem M2.Sdiv_c0 [Div α] (a : M2 α) (s : α) : (s / a).c0 = s / a.c0 := rfl
@[simp] theorem M2.add_c1 [Add α] (a b : M2 α) : (a + b).c1 = a.c1 + b.c1 := rfl
@[simp] theorem M2.sub_c1 [Sub α] (a b : M2 α) : (a - b).c1 = a.c1 - b.c1 := rfl
@[simp] theorem M2.neg_c1 [Neg α] (a : M2 α) : (-a).c1 = -a.c1 := rfl
@[simp] theorem M2.mulS_c1 [Mul α] (a : M2 α) (s : α) : (a * s).c1 = a.c1 * s := rfl
@[simp] theorem M2.Smul_c1 [Mul α] (a : M2 α) (s : α) : (s * a).c1 = s * a.c1 := rfl
@[simp] theorem M2.divS_c1 [Div α] (a : M2 α) (s : α) : (a / s).c1 = a.c1 / s := rfl
@[simp] theorem M2.Sdiv_c1 [Div α] (a : M2 α) (s : α) : (s / a).c1 = s / a.c1 := rfl
@[simp] theorem M3.add_c0 [Add α] (a b : M3 α) : (a + b).c0 = a.c0 + b.c0 := rfl
@[simp] theorem M3.sub_c0 [Sub α] (a b : M3 α) : (a - b).c0 = a.c0 - b.c0 := rfl
@[simp] theorem M3.neg_c0 [Neg α] (a : M3 α) : (-a).c0 = -a.c0 := rfl
@[simp] theorem M3.mulS_c0 [Mul α] (a : M3 α) (s : α) : (a * s).c0 = a.c0 * s := rfl
@[simp] theorem M3.Smul_c0 [Mul α] (a : M3 α) (s : α) : (s * a).c0 = s * a.c0 := rfl
@[simp] theorem M3.divS_c0 [Div α] (a : M3 α) (s : α) : (a / s).c0 = a.c0 / s := rfl
@[simp] theorem M3.Sdiv_c0 [Div α] (a : M3 α) (s : α) : (s / a).c0 = s / a.c0 := rfl
@[simp] theorem M3.add_c1 [Add α] (a b : M3 α) : (a + b).c1 = a.c1 + b.c1 := rfl
@[simp] theorem M3.sub_c1 [Sub α] (a b : M3 α) : (a - b).c1 = a.c1 - b.c1 := rfl
@[simp] theorem M3.neg_c1 [Neg α] (a : M3 α) : (-a).c1 = -a.c1 := rfl
@[simp] theorem M3.mulS_c1 [Mul α] (a : M3 α) (s : α) : (a * s).c1 = a.c1 * s := rfl
@[simp] theorem M3.Smul_c1 [Mul α] (a : M3 α) (s : α) : (s * a).c1 = s * a.c1 := rfl
@[simp] theorem M3.divS_c1 [Div α] (a : M3 α) (s : α) : (a / s).c1 = a.c1 / s := rfl
@[simp] theorem M3.Sdiv_c1 [Div α] (a : M3 α) (s : α) : (s / a).c1 = s / a.c1 := rfl
@[simp] theorem M3.add_c2 [Add α] (a b : M3 α) : (a + b).c2 = a.c2 + b.c2 := rfl
@[simp] theorem M3.sub_c2 [Sub α] (a b : M3 α) : (a - b).c2 = a.c2 - b.c2 := rfl
@[simp] theorem M3.neg_c2 [Neg α] (a : M3 α) : (-a).c2 = -a.c2 := rfl
@[simp] theorem M3.mulS_c2 [Mul α] (a : M3 α) (s : α) : (a * s).c2 = a.c2 * s := rfl
@[simp] theorem M3.Smul_c2 [Mul α] (a : M3 α) (s : α) : (s * a).c2 = s * a.c2 := rfl
@[simp] theorem M3.divS_c2 [Div α] (a : M3 α) (s : α) : (a / s).c2 = a.c2 / s := rfl
@[simp] theorem M3.Sdiv_c2 [Div α] (a : M3 α) (s : α) : (s / a).c2 = s / a.c2 := rfl
@[simp] theorem M4.add_c0 [Add α] (a b : M4 α) : (a + b).c0 = a.c0 + b.c0 := rfl
@[simp] theorem M4.sub_c0 [Sub α] (a b : M4 α) : (a - b).c0 = a.c0 - b.c0 := rfl
@[simp] theorem M4.neg_c0 [Neg α] (a : M4 α) : (-a).c0 = -a.c0 := rfl
@[simp] theorem M4.mulS_c0 [Mul α] (a : M4 α) (s : α) : (a * s).c0 = a.c0 * s := rfl
@[simp] theorem M4.Smul_c0 [Mul α] (a : M4 α) (s : α) : (s * a).c0 = s * a.c0 := rfl
@[simp] theorem M4.divS_c0 [Div α] (a : M4 α) (s : α) : (a / s).c0 = a.c0 / s := rfl
@[simp] theorem M4.Sdiv_c0 [Div α] (a : M4 α) (s : α) : (s / a).c0 = s / a.c0 := rfl
@[simp] theorem M4.add_c1 [Add α] (a b : M4 α) : (a + b).c1 = a.c1 + b.c1 := rfl
@[simp] theorem M4.sub_c1 [Sub α] (a b : M4 α) : (a - b).c1 = a.c1 - b.c1 := rfl
@[simp] theorem M4.neg_c1 [Neg α] (a : M4 α) : (-a).c1 = -a.c1 := rfl
@[simp] theorem M4.mulS_c1 [Mul α] (a : M4 α) (s : α) : (a * s).c1 = a.c1 * s := rfl
@[simp] theorem M4.Smul_c1 [Mul α] (a : M4 α) (s : α) : (s * a).c1 = s * a.c1 := rfl
@[simp] theorem M4.divS_c1 [Div α] (a : M4 α) (s : α) : (a / s).c1 = a.c1 / s := rfl
@[simp] theorem M4.Sdiv_c1 [Div α] (a : M4 α) (s : α) : (s / a).c1 = s / a.c1 := rfl
@[simp] theorem M4.add_c2 [Add α] (a b : M4 α) : (a + b).c2 = a.c2 + b.c2 := rfl
@[simp] theorem M4.sub_c2 [Sub α] (a b : M4 α) : (a - b).c2 = a.c2 - b.c2 := rfl
@[simp] theorem M4.neg_c2 [Neg α] (a : M4 α) : (-a).c2 = -a.c2 := rfl
@[simp] theorem M4.mulS_c2 [Mul α] (a : M4 α) (s : α) : (a * s).c2 = a.c2 * s := rfl
@[simp] theorem M4.Smul_c2 [Mul α] (a : M4 α) (s : α) : (s * a).c2 = s * a.c2 := rfl
@[simp] theorem M4.divS_c2 [Div α] (a : M4 α) (s : α) : (a / s).c2 = a.c2 / s := rfl
@[simp] theorem M4.Sdiv_c2 [Div α] (a : M4 α) (s : α) : (s / a).c2 = s / a.c2 := rfl
@[simp] theorem M4.add_c3 [Add α] (a b : M4 α) : (a + b).c3 = a.c3 + b.c3 := rfl
@[simp] theorem M4.sub_c3 [Sub α] (a b : M4 α) : (a - b).c3 = a.c3 - b.c3 := rfl
@[simp] theorem M4.neg_c3 [Neg α] (a : M4 α) : (-a).c3 = -a.c3 := rfl
@[simp] theorem M4.mulS_c3 [Mul α] (a : M4 α) (s : α) : (a * s).c3 = a.c3 * s := rfl
@[simp] theorem M4.Smul_c3 [Mul α] (a : M4 α) (s : α) : (s * a).c3 = s * a.c3 := rfl
@[simp] theorem M4.divS_c3 [Div α] (a : M4 α) (s : α) : (a / s).c3 = a.c3 / s := rfl
@[simp] theorem M4.Sdiv_c3 [Div α] (a : M4 α) (s : α) : (s / a).c3 = s / a.c3 := rfl
end simp

end Zcm
