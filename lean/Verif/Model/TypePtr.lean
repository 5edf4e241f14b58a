import Verif.Model.QuatBasic

/-!
# value_ptr

Model of src/type_ptr.cpp and of the memory layout it exposes.
-/

namespace Zcm

variable {α : Type} [Add α] [Sub α] [Mul α] [Div α] [Neg α] [FloatOps α] [Libm α]
  [LT α] [DecidableLT α] [LE α] [DecidableLE α] [BEq α]

/-- A pointer into an object: the object's elements in memory order and the offset pointed to.  Not a line of /repo: it is the
value returned by the functions of src/type_ptr.cpp.  The elements of a matrix are treated as one
block, as its users do (`sizeof(matN) == N*N*sizeof(float)` is asserted in src/matN.cpp). -/
structure Ptr (β : Type) where
  block : List β
  off : ℕ

/-- `ptr[i]` read; outside the object it is undefined. -/
def Ptr.read {β : Type} (p : Ptr β) (i : ℕ) : Res β :=
  match p.block[p.off + i]? with
  | some a => .ok a
  | none => .ub

/-- `ptr[i] = a`; outside the object it is undefined.  Gives the object's elements afterwards. -/
def Ptr.write {β : Type} (p : Ptr β) (i : ℕ) (a : β) : Res (List β) :=
  if p.off + i < p.block.length then .ok (p.block.set (p.off + i) a) else .ub

/-- memory order of `vec2` / `ivec2` / `bvec2`: include/zcm/vec2.hpp `_data[2]`; include/zcm/bvec2.hpp members in declaration order -/
def V2.layout {β : Type} (v : V2 β) : List β := [v.x, v.y]

/-- memory order of `vec3` / `ivec3` / `bvec3`: include/zcm/vec3.hpp `_data[3]`; include/zcm/bvec3.hpp members in declaration order -/
def V3.layout {β : Type} (v : V3 β) : List β := [v.x, v.y, v.z]

/-- memory order of `vec4` / `ivec4` / `bvec4`: include/zcm/vec4.hpp `_data[4]`; include/zcm/bvec4.hpp members in declaration order -/
def V4.layout {β : Type} (v : V4 β) : List β := [v.x, v.y, v.z, v.w]

/-- memory order of `quat`: include/zcm/quat.hpp, members `x, y, z, w` -/
def Quat.layout (q : Quat α) : List α := [q.x, q.y, q.z, q.w]

/-- memory order of `mat2`: include/zcm/mat2.hpp `_columns[2]` -/
def M2.layout (m : M2 α) : List α := m.c0.layout ++ m.c1.layout

/-- memory order of `mat3`: include/zcm/mat3.hpp `_columns[3]` -/
def M3.layout (m : M3 α) : List α := m.c0.layout ++ m.c1.layout ++ m.c2.layout

/-- memory order of `mat4`: include/zcm/mat4.hpp `_columns[4]` -/
def M4.layout (m : M4 α) : List α := m.c0.layout ++ m.c1.layout ++ m.c2.layout ++ m.c3.layout

/-- `value_ptr(bvec2&)` src/type_ptr.cpp:14-17,67-70: `&val.x` -/
def BV2.value_ptr (val : V2 Bool) : Ptr Bool := ⟨val.layout, 0⟩

/-- `value_ptr(bvec3&)` src/type_ptr.cpp:19-22,72-75: `&val.x` -/
def BV3.value_ptr (val : V3 Bool) : Ptr Bool := ⟨val.layout, 0⟩

/-- `value_ptr(bvec4&)` src/type_ptr.cpp:24-27,77-80: `&val.x` -/
def BV4.value_ptr (val : V4 Bool) : Ptr Bool := ⟨val.layout, 0⟩

/-- `value_ptr(vec2&)` src/type_ptr.cpp:29-32,82-85: `&val[0]` -/
def V2.value_ptr (val : V2 α) : Ptr α := ⟨val.layout, 0⟩

/-- `value_ptr(vec3&)` src/type_ptr.cpp:34-37,87-90: `&val[0]` -/
def V3.value_ptr (val : V3 α) : Ptr α := ⟨val.layout, 0⟩

/-- `value_ptr(vec4&)` src/type_ptr.cpp:39-42,92-95: `&val[0]` -/
def V4.value_ptr (val : V4 α) : Ptr α := ⟨val.layout, 0⟩

/-- `value_ptr(quat&)` src/type_ptr.cpp:44-47,97-100: `&val.x` -/
def Quat.value_ptr (val : Quat α) : Ptr α := ⟨val.layout, 0⟩

/-- `value_ptr(mat2&)` src/type_ptr.cpp:49-52,102-105: `&val._columns[0][0]` -/
def M2.value_ptr (val : M2 α) : Ptr α := ⟨val.layout, 0⟩

/-- `value_ptr(mat3&)` src/type_ptr.cpp:54-57,107-110: `&val._columns[0][0]` -/
def M3.value_ptr (val : M3 α) : Ptr α := ⟨val.layout, 0⟩

/-- `value_ptr(mat4&)` src/type_ptr.cpp:59-62,112-115: `&val._columns[0][0]` -/
def M4.value_ptr (val : M4 α) : Ptr α := ⟨val.layout, 0⟩

end Zcm
