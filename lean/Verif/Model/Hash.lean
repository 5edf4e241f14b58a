import Verif.Model.QuatBasic

/-!
# Hash functions

Model of src/hash.cpp for a 64-bit `size_t` and 32-bit `unsigned`/`int`.
-/

namespace Zcm

variable {α : Type} [Add α] [Sub α] [Mul α] [Div α] [Neg α] [FloatOps α] [Libm α]
  [LT α] [DecidableLT α] [LE α] [DecidableLE α] [BEq α]

/-- The object representation of a `float`, read by `std::memcpy` at src/hash.cpp:20-21. -/
class FloatBits (α : Type) where
  /-- the 32 bits of the value -/
  bits : α → BitVec 32

/-- `hash(unsigned)` src/hash.cpp:119-122; `size_t` is 64 bits wide -/
def hashUnsigned (val : BitVec 32) : BitVec 64 := val.setWidth 64 * 1273103906433186827#64

/-- `hash(int)` src/hash.cpp:114-117: the `int` converts to `unsigned long long` modulo 2⁶⁴ -/
def I.hash (val : I32) : BitVec 64 := BitVec.ofInt 64 val.toInt * 1273103906433186827#64

/-- `hash(bool)` src/hash.cpp:109-112 -/
def B.hash (x : Bool) : BitVec 64 := if x then 14946564255682567559#64 else 9039655308336254491#64

/-- `float_hash` src/hash.cpp:17-23 -/
def float_hash [FloatBits α] (f : α) : BitVec 64 := hashUnsigned (FloatBits.bits f)

/-- `hash(float)` src/hash.cpp:25-29 -/
def F.hash [FloatBits α] (f : α) : BitVec 64 :=
  let h := float_hash f
  ((~~~h) <<< 32) ||| h

/-- `hash(vec2)` src/hash.cpp:31-36 -/
def V2.hash [FloatBits α] (v : V2 α) : BitVec 64 :=
  let hx := float_hash v.x
  let hy := float_hash v.y
  (hx <<< 32) ||| hy

/-- `hash(vec3)` src/hash.cpp:38-44 -/
def V3.hash [FloatBits α] (v : V3 α) : BitVec 64 :=
  let hx := float_hash v.x
  let hy := float_hash v.y
  let hz := float_hash v.z
  ((hx <<< 32) ||| hy) ^^^ (hz <<< 16)

/-- `hash(vec4)` src/hash.cpp:46-53 -/
def V4.hash [FloatBits α] (v : V4 α) : BitVec 64 :=
  let hx := float_hash v.x
  let hy := float_hash v.y
  let hz := float_hash v.z
  let hw := float_hash v.w
  ((hx <<< 32) ||| hy) ^^^ (hz <<< 16) ^^^ hw

/-- `hash(quat)` src/hash.cpp:55-62 -/
def Quat.hash [FloatBits α] (v : Quat α) : BitVec 64 :=
  let hx := float_hash v.x
  let hy := float_hash v.y
  let hz := float_hash v.z
  let hw := float_hash v.w
  ((hx <<< 32) ||| hy) ^^^ (hz <<< 16) ^^^ hw

/-- `hash(mat2)` src/hash.cpp:64-67 -/
def M2.hash [FloatBits α] (m : M2 α) : BitVec 64 := V2.hash m.c0 ^^^ V2.hash m.c1

/-- `hash(mat3)` src/hash.cpp:69-72 -/
def M3.hash [FloatBits α] (m : M3 α) : BitVec 64 := V3.hash m.c0 ^^^ V3.hash m.c1 ^^^ V3.hash m.c2

/-- `hash(mat4)` src/hash.cpp:74-77 (the third operand is `hash(m[1])` again) -/
def M4.hash [FloatBits α] (m : M4 α) : BitVec 64 :=
  V4.hash m.c0 ^^^ V4.hash m.c1 ^^^ V4.hash m.c1 ^^^ V4.hash m.c3

/-- `hash(bvec2)` src/hash.cpp:79-82 -/
def BV2.hash (b : V2 Bool) : BitVec 64 := B.hash b.x ^^^ B.hash b.y

/-- `hash(ivec2)` src/hash.cpp:94-97 -/
def IV2.hash (v : V2 I32) : BitVec 64 := I.hash v.x ^^^ I.hash v.y

/-- `hash(bvec3)` src/hash.cpp:84-87 -/
def BV3.hash (b : V3 Bool) : BitVec 64 := B.hash b.x ^^^ B.hash b.y ^^^ B.hash b.z

/-- `hash(ivec3)` src/hash.cpp:99-102 -/
def IV3.hash (v : V3 I32) : BitVec 64 := I.hash v.x ^^^ I.hash v.y ^^^ I.hash v.z

/-- `hash(bvec4)` src/hash.cpp:89-92 -/
def BV4.hash (b : V4 Bool) : BitVec 64 := B.hash b.x ^^^ B.hash b.y ^^^ B.hash b.z ^^^ B.hash b.w

/-- `hash(ivec4)` src/hash.cpp:104-107 -/
def IV4.hash (v : V4 I32) : BitVec 64 := I.hash v.x ^^^ I.hash v.y ^^^ I.hash v.z ^^^ I.hash v.w

end Zcm
