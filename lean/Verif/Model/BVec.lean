import Verif.Model.Vec

/-!
# bvec2, bvec3, bvec4

Model of src/bvec2.cpp, src/bvec3.cpp, src/bvec4.cpp.
-/

namespace Zcm

/-! ## bvec2 -/

/-- `bvec2(bool value)` src/bvec2.cpp:14-17 -/
def BV2.splat (value : Bool) : V2 Bool := ⟨value, value⟩

/-- `bvec2(bool, bool)` src/bvec2.cpp:19-22 -/
def BV2.ofXY (x y : Bool) : V2 Bool := ⟨x, y⟩

/-- `bvec2()` src/bvec2.cpp:10-12 -/
def BV2.default : V2 Bool := BV2.splat false

/-- `make_bvec2(const bool* ptr)` src/bvec2.cpp:157-161 -/
def BV2.make (b : Build) (ptr : Option (ℕ → Bool)) : Res (V2 Bool) := do
  cassert b ptr.isSome
  match ptr with
  | some p => pure ⟨p 0, p 1⟩
  | none => Res.ub

/-- `bvec2 && bvec2` src/bvec2.cpp:24-28 -/
def BV2.and (first second : V2 Bool) : V2 Bool := ⟨first.x && second.x, first.y && second.y⟩

/-- `bvec2 && bool` src/bvec2.cpp:30-34 -/
def BV2.andS (vec : V2 Bool) (scalar : Bool) : V2 Bool := ⟨vec.x && scalar, vec.y && scalar⟩

/-- `bool && bvec2` src/bvec2.cpp:36-40 -/
def BV2.sAnd (scalar : Bool) (vec : V2 Bool) : V2 Bool := ⟨vec.x && scalar, vec.y && scalar⟩

/-- `bvec2 || bvec2` src/bvec2.cpp:43-47 -/
def BV2.or (first second : V2 Bool) : V2 Bool := ⟨first.x || second.x, first.y || second.y⟩

/-- `bvec2 || bool` src/bvec2.cpp:49-53 -/
def BV2.orS (vec : V2 Bool) (scalar : Bool) : V2 Bool := ⟨vec.x || scalar, vec.y || scalar⟩

/-- `bool || bvec2` src/bvec2.cpp:55-59 -/
def BV2.sOr (scalar : Bool) (vec : V2 Bool) : V2 Bool := ⟨vec.x || scalar, vec.y || scalar⟩

/-- `bvec2 ^ bvec2` src/bvec2.cpp:62-66 -/
def BV2.xor (first second : V2 Bool) : V2 Bool := ⟨first.x ^^ second.x, first.y ^^ second.y⟩

/-- `bvec2 ^ bool` src/bvec2.cpp:68-72 -/
def BV2.xorS (vec : V2 Bool) (scalar : Bool) : V2 Bool := ⟨vec.x ^^ scalar, vec.y ^^ scalar⟩

/-- `bool ^ bvec2` src/bvec2.cpp:74-78 -/
def BV2.sXor (scalar : Bool) (vec : V2 Bool) : V2 Bool := ⟨vec.x ^^ scalar, vec.y ^^ scalar⟩

/-- `!bvec2` src/bvec2.cpp:80-84 -/
def BV2.not (first : V2 Bool) : V2 Bool := ⟨!first.x, !first.y⟩

/-- `bvec2 &= bool` src/bvec2.cpp:87-91 -/
def BV2.andAssignS (this : V2 Bool) (scalar : Bool) : V2 Bool :=
  let this := { this with x := this.x && scalar }
  let this := { this with y := this.y && scalar }
  this

/-- `bvec2 &= bvec2` src/bvec2.cpp:105-109 -/
def BV2.andAssign (this other : V2 Bool) : V2 Bool :=
  let this := { this with x := this.x && other.x }
  let this := { this with y := this.y && other.y }
  this

/-- `bvec2 |= bool` src/bvec2.cpp:93-97 -/
def BV2.orAssignS (this : V2 Bool) (scalar : Bool) : V2 Bool :=
  let this := { this with x := this.x || scalar }
  let this := { this with y := this.y || scalar }
  this

/-- `bvec2 |= bvec2` src/bvec2.cpp:111-115 -/
def BV2.orAssign (this other : V2 Bool) : V2 Bool :=
  let this := { this with x := this.x || other.x }
  let this := { this with y := this.y || other.y }
  this

/-- `bvec2 ^= bool` src/bvec2.cpp:99-103 -/
def BV2.xorAssignS (this : V2 Bool) (scalar : Bool) : V2 Bool :=
  let this := { this with x := this.x ^^ scalar }
  let this := { this with y := this.y ^^ scalar }
  this

/-- `bvec2 ^= bvec2` src/bvec2.cpp:117-121 -/
def BV2.xorAssign (this other : V2 Bool) : V2 Bool :=
  let this := { this with x := this.x ^^ other.x }
  let this := { this with y := this.y ^^ other.y }
  this

/-- `bvec2 == bvec2` src/bvec2.cpp:123-126 -/
def BV2.eq (first second : V2 Bool) : Bool :=
  first.x == second.x && first.y == second.y

/-- `bvec2 != bvec2` src/bvec2.cpp:128-131 -/
def BV2.ne (first second : V2 Bool) : Bool := !(BV2.eq first second)

/-- reading `v[val]` src/bvec2.cpp:145-155 -/
def BV2.at (b : Build) (this : V2 Bool) (val : UInt32) : Res Bool := do
  cassert b (val < 3)
  if val == 0 then pure this.x
  else pure this.y

/-- writing `v[val] = a` through the reference of src/bvec2.cpp:133-143 -/
def BV2.set (b : Build) (this : V2 Bool) (val : UInt32) (a : Bool) : Res (V2 Bool) := do
  cassert b (val < 3)
  if val == 0 then pure { this with x := a }
  else pure { this with y := a }

/-! ## bvec3 -/

/-- `bvec3(bool value)` src/bvec3.cpp:14-18 -/
def BV3.splat (value : Bool) : V3 Bool := ⟨value, value, value⟩

/-- `bvec3(bool, bool, bool)` src/bvec3.cpp:20-24 -/
def BV3.ofXYZ (x y z : Bool) : V3 Bool := ⟨x, y, z⟩

/-- `bvec3()` src/bvec3.cpp:10-12 -/
def BV3.default : V3 Bool := BV3.splat false

/-- `bvec3(bvec2 xy, bool z)` src/bvec3.cpp:26-30 -/
def BV3.ofXY_Z (xy : V2 Bool) (z : Bool) : V3 Bool := ⟨xy.x, xy.y, z⟩

/-- `bvec3(bool x, bvec2 yz)` src/bvec3.cpp:32-36 -/
def BV3.ofX_YZ (x : Bool) (yz : V2 Bool) : V3 Bool := ⟨x, yz.x, yz.y⟩

/-- `make_bvec3(const bool* ptr)` src/bvec3.cpp:194-198 -/
def BV3.make (b : Build) (ptr : Option (ℕ → Bool)) : Res (V3 Bool) := do
  cassert b ptr.isSome
  match ptr with
  | some p => pure ⟨p 0, p 1, p 2⟩
  | none => Res.ub

/-- `bvec3 && bvec3` src/bvec3.cpp:39-44 -/
def BV3.and (first second : V3 Bool) : V3 Bool := ⟨first.x && second.x, first.y && second.y, first.z && second.z⟩

/-- `bvec3 && bool` src/bvec3.cpp:46-51 -/
def BV3.andS (vec : V3 Bool) (scalar : Bool) : V3 Bool := ⟨vec.x && scalar, vec.y && scalar, vec.z && scalar⟩

/-- `bool && bvec3` src/bvec3.cpp:53-58 -/
def BV3.sAnd (scalar : Bool) (vec : V3 Bool) : V3 Bool := ⟨vec.x && scalar, vec.y && scalar, vec.z && scalar⟩

/-- `bvec3 || bvec3` src/bvec3.cpp:61-66 -/
def BV3.or (first second : V3 Bool) : V3 Bool := ⟨first.x || second.x, first.y || second.y, first.z || second.z⟩

/-- `bvec3 || bool` src/bvec3.cpp:68-73 -/
def BV3.orS (vec : V3 Bool) (scalar : Bool) : V3 Bool := ⟨vec.x || scalar, vec.y || scalar, vec.z || scalar⟩

/-- `bool || bvec3` src/bvec3.cpp:75-80 -/
def BV3.sOr (scalar : Bool) (vec : V3 Bool) : V3 Bool := ⟨vec.x || scalar, vec.y || scalar, vec.z || scalar⟩

/-- `bvec3 ^ bvec3` src/bvec3.cpp:83-88 -/
def BV3.xor (first second : V3 Bool) : V3 Bool := ⟨first.x ^^ second.x, first.y ^^ second.y, first.z ^^ second.z⟩

/-- `bvec3 ^ bool` src/bvec3.cpp:90-95 -/
def BV3.xorS (vec : V3 Bool) (scalar : Bool) : V3 Bool := ⟨vec.x ^^ scalar, vec.y ^^ scalar, vec.z ^^ scalar⟩

/-- `bool ^ bvec3` src/bvec3.cpp:97-102 -/
def BV3.sXor (scalar : Bool) (vec : V3 Bool) : V3 Bool := ⟨vec.x ^^ scalar, vec.y ^^ scalar, vec.z ^^ scalar⟩

/-- `!bvec3` src/bvec3.cpp:104-109 -/
def BV3.not (first : V3 Bool) : V3 Bool := ⟨!first.x, !first.y, !first.z⟩

/-- `bvec3 &= bool` src/bvec3.cpp:111-116 -/
def BV3.andAssignS (this : V3 Bool) (scalar : Bool) : V3 Bool :=
  let this := { this with x := this.x && scalar }
  let this := { this with y := this.y && scalar }
  let this := { this with z := this.z && scalar }
  this

/-- `bvec3 &= bvec3` src/bvec3.cpp:132-137 -/
def BV3.andAssign (this other : V3 Bool) : V3 Bool :=
  let this := { this with x := this.x && other.x }
  let this := { this with y := this.y && other.y }
  let this := { this with z := this.z && other.z }
  this

/-- `bvec3 |= bool` src/bvec3.cpp:118-123 -/
def BV3.orAssignS (this : V3 Bool) (scalar : Bool) : V3 Bool :=
  let this := { this with x := this.x || scalar }
  let this := { this with y := this.y || scalar }
  let this := { this with z := this.z || scalar }
  this

/-- `bvec3 |= bvec3` src/bvec3.cpp:139-144 -/
def BV3.orAssign (this other : V3 Bool) : V3 Bool :=
  let this := { this with x := this.x || other.x }
  let this := { this with y := this.y || other.y }
  let this := { this with z := this.z || other.z }
  this

/-- `bvec3 ^= bool` src/bvec3.cpp:125-130 -/
def BV3.xorAssignS (this : V3 Bool) (scalar : Bool) : V3 Bool :=
  let this := { this with x := this.x ^^ scalar }
  let this := { this with y := this.y ^^ scalar }
  let this := { this with z := this.z ^^ scalar }
  this

/-- `bvec3 ^= bvec3` src/bvec3.cpp:146-151 -/
def BV3.xorAssign (this other : V3 Bool) : V3 Bool :=
  let this := { this with x := this.x ^^ other.x }
  let this := { this with y := this.y ^^ other.y }
  let this := { this with z := this.z ^^ other.z }
  this

/-- `bvec3 == bvec3` src/bvec3.cpp:153-156 -/
def BV3.eq (first second : V3 Bool) : Bool :=
  first.x == second.x && first.y == second.y && first.z == second.z

/-- `bvec3 != bvec3` src/bvec3.cpp:158-161 -/
def BV3.ne (first second : V3 Bool) : Bool := !(BV3.eq first second)

/-- reading `v[val]` src/bvec3.cpp:179-192 -/
def BV3.at (b : Build) (this : V3 Bool) (val : UInt32) : Res Bool := do
  cassert b (val < 3)
  if val == 0 then pure this.x
  else if val == 1 then pure this.y
  else pure this.z

/-- writing `v[val] = a` through the reference of src/bvec3.cpp:164-177 -/
def BV3.set (b : Build) (this : V3 Bool) (val : UInt32) (a : Bool) : Res (V3 Bool) := do
  cassert b (val < 3)
  if val == 0 then pure { this with x := a }
  else if val == 1 then pure { this with y := a }
  else pure { this with z := a }

/-! ## bvec4 -/

/-- `bvec4(bool value)` src/bvec4.cpp:14-19 -/
def BV4.splat (value : Bool) : V4 Bool := ⟨value, value, value, value⟩

/-- `bvec4(bool, bool, bool, bool)` src/bvec4.cpp:20-25 -/
def BV4.ofXYZW (x y z w : Bool) : V4 Bool := ⟨x, y, z, w⟩

/-- `bvec4()` src/bvec4.cpp:10-12 -/
def BV4.default : V4 Bool := BV4.splat false

/-- `bvec4(bvec3 xyz, bool w)` src/bvec4.cpp:27-32 -/
def BV4.ofXYZ_W (xyz : V3 Bool) (w : Bool) : V4 Bool := ⟨xyz.x, xyz.y, xyz.z, w⟩

/-- `bvec4(bool x, bvec3 yzw)` src/bvec4.cpp:34-39 -/
def BV4.ofX_YZW (x : Bool) (yzw : V3 Bool) : V4 Bool := ⟨x, yzw.x, yzw.y, yzw.z⟩

/-- `bvec4(bvec2 xy, bvec2 zw)` src/bvec4.cpp:41-46 -/
def BV4.ofXY_ZW (xy zw : V2 Bool) : V4 Bool := ⟨xy.x, xy.y, zw.x, zw.y⟩

/-- `bvec4(bvec2 xy, bool z, bool w)` src/bvec4.cpp:48-53 -/
def BV4.ofXY_Z_W (xy : V2 Bool) (z w : Bool) : V4 Bool := ⟨xy.x, xy.y, z, w⟩

/-- `bvec4(bool x, bvec2 yz, bool w)` src/bvec4.cpp:55-60 -/
def BV4.ofX_YZ_W (x : Bool) (yz : V2 Bool) (w : Bool) : V4 Bool := ⟨x, yz.x, yz.y, w⟩

/-- `bvec4(bool x, bool y, bvec2 zw)` src/bvec4.cpp:62-67 -/
def BV4.ofX_Y_ZW (x y : Bool) (zw : V2 Bool) : V4 Bool := ⟨x, y, zw.x, zw.y⟩

/-- `make_bvec4(const bool* ptr)` src/bvec4.cpp:245-249 -/
def BV4.make (b : Build) (ptr : Option (ℕ → Bool)) : Res (V4 Bool) := do
  cassert b ptr.isSome
  match ptr with
  | some p => pure ⟨p 0, p 1, p 2, p 3⟩
  | none => Res.ub

/-- `bvec4 && bvec4` src/bvec4.cpp:70-76 -/
def BV4.and (first second : V4 Bool) : V4 Bool := ⟨first.x && second.x, first.y && second.y, first.z && second.z, first.w && second.w⟩

/-- `bvec4 && bool` src/bvec4.cpp:78-84 -/
def BV4.andS (vec : V4 Bool) (scalar : Bool) : V4 Bool := ⟨vec.x && scalar, vec.y && scalar, vec.z && scalar, vec.w && scalar⟩

/-- `bool && bvec4` src/bvec4.cpp:86-92 -/
def BV4.sAnd (scalar : Bool) (vec : V4 Bool) : V4 Bool := ⟨vec.x && scalar, vec.y && scalar, vec.z && scalar, vec.w && scalar⟩

/-- `bvec4 || bvec4` src/bvec4.cpp:95-101 -/
def BV4.or (first second : V4 Bool) : V4 Bool := ⟨first.x || second.x, first.y || second.y, first.z || second.z, first.w || second.w⟩

/-- `bvec4 || bool` src/bvec4.cpp:103-109 -/
def BV4.orS (vec : V4 Bool) (scalar : Bool) : V4 Bool := ⟨vec.x || scalar, vec.y || scalar, vec.z || scalar, vec.w || scalar⟩

/-- `bool || bvec4` src/bvec4.cpp:111-117 -/
def BV4.sOr (scalar : Bool) (vec : V4 Bool) : V4 Bool := ⟨vec.x || scalar, vec.y || scalar, vec.z || scalar, vec.w || scalar⟩

/-- `bvec4 ^ bvec4` src/bvec4.cpp:120-126 -/
def BV4.xor (first second : V4 Bool) : V4 Bool := ⟨first.x ^^ second.x, first.y ^^ second.y, first.z ^^ second.z, first.w ^^ second.w⟩

/-- `bvec4 ^ bool` src/bvec4.cpp:128-134 -/
def BV4.xorS (vec : V4 Bool) (scalar : Bool) : V4 Bool := ⟨vec.x ^^ scalar, vec.y ^^ scalar, vec.z ^^ scalar, vec.w ^^ scalar⟩

/-- `bool ^ bvec4` src/bvec4.cpp:136-142 -/
def BV4.sXor (scalar : Bool) (vec : V4 Bool) : V4 Bool := ⟨vec.x ^^ scalar, vec.y ^^ scalar, vec.z ^^ scalar, vec.w ^^ scalar⟩

/-- `!bvec4` src/bvec4.cpp:144-150 -/
def BV4.not (first : V4 Bool) : V4 Bool := ⟨!first.x, !first.y, !first.z, !first.w⟩

/-- `bvec4 &= bool` src/bvec4.cpp:162-168 -/
def BV4.andAssignS (this : V4 Bool) (scalar : Bool) : V4 Bool :=
  let this := { this with x := this.x && scalar }
  let this := { this with y := this.y && scalar }
  let this := { this with z := this.z && scalar }
  let this := { this with w := this.w && scalar }
  this

/-- `bvec4 &= bvec4` src/bvec4.cpp:186-192 -/
def BV4.andAssign (this other : V4 Bool) : V4 Bool :=
  let this := { this with x := this.x && other.x }
  let this := { this with y := this.y && other.y }
  let this := { this with z := this.z && other.z }
  let this := { this with w := this.w && other.w }
  this

/-- `bvec4 |= bool` src/bvec4.cpp:170-176 -/
def BV4.orAssignS (this : V4 Bool) (scalar : Bool) : V4 Bool :=
  let this := { this with x := this.x || scalar }
  let this := { this with y := this.y || scalar }
  let this := { this with z := this.z || scalar }
  let this := { this with w := this.w || scalar }
  this

/-- `bvec4 |= bvec4` src/bvec4.cpp:194-200 -/
def BV4.orAssign (this other : V4 Bool) : V4 Bool :=
  let this := { this with x := this.x || other.x }
  let this := { this with y := this.y || other.y }
  let this := { this with z := this.z || other.z }
  let this := { this with w := this.w || other.w }
  this

/-- `bvec4 ^= bool` src/bvec4.cpp:178-184 -/
def BV4.xorAssignS (this : V4 Bool) (scalar : Bool) : V4 Bool :=
  let this := { this with x := this.x ^^ scalar }
  let this := { this with y := this.y ^^ scalar }
  let this := { this with z := this.z ^^ scalar }
  let this := { this with w := this.w ^^ scalar }
  this

/-- `bvec4 ^= bvec4` src/bvec4.cpp:202-208 -/
def BV4.xorAssign (this other : V4 Bool) : V4 Bool :=
  let this := { this with x := this.x ^^ other.x }
  let this := { this with y := this.y ^^ other.y }
  let this := { this with z := this.z ^^ other.z }
  let this := { this with w := this.w ^^ other.w }
  this

/-- `bvec4 == bvec4` src/bvec4.cpp:152-155 -/
def BV4.eq (first second : V4 Bool) : Bool :=
  first.x == second.x && first.y == second.y && first.z == second.z && first.w == second.w

/-- `bvec4 != bvec4` src/bvec4.cpp:157-160 -/
def BV4.ne (first second : V4 Bool) : Bool := !(BV4.eq first second)

/-- reading `v[val]` src/bvec4.cpp:228-243 -/
def BV4.at (b : Build) (this : V4 Bool) (val : UInt32) : Res Bool := do
  cassert b (val < 4)
  if val == 0 then pure this.x
  else if val == 1 then pure this.y
  else if val == 2 then pure this.z
  else pure this.w

/-- writing `v[val] = a` through the reference of src/bvec4.cpp:211-226 -/
def BV4.set (b : Build) (this : V4 Bool) (val : UInt32) (a : Bool) : Res (V4 Bool) := do
  cassert b (val < 4)
  if val == 0 then pure { this with x := a }
  else if val == 1 then pure { this with y := a }
  else if val == 2 then pure { this with z := a }
  else pure { this with w := a }

end Zcm
