import Verif.Model.Mat

/-!
# quat: type, arithmetic operators, subscripts

Model of src/quat.cpp except the constructors from vectors and the products with `vec3`
(those are in `Model/Quat.lean`).
-/

namespace Zcm

/-- `quat`: include/zcm/quat.hpp, members `float x, y, z, w` in this memory order. -/
@[ext] structure Quat (α : Type) where
  x : α
  y : α
  z : α
  w : α
  deriving DecidableEq, Repr

variable {α : Type} [Add α] [Sub α] [Mul α] [Div α] [Neg α] [FloatOps α] [Libm α]
  [LT α] [DecidableLT α] [LE α] [DecidableLE α] [BEq α]


/-- `quat(float w, float x, float y, float z)` src/quat.cpp:26-31 -/
def Quat.ofFloats (w x y z : α) : Quat α := { x := x, y := y, z := z, w := w }

/-- `quat::wxyz` src/quat.cpp:47-50 -/
def Quat.wxyz (w x y z : α) : Quat α := Quat.ofFloats w x y z

/-- `quat()` src/quat.cpp:16-21 -/
def Quat.default : Quat α := { x := lit 0, y := lit 0, z := lit 0, w := lit 1 }

/-- `quat(float s, vec3 v)` src/quat.cpp:33-38 -/
def Quat.ofSV (s : α) (v : V3 α) : Quat α := { x := v.x, y := v.y, z := v.z, w := s }

/-- `quat(vec3 v, float s)` src/quat.cpp:40-45 -/
def Quat.ofVS (v : V3 α) (s : α) : Quat α := { x := v.x, y := v.y, z := v.z, w := s }

/-- `make_quat(const float* ptr)` src/quat.cpp:88-96 -/
def Quat.make (b : Build) (ptr : Option (ℕ → α)) : Res (Quat α) := do
  cassert b ptr.isSome
  match ptr with
  | some p => pure { x := p 0, y := p 1, z := p 2, w := p 3 }
  | none => Res.ub

/-- reading `q[val]` src/quat.cpp:112-124 -/
def Quat.at (b : Build) (this : Quat α) (val : UInt32) : Res α := do
  cassert b (val < 4)
  match val.toNat with
  | 0 => pure this.x
  | 1 => pure this.y
  | 2 => pure this.z
  | _ => pure this.w

/-- writing `q[val] = a` through the reference of src/quat.cpp:98-110 -/
def Quat.set (b : Build) (this : Quat α) (val : UInt32) (a : α) : Res (Quat α) := do
  cassert b (val < 4)
  match val.toNat with
  | 0 => pure { this with x := a }
  | 1 => pure { this with y := a }
  | 2 => pure { this with z := a }
  | _ => pure { this with w := a }

/-- `quat += const quat&` src/quat.cpp:126-132 on a store: every statement re-reads both
objects, so `this = other` is the aliased call `q += q`. -/
def Quat.addAssign (σ : Store (Quat α)) (this other : ℕ) : Store (Quat α) :=
  let σ := Function.update σ this { σ this with x := (σ this).x + (σ other).x }
  let σ := Function.update σ this { σ this with y := (σ this).y + (σ other).y }
  let σ := Function.update σ this { σ this with z := (σ this).z + (σ other).z }
  let σ := Function.update σ this { σ this with w := (σ this).w + (σ other).w }
  σ

/-- `quat -= const quat&` src/quat.cpp:134-140 on a store -/
def Quat.subAssign (σ : Store (Quat α)) (this other : ℕ) : Store (Quat α) :=
  let σ := Function.update σ this { σ this with x := (σ this).x - (σ other).x }
  let σ := Function.update σ this { σ this with y := (σ this).y - (σ other).y }
  let σ := Function.update σ this { σ this with z := (σ this).z - (σ other).z }
  let σ := Function.update σ this { σ this with w := (σ this).w - (σ other).w }
  σ

/-- `quat *= const quat&` src/quat.cpp:142-158 on a store: all reads happen before the writes of
lines 154-157, which go one after the other. -/
def Quat.mulAssign (σ : Store (Quat α)) (this q2 : ℕ) : Store (Quat α) :=
  let ww := ((σ this).z + (σ this).x) * ((σ q2).x + (σ q2).y)
  let yy := ((σ this).w - (σ this).y) * ((σ q2).w + (σ q2).z)
  let zz := ((σ this).w + (σ this).y) * ((σ q2).w - (σ q2).z)
  let xx := ww + yy + zz
  let qq := lit 0.5 * (xx + ((σ this).z - (σ this).x) * ((σ q2).x - (σ q2).y))
  let _w := qq - ww + ((σ this).z - (σ this).y) * ((σ q2).y - (σ q2).z)
  let _x := qq - xx + ((σ this).x + (σ this).w) * ((σ q2).x + (σ q2).w)
  let _y := qq - yy + ((σ this).w - (σ this).x) * ((σ q2).y + (σ q2).z)
  let _z := qq - zz + ((σ this).z + (σ this).y) * ((σ q2).w - (σ q2).x)
  let σ := Function.update σ this { σ this with x := _x }
  let σ := Function.update σ this { σ this with y := _y }
  let σ := Function.update σ this { σ this with z := _z }
  let σ := Function.update σ this { σ this with w := _w }
  σ

/-- `quat *= float` src/quat.cpp:160-166 -/
def Quat.mulAssignS (this : Quat α) (scalar : α) : Quat α :=
  let this := { this with x := this.x * scalar }
  let this := { this with y := this.y * scalar }
  let this := { this with z := this.z * scalar }
  let this := { this with w := this.w * scalar }
  this

/-- `quat /= float` src/quat.cpp:168-174 -/
def Quat.divAssignS (this : Quat α) (scalar : α) : Quat α :=
  let this := { this with x := this.x / scalar }
  let this := { this with y := this.y / scalar }
  let this := { this with z := this.z / scalar }
  let this := { this with w := this.w / scalar }
  this

/-- `quat + quat` src/quat.cpp:176-182 -/
instance Quat.instAdd : Add (Quat α) :=
  ⟨fun a b => Quat.ofFloats (a.w + b.w) (a.x + b.x) (a.y + b.y) (a.z + b.z)⟩

/-- `quat - quat` src/quat.cpp:184-190 -/
instance Quat.instSub : Sub (Quat α) :=
  ⟨fun a b => Quat.ofFloats (a.w - b.w) (a.x - b.x) (a.y - b.y) (a.z - b.z)⟩

/-- unary `+quat` src/quat.cpp:192-198 -/
def Quat.pos (a : Quat α) : Quat α := Quat.ofFloats a.w a.x a.y a.z

/-- unary `-quat` src/quat.cpp:200-206 -/
instance Quat.instNeg : Neg (Quat α) := ⟨fun a => Quat.ofFloats (-a.w) (-a.x) (-a.y) (-a.z)⟩

/-- `quat * quat` src/quat.cpp:208-220 -/
instance Quat.instMul : Mul (Quat α) :=
  ⟨fun q1 q2 =>
    let ww := (q1.z + q1.x) * (q2.x + q2.y)
    let yy := (q1.w - q1.y) * (q2.w + q2.z)
    let zz := (q1.w + q1.y) * (q2.w - q2.z)
    let xx := ww + yy + zz
    let qq := lit 0.5 * (xx + (q1.z - q1.x) * (q2.x - q2.y))
    Quat.ofFloats
      (qq - ww + (q1.z - q1.y) * (q2.y - q2.z))
      (qq - xx + (q1.x + q1.w) * (q2.x + q2.w))
      (qq - yy + (q1.w - q1.x) * (q2.y + q2.z))
      (qq - zz + (q1.z + q1.y) * (q2.w - q2.x))⟩

/-- `quat * float` src/quat.cpp:222-228 -/
instance Quat.instMulS : HMul (Quat α) α (Quat α) :=
  ⟨fun q s => Quat.ofFloats (q.w * s) (q.x * s) (q.y * s) (q.z * s)⟩

/-- `float * quat` src/quat.cpp:230-236 -/
instance Quat.instSMul : HMul α (Quat α) (Quat α) :=
  ⟨fun s q => Quat.ofFloats (q.w * s) (q.x * s) (q.y * s) (q.z * s)⟩

/-- `float / quat` src/quat.cpp:238-244 -/
instance Quat.instSDiv : HDiv α (Quat α) (Quat α) :=
  ⟨fun s q => Quat.ofFloats (s / q.w) (s / q.x) (s / q.y) (s / q.z)⟩

/-- `quat / float` src/quat.cpp:246-252 -/
instance Quat.instDivS : HDiv (Quat α) α (Quat α) :=
  ⟨fun q s => Quat.ofFloats (q.w / s) (q.x / s) (q.y / s) (q.z / s)⟩

/-- `quat == quat` src/quat.cpp:268-271 -/
def Quat.eq (first second : Quat α) : Bool :=
  first.x == second.x && first.y == second.y && first.z == second.z && first.w == second.w

/-- `quat != quat` src/quat.cpp:273-276 -/
def Quat.ne (first second : Quat α) : Bool := !(Quat.eq first second)

section simp
omit [Add α] [Sub α] [Mul α] [Div α] [Neg α] [FloatOps α] [Libm α]
  [LT α] [DecidableLT α] [LE α] [DecidableLE α] [BEq α]
@[simp] theorem Quat.ofFloats_x (w x y z : α) : (Quat.ofFloats w x y z).x = x := rfl
@[simp] theorem Quat.wxyz_x (w x y z : α) : (Quat.wxyz w x y z).x = x := rfl
@[simp] theorem Quat.add_x [Add α] (a b : Quat α) : (a + b).x = a.x + b.x := rfl
@[simp] theorem Quat.sub_x [Sub α] (a b : Quat α) : (a - b).x = a.x - b.x := rfl
@[simp] theorem Quat.neg_x [Neg α] (a : Quat α) : (-a).x = -a.x := rfl
@[simp] theorem Quat.mulS_x [Mul α] (a : Quat α) (s : α) : (a * s).x = a.x * s := rfl
@[simp] theorem Quat.Smul_x [Mul α] (a : Quat α) (s : α) : (s * a).x = a.x * s := rfl
@[simp] theorem Quat.divS_x [Div α] (a : Quat α) (s : α) : (a / s).x = a.x / s := rfl
@[simp] theorem Quat.Sdiv_x [Div α] (a : Quat α) (s : α) : (s / a).x = s / a.x := rfl
@[simp] theorem Quat.ofFloats_y (w x y z : α) : (Quat.ofFloats w x y z).y = y := rfl
@[simp] theorem Quat.wxyz_y (w x y z : α) : (Quat.wxyz w x y z).y = y := rfl
@[simp] theorem Quat.add_y [Add α] (a b : Quat α) : (a + b).y = a.y + b.y := rfl
@[simp] theorem Quat.sub_y [Sub α] (a b : Quat α) : (a - b).y = a.y - b.y := rfl
@[simp] theorem Quat.neg_y [Neg α] (a : Quat α) : (-a).y = -a.y := rfl
@[simp] theorem Quat.mulS_y [Mul α] (a : Quat α) (s : α) : (a * s).y = a.y * s := rfl
@[simp] theorem Quat.Smul_y [Mul α] (a : Quat α) (s : α) : (s * a).y = a.y * s := rfl
@[simp] theorem Quat.divS_y [Div α] (a : Quat α) (s : α) : (a / s).y = a.y / s := rfl
@[simp] theorem Quat.Sdiv_y [Div α] (a : Quat α) (s : α) : (s / a).y = s / a.y := rfl
@[simp] theorem Quat.ofFloats_z (w x y z : α) : (Quat.ofFloats w x y z).z = z := rfl
@[simp] theorem Quat.wxyz_z (w x y z : α) : (Quat.wxyz w x y z).z = z := rfl
@[simp] theorem Quat.add_z [Add α] (a b : Quat α) : (a + b).z = a.z + b.z := rfl
@[simp] theorem Quat.sub_z [Sub α] (a b : Quat α) : (a - b).z = a.z - b.z := rfl
@[simp] theorem Quat.neg_z [Neg α] (a : Quat α) : (-a).z = -a.z := rfl
@[simp] theorem Quat.mulS_z [Mul α] (a : Quat α) (s : α) : (a * s).z = a.z * s := rfl
@[simp] theorem Quat.Smul_z [Mul α] (a : Quat α) (s : α) : (s * a).z = a.z * s := rfl
@[simp] theorem Quat.divS_z [Div α] (a : Quat α) (s : α) : (a / s).z = a.z / s := rfl
@[simp] theorem Quat.Sdiv_z [Div α] (a : Quat α) (s : α) : (s / a).z = s / a.z := rfl
@[simp] theorem Quat.ofFloats_w (w x y z : α) : (Quat.ofFloats w x y z).w = w := rfl
@[simp] theorem Quat.wxyz_w (w x y z : α) : (Quat.wxyz w x y z).w = w := rfl
@[simp] theorem Quat.add_w [Add α] (a b : Quat α) : (a + b).w = a.w + b.w := rfl
@[simp] theorem Quat.sub_w [Sub α] (a b : Quat α) : (a - b).w = a.w - b.w := rfl
@[simp] theorem Quat.neg_w [Neg α] (a : Quat α) : (-a).w = -a.w := rfl
@[simp] theorem Quat.mulS_w [Mul α] (a : Quat α) (s : α) : (a * s).w = a.w * s := rfl
@[simp] theorem Quat.Smul_w [Mul α] (a : Quat α) (s : α) : (s * a).w = a.w * s := rfl
@[simp] theorem Quat.divS_w [Div α] (a : Quat α) (s : α) : (a / s).w = a.w / s := rfl
@[simp] theorem Quat.Sdiv_w [Div α] (a : Quat α) (s : α) : (s / a).w = s / a.w := rfl
end simp

end Zcm
