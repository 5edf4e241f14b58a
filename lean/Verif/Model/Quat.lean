import Verif.Model.Geometric
import Verif.Model.Trig
import Verif.Model.Matrix

/-!
# Quaternions

Model of src/quaternion.cpp and of the remaining part of src/quat.cpp.
-/

namespace Zcm

variable {α : Type} [Add α] [Sub α] [Mul α] [Div α] [Neg α] [FloatOps α] [Libm α]
  [LT α] [DecidableLT α] [LE α] [DecidableLE α] [BEq α]

/-- `conjugate(quat)` src/quaternion.cpp:141-147 -/
def Quat.conjugate (x : Quat α) : Quat α := Quat.ofFloats x.w (-x.x) (-x.y) (-x.z)

/-- `inverse(quat)` src/quaternion.cpp:149-152 -/
def Quat.inverse (x : Quat α) : Quat α := Quat.conjugate x / Quat.dot x x

/-- `quat(vec3 u, vec3 v)` src/quat.cpp:52-75 -/
def Quat.ofUV (u v : V3 α) : Quat α :=
  let norm_u_norm_v : α := F.sqrt (V3.dot u u * V3.dot v v)
  let real_part : α := norm_u_norm_v + V3.dot u v
  let p : α × V3 α :=
    if real_part < lit 0.000001 * norm_u_norm_v then
      (lit 0, if F.abs u.x > F.abs u.z then ⟨-u.y, u.x, lit 0⟩ else ⟨lit 0, -u.z, u.y⟩)
    else (real_part, V3.cross u v)
  Quat.normalize (Quat.wxyz p.1 p.2.x p.2.y p.2.z)

/-- `quat(vec3 eulerAngles)` src/quat.cpp:77-86 -/
def Quat.ofEuler (eulerAngles : V3 α) : Quat α :=
  let c : V3 α := V3.cos (eulerAngles * (lit 0.5 : α))
  let s : V3 α := V3.sin (eulerAngles * (lit 0.5 : α))
  { w := c.x * c.y * c.z + s.x * s.y * s.z,
    x := s.x * c.y * c.z - c.x * s.y * s.z,
    y := c.x * s.y * c.z + s.x * c.y * s.z,
    z := c.x * c.y * s.z - s.x * s.y * c.z }

/-- `quat * vec3` src/quat.cpp:255-260 -/
instance Quat.instMulV : HMul (Quat α) (V3 α) (V3 α) :=
  ⟨fun q v =>
    let qv : V3 α := ⟨q.x, q.y, q.z⟩
    let t : V3 α := (lit 2 : α) * V3.cross qv v
    v + q.w * t + V3.cross qv t⟩

/-- `vec3 * quat` src/quat.cpp:262-265 -/
instance Quat.instVMul : HMul (V3 α) (Quat α) (V3 α) := ⟨fun v q => Quat.inverse q * v⟩

/-- `pitch(quat)` src/quaternion.cpp:19-28 -/
def Quat.pitch (q : Quat α) : α :=
  let y : α := lit 2 * (q.y * q.z + q.w * q.x)
  let x : α := q.w * q.w - q.x * q.x - q.y * q.y + q.z * q.z
  if x == lit 0 && y == lit 0 then lit 2 * F.atan2 q.x q.w else F.atan2 y x

/-- `yaw(quat)` src/quaternion.cpp:30-33 -/
def Quat.yaw (q : Quat α) : α :=
  F.asin (F.clamp ((-(lit 2)) * (q.x * q.z - q.w * q.y)) (-(lit 1)) (lit 1))

/-- `roll(quat)` src/quaternion.cpp:35-38 -/
def Quat.roll (q : Quat α) : α :=
  F.atan2 (lit 2 * (q.x * q.y + q.w * q.z)) (q.w * q.w + q.x * q.x - q.y * q.y - q.z * q.z)

/-- `eulerAngles(quat)` src/quaternion.cpp:12-17 -/
def Quat.eulerAngles (x : Quat α) : V3 α := ⟨Quat.pitch x, Quat.yaw x, Quat.roll x⟩

/-- `mat3_cast(quat)` src/quaternion.cpp:40-65 -/
def Quat.mat3_cast (q : Quat α) : M3 α :=
  let qxx := q.x * q.x
  let qyy := q.y * q.y
  let qzz := q.z * q.z
  let qxz := q.x * q.z
  let qxy := q.x * q.y
  let qyz := q.y * q.z
  let qwx := q.w * q.x
  let qwy := q.w * q.y
  let qwz := q.w * q.z
  ⟨⟨lit 1 - lit 2 * (qyy + qzz), lit 2 * (qxy + qwz), lit 2 * (qxz - qwy)⟩,
   ⟨lit 2 * (qxy - qwz), lit 1 - lit 2 * (qxx + qzz), lit 2 * (qyz + qwx)⟩,
   ⟨lit 2 * (qxz + qwy), lit 2 * (qyz - qwx), lit 1 - lit 2 * (qxx + qyy)⟩⟩

/-- `mat4_cast(quat)` src/quaternion.cpp:67-70 -/
def Quat.mat4_cast (q : Quat α) : M4 α := M4.ofMat3 (Quat.mat3_cast q)

/-- `quat_cast(mat3)` src/quaternion.cpp:72-112; `biggestIndex` only takes the values 0..3, so line 111 is unreachable -/
def M3.quat_cast (m : M3 α) : Quat α :=
  let fourXSquaredMinus1 : α := m.c0.x - m.c1.y - m.c2.z
  let fourYSquaredMinus1 : α := m.c1.y - m.c0.x - m.c2.z
  let fourZSquaredMinus1 : α := m.c2.z - m.c0.x - m.c1.y
  let fourWSquaredMinus1 : α := m.c0.x + m.c1.y + m.c2.z
  let p : ℕ × α := (0, fourWSquaredMinus1)
  let p : ℕ × α := if fourXSquaredMinus1 > p.2 then (1, fourXSquaredMinus1) else p
  let p : ℕ × α := if fourYSquaredMinus1 > p.2 then (2, fourYSquaredMinus1) else p
  let p : ℕ × α := if fourZSquaredMinus1 > p.2 then (3, fourZSquaredMinus1) else p
  let biggestVal : α := F.sqrt (p.2 + lit 1) * lit 0.5
  let mult : α := lit 0.25 / biggestVal
  match p.1 with
  | 0 => Quat.wxyz biggestVal ((m.c1.z - m.c2.y) * mult) ((m.c2.x - m.c0.z) * mult) ((m.c0.y - m.c1.x) * mult)
  | 1 => Quat.wxyz ((m.c1.z - m.c2.y) * mult) biggestVal ((m.c0.y + m.c1.x) * mult) ((m.c2.x + m.c0.z) * mult)
  | 2 => Quat.wxyz ((m.c2.x - m.c0.z) * mult) ((m.c0.y + m.c1.x) * mult) biggestVal ((m.c1.z + m.c2.y) * mult)
  | 3 => Quat.wxyz ((m.c0.y - m.c1.x) * mult) ((m.c2.x + m.c0.z) * mult) ((m.c1.z + m.c2.y) * mult) biggestVal
  | _ => Quat.default

/-- `quat_cast(mat4)` src/quaternion.cpp:114-117 -/
def M4.quat_cast (m : M4 α) : Quat α := M3.quat_cast (M4.toMat3 m)

/-- `quatLookAtLH(vec3, vec3)` src/quaternion.cpp:119-128 -/
def Quat.lookAtLH (direction up : V3 α) : Quat α :=
  let c2 : V3 α := direction
  let c0 : V3 α := V3.normalize (V3.cross up c2)
  let c1 : V3 α := V3.cross c2 c0
  M3.quat_cast ⟨c0, c1, c2⟩

/-- `quatLookAtRH(vec3, vec3)` src/quaternion.cpp:130-139 -/
def Quat.lookAtRH (direction up : V3 α) : Quat α :=
  let c2 : V3 α := -direction
  let c0 : V3 α := V3.normalize (V3.cross up c2)
  let c1 : V3 α := V3.cross c2 c0
  M3.quat_cast ⟨c0, c1, c2⟩

/-- `lerp(quat, quat, float)` src/quaternion.cpp:154-161 -/
def Quat.lerp (b : Build) (x y : Quat α) (t : α) : Res (Quat α) := do
  cassert b (decide (t ≥ lit 0))
  cassert b (decide (t ≤ lit 1))
  pure (x * (lit 1 - t) + (y * t))

/-- `nlerp(quat, quat, float)` src/quaternion.cpp:163-166 -/
def Quat.nlerp (b : Build) (x y : Quat α) (t : α) : Res (Quat α) := do
  let r ← Quat.lerp b x y t
  pure (Quat.normalize r)

/-- `std::numeric_limits<float>::epsilon()` = 2⁻²³, used at src/quaternion.cpp:182 and src/matrix_transform.cpp:165,180,195,210 -/
def epsilonf : α := lit (1 / 8388608)

/-- `slerp(quat, quat, float)` src/quaternion.cpp:168-193 -/
def Quat.slerp (x y : Quat α) (t : α) : Quat α :=
  let p : Quat α × α :=
    let cosTheta : α := Quat.dot x y
    if cosTheta < lit 0 then (-y, -cosTheta) else (y, cosTheta)
  let z := p.1
  let cosTheta := p.2
  if cosTheta > lit 1 - epsilonf then
    Quat.wxyz (F.mix x.w z.w t) (F.mix x.x z.x t) (F.mix x.y z.y t) (F.mix x.z z.z t)
  else
    let angle : α := F.acos cosTheta
    (F.sin ((lit 1 - t) * angle) * x + F.sin (t * angle) * z) / F.sin angle

/-- `axis(quat)` src/quaternion.cpp:195-203 -/
def Quat.axis (q : Quat α) : V3 α :=
  let tmp1 : α := lit 1 - q.w * q.w
  if tmp1 ≤ lit 0 then ⟨lit 0, lit 0, lit 1⟩
  else
    let tmp2 : α := F.inversesqrt tmp1
    ⟨q.x * tmp2, q.y * tmp2, q.z * tmp2⟩

/-- `angle(quat)` src/quaternion.cpp:205-208 -/
def Quat.angle (q : Quat α) : α := F.acos q.w * lit 2

/-- `angleAxis(float, vec3)` src/quaternion.cpp:210-214 -/
def Quat.angleAxis (angle : α) (axis : V3 α) : Quat α :=
  let s : α := F.sin (angle * lit 0.5)
  Quat.ofSV (F.cos (angle * lit 0.5)) (axis * s)

/-- `rotate(quat, float, vec3)` src/quaternion.cpp:216-221 -/
def Quat.rotate (q : Quat α) (angle : α) (axis : V3 α) : Quat α :=
  let norm_axis := V3.normalize axis
  let rq := Quat.angleAxis angle norm_axis
  q * rq

end Zcm
