import Verif.Model.Exponential

/-!
# Geometric functions

Model of src/geometric.cpp.
-/

namespace Zcm

variable {α : Type} [Add α] [Sub α] [Mul α] [Div α] [Neg α] [FloatOps α] [Libm α]
  [LT α] [DecidableLT α] [LE α] [DecidableLE α] [BEq α]

/-- `dot(float, float)` src/geometric.cpp:11-14 -/
def F.dot (first second : α) : α := first * second

/-- `dot(vec2, vec2)` src/geometric.cpp:16-19 -/
def V2.dot (first second : V2 α) : α :=
  first.x * second.x + first.y * second.y

/-- `dot(vec3, vec3)` src/geometric.cpp:21-24 -/
def V3.dot (first second : V3 α) : α :=
  first.x * second.x + first.y * second.y + first.z * second.z

/-- `dot(vec4, vec4)` src/geometric.cpp:26-29 -/
def V4.dot (first second : V4 α) : α :=
  first.x * second.x + first.y * second.y + first.z * second.z + first.w * second.w

/-- `dot(quat, quat)` src/geometric.cpp:31-34 -/
def Quat.dot (first second : Quat α) : α :=
  first.x * second.x + first.y * second.y + first.z * second.z + first.w * second.w

/-- `cross(vec3, vec3)` src/geometric.cpp:40-45 -/
def V3.cross (first second : V3 α) : V3 α :=
  ⟨first.y * second.z - first.z * second.y,
   first.z * second.x - first.x * second.z,
   first.x * second.y - first.y * second.x⟩

/-- `length(float)` src/geometric.cpp:214-217 -/
def F.length (first : α) : α := first

/-- `length(vec2)` src/geometric.cpp:219-222 -/
def V2.length (first : V2 α) : α :=
  F.sqrt (first.x * first.x + first.y * first.y)

/-- `length(vec3)` src/geometric.cpp:225-228 -/
def V3.length (first : V3 α) : α :=
  F.sqrt (first.x * first.x + first.y * first.y + first.z * first.z)

/-- `length(vec4)` src/geometric.cpp:231-234 -/
def V4.length (first : V4 α) : α :=
  F.sqrt (first.x * first.x + first.y * first.y + first.z * first.z + first.w * first.w)

/-- `length(quat)` src/geometric.cpp:236-239 -/
def Quat.length (first : Quat α) : α :=
  F.sqrt (first.x * first.x + first.y * first.y + first.z * first.z + first.w * first.w)

/-- `normalize(vec2)` src/geometric.cpp:50-53 -/
def V2.normalize (vec : V2 α) : V2 α := vec * F.inversesqrt (V2.dot vec vec)

/-- `normalize(vec3)` src/geometric.cpp:55-58 -/
def V3.normalize (vec : V3 α) : V3 α := vec * F.inversesqrt (V3.dot vec vec)

/-- `normalize(vec4)` src/geometric.cpp:60-63 -/
def V4.normalize (vec : V4 α) : V4 α := vec * F.inversesqrt (V4.dot vec vec)

/-- `normalize(quat)` src/geometric.cpp:65-68 -/
def Quat.normalize (q : Quat α) : Quat α := q / Quat.length q

/-- `distance(float, float)` src/geometric.cpp:74-77 -/
def F.distance (first second : α) : α := F.abs (first - second)

/-- `distance(vec2, vec2)` src/geometric.cpp:79-82 -/
def V2.distance (first second : V2 α) : α := V2.length (first - second)

/-- `distance(vec3, vec3)` src/geometric.cpp:84-87 -/
def V3.distance (first second : V3 α) : α := V3.length (first - second)

/-- `distance(vec4, vec4)` src/geometric.cpp:89-92 -/
def V4.distance (first second : V4 α) : α := V4.length (first - second)

/-- `faceforward` on `α` src/geometric.cpp:98-106 -/
def F.faceforward (N I Nref : α) : α :=
  if F.dot Nref I < (lit 0 : α) then N else -N

/-- `faceforward` on `V2 α` src/geometric.cpp:108-116 -/
def V2.faceforward (N I Nref : V2 α) : V2 α :=
  if V2.dot Nref I < (lit 0 : α) then N else -N

/-- `faceforward` on `V3 α` src/geometric.cpp:118-126 -/
def V3.faceforward (N I Nref : V3 α) : V3 α :=
  if V3.dot Nref I < (lit 0 : α) then N else -N

/-- `faceforward` on `V4 α` src/geometric.cpp:128-136 -/
def V4.faceforward (N I Nref : V4 α) : V4 α :=
  if V4.dot Nref I < (lit 0 : α) then N else -N

/-- `reflect` on `α` src/geometric.cpp:142-145 -/
def F.reflect (I N : α) : α := I - lit 2 * F.dot N I * N

/-- `reflect` on `V2 α` src/geometric.cpp:147-150 -/
def V2.reflect (I N : V2 α) : V2 α := I - lit 2 * V2.dot N I * N

/-- `reflect` on `V3 α` src/geometric.cpp:152-155 -/
def V3.reflect (I N : V3 α) : V3 α := I - lit 2 * V3.dot N I * N

/-- `reflect` on `V4 α` src/geometric.cpp:157-160 -/
def V4.reflect (I N : V4 α) : V4 α := I - lit 2 * V4.dot N I * N

/-- `refract` on `α` src/geometric.cpp:166-175 -/
def F.refract (I N : α) (eta : α) : α :=
  let k : α := lit 1 - eta * eta * (lit 1 - F.dot N I * F.dot N I)
  if k < lit 0 then lit 0
  else eta * I - (eta * F.dot N I + F.sqrt k) * N

/-- `refract` on `V2 α` src/geometric.cpp:177-186 -/
def V2.refract (I N : V2 α) (eta : α) : V2 α :=
  let k : α := lit 1 - eta * eta * (lit 1 - V2.dot N I * V2.dot N I)
  if k < lit 0 then V2.splat (lit 0)
  else eta * I - (eta * V2.dot N I + F.sqrt k) * N

/-- `refract` on `V3 α` src/geometric.cpp:188-197 -/
def V3.refract (I N : V3 α) (eta : α) : V3 α :=
  let k : α := lit 1 - eta * eta * (lit 1 - V3.dot N I * V3.dot N I)
  if k < lit 0 then V3.splat (lit 0)
  else eta * I - (eta * V3.dot N I + F.sqrt k) * N

/-- `refract` on `V4 α` src/geometric.cpp:199-208 -/
def V4.refract (I N : V4 α) (eta : α) : V4 α :=
  let k : α := lit 1 - eta * eta * (lit 1 - V4.dot N I * V4.dot N I)
  if k < lit 0 then V4.splat (lit 0)
  else eta * I - (eta * V4.dot N I + F.sqrt k) * N

/-- `length2(float)` src/geometric.cpp:245-248 -/
def F.length2 (first : α) : α := F.dot first first

/-- `length2(vec2)` src/geometric.cpp:250-253 -/
def V2.length2 (first : V2 α) : α := V2.dot first first

/-- `length2(vec3)` src/geometric.cpp:255-258 -/
def V3.length2 (first : V3 α) : α := V3.dot first first

/-- `length2(vec4)` src/geometric.cpp:260-263 -/
def V4.length2 (first : V4 α) : α := V4.dot first first

/-- `length2(quat)` src/geometric.cpp:265-268 -/
def Quat.length2 (first : Quat α) : α := Quat.dot first first

/-- `distance2(float, float)` src/geometric.cpp:274-277 -/
def F.distance2 (first second : α) : α := F.length2 (first - second)

/-- `distance2(vec2, vec2)` src/geometric.cpp:279-282 -/
def V2.distance2 (first second : V2 α) : α := V2.length2 (first - second)

/-- `distance2(vec3, vec3)` src/geometric.cpp:284-287 (calls `length`, not `length2`) -/
def V3.distance2 (first second : V3 α) : α := V3.length (first - second)

/-- `distance2(vec4, vec4)` src/geometric.cpp:289-292 (calls `length`, not `length2`) -/
def V4.distance2 (first second : V4 α) : α := V4.length (first - second)

/-- `orthogonal(vec3)` src/geometric.cpp:298-303 -/
def V3.orthogonal (v : V3 α) : V3 α :=
  if F.abs v.x > F.abs v.z then ⟨-v.y, v.x, lit 0⟩ else ⟨lit 0, -v.z, v.y⟩

/-- `orthogonal_branchless(vec3)` src/geometric.cpp:305-309 -/
def V3.orthogonal_branchless (v : V3 α) : V3 α :=
  let k := F.fract (F.abs v.x + lit 0.5)
  ⟨-v.y, v.x - k * v.z, k * v.y⟩

/-- `encode_octahedral(vec3)` src/geometric.cpp:312-324 -/
def V3.encode_octahedral (v : V3 α) : V2 α :=
  let p : V2 α := (⟨v.x, v.y⟩ : V2 α) * (lit 1 / (F.abs v.x + F.abs v.y + F.abs v.z))
  if v.z ≤ lit 0 then ((lit 1 : α) - V2.abs ⟨p.y, p.x⟩) * V2.signNotZero p else p

/-- `decode_octahedral(vec2)` src/geometric.cpp:326-334; line 331 reads the `v.x` written by line 330 -/
def V2.decode_octahedral (e : V2 α) : V3 α :=
  let v : V3 α := ⟨e.x, e.y, lit 1 - F.abs e.x - F.abs e.y⟩
  let v : V3 α :=
    if v.z < lit 0 then
      let v : V3 α := { v with x := lit 1 - F.abs v.y * F.signNotZero v.x }
      let v : V3 α := { v with y := lit 1 - F.abs v.x * F.signNotZero v.y }
      v
    else v
  V3.normalize v

end Zcm
