import Verif.Model.Quat

/-!
# Matrix transforms

Model of src/matrix_transform.cpp.  Writes `Result[c][r] = e` are record updates, in source order.
-/

namespace Zcm

variable {α : Type} [Add α] [Sub α] [Mul α] [Div α] [Neg α] [FloatOps α] [Libm α]
  [LT α] [DecidableLT α] [LE α] [DecidableLE α] [BEq α]

/-- `translate(mat4, vec3)` src/matrix_transform.cpp:13-18 -/
def M4.translate (m : M4 α) (v : V3 α) : M4 α :=
  let Result : M4 α := m
  let Result : M4 α := { Result with c3 := m.c0 * v.x + m.c1 * v.y + m.c2 * v.z + m.c3 }
  Result

/-- `rotate(mat4, float, vec3)` src/matrix_transform.cpp:20-48 -/
def M4.rotate (m : M4 α) (angle : α) (v : V3 α) : M4 α :=
  let a := angle
  let c : α := F.cos a
  let s : α := F.sin a
  let axis : V3 α := V3.normalize v
  let temp : V3 α := (lit 1 - c) * axis
  let Rotate : M3 α :=
    ⟨⟨c + temp.x * axis.x, temp.x * axis.y + s * axis.z, temp.x * axis.z - s * axis.y⟩,
     ⟨temp.y * axis.x - s * axis.z, c + temp.y * axis.y, temp.y * axis.z + s * axis.x⟩,
     ⟨temp.z * axis.x + s * axis.y, temp.z * axis.y - s * axis.x, c + temp.z * axis.z⟩⟩
  ⟨m.c0 * Rotate.c0.x + m.c1 * Rotate.c0.y + m.c2 * Rotate.c0.z,
   m.c0 * Rotate.c1.x + m.c1 * Rotate.c1.y + m.c2 * Rotate.c1.z,
   m.c0 * Rotate.c2.x + m.c1 * Rotate.c2.y + m.c2 * Rotate.c2.z,
   m.c3⟩

/-- `scale(mat4, vec3)` src/matrix_transform.cpp:50-58 -/
def M4.scale (m : M4 α) (v : V3 α) : M4 α :=
  ⟨m.c0 * v.x, m.c1 * v.y, m.c2 * v.z, m.c3⟩

/-- `lookAtRH(vec3, vec3, vec3)` src/matrix_transform.cpp:60-80 -/
def M4.lookAtRH (eye center up : V3 α) : M4 α :=
  let f : V3 α := V3.normalize (center - eye)
  let s : V3 α := V3.normalize (V3.cross f up)
  let u : V3 α := V3.cross s f
  let Result : M4 α := M4.diag (lit 1)
  let Result : M4 α := { Result with c0.x := s.x }
  let Result : M4 α := { Result with c1.x := s.y }
  let Result : M4 α := { Result with c2.x := s.z }
  let Result : M4 α := { Result with c0.y := u.x }
  let Result : M4 α := { Result with c1.y := u.y }
  let Result : M4 α := { Result with c2.y := u.z }
  let Result : M4 α := { Result with c0.z := -f.x }
  let Result : M4 α := { Result with c1.z := -f.y }
  let Result : M4 α := { Result with c2.z := -f.z }
  let Result : M4 α := { Result with c3.x := -V3.dot s eye }
  let Result : M4 α := { Result with c3.y := -V3.dot u eye }
  let Result : M4 α := { Result with c3.z := V3.dot f eye }
  Result

/-- `lookAtLH(vec3, vec3, vec3)` src/matrix_transform.cpp:82-102 -/
def M4.lookAtLH (eye center up : V3 α) : M4 α :=
  let f : V3 α := V3.normalize (center - eye)
  let s : V3 α := V3.normalize (V3.cross up f)
  let u : V3 α := V3.cross f s
  let Result : M4 α := M4.diag (lit 1)
  let Result : M4 α := { Result with c0.x := s.x }
  let Result : M4 α := { Result with c1.x := s.y }
  let Result : M4 α := { Result with c2.x := s.z }
  let Result : M4 α := { Result with c0.y := u.x }
  let Result : M4 α := { Result with c1.y := u.y }
  let Result : M4 α := { Result with c2.y := u.z }
  let Result : M4 α := { Result with c0.z := f.x }
  let Result : M4 α := { Result with c1.z := f.y }
  let Result : M4 α := { Result with c2.z := f.z }
  let Result : M4 α := { Result with c3.x := -V3.dot s eye }
  let Result : M4 α := { Result with c3.y := -V3.dot u eye }
  let Result : M4 α := { Result with c3.z := -V3.dot f eye }
  Result

/-- `ortho(left, right, bottom, top)` src/matrix_transform.cpp:104-113 -/
def M4.ortho (left right bottom top : α) : M4 α :=
  let Result : M4 α := M4.diag (lit 1)
  let Result : M4 α := { Result with c0.x := lit 2 / (right - left) }
  let Result : M4 α := { Result with c1.y := lit 2 / (top - bottom) }
  let Result : M4 α := { Result with c2.z := -(lit 1) }
  let Result : M4 α := { Result with c3.x := (-(right + left)) / (right - left) }
  let Result : M4 α := { Result with c3.y := (-(top + bottom)) / (top - bottom) }
  Result

/-- `orthoLH_ZO` src/matrix_transform.cpp:115-125 -/
def M4.orthoLH_ZO (left right bottom top zNear zFar : α) : M4 α :=
  let Result : M4 α := M4.diag (lit 1)
  let Result : M4 α := { Result with c0.x := lit 2 / (right - left) }
  let Result : M4 α := { Result with c1.y := lit 2 / (top - bottom) }
  let Result : M4 α := { Result with c2.z := lit 1 / (zFar - zNear) }
  let Result : M4 α := { Result with c3.x := (-(right + left)) / (right - left) }
  let Result : M4 α := { Result with c3.y := (-(top + bottom)) / (top - bottom) }
  let Result : M4 α := { Result with c3.z := (-zNear) / (zFar - zNear) }
  Result

/-- `orthoRH_ZO` src/matrix_transform.cpp:127-137 -/
def M4.orthoRH_ZO (left right bottom top zNear zFar : α) : M4 α :=
  let Result : M4 α := M4.diag (lit 1)
  let Result : M4 α := { Result with c0.x := lit 2 / (right - left) }
  let Result : M4 α := { Result with c1.y := lit 2 / (top - bottom) }
  let Result : M4 α := { Result with c2.z := (-(lit 1)) / (zFar - zNear) }
  let Result : M4 α := { Result with c3.x := (-(right + left)) / (right - left) }
  let Result : M4 α := { Result with c3.y := (-(top + bottom)) / (top - bottom) }
  let Result : M4 α := { Result with c3.z := (-zNear) / (zFar - zNear) }
  Result

/-- `orthoLH_NO` src/matrix_transform.cpp:139-149 -/
def M4.orthoLH_NO (left right bottom top zNear zFar : α) : M4 α :=
  let Result : M4 α := M4.diag (lit 1)
  let Result : M4 α := { Result with c0.x := lit 2 / (right - left) }
  let Result : M4 α := { Result with c1.y := lit 2 / (top - bottom) }
  let Result : M4 α := { Result with c2.z := lit 2 / (zFar - zNear) }
  let Result : M4 α := { Result with c3.x := (-(right + left)) / (right - left) }
  let Result : M4 α := { Result with c3.y := (-(top + bottom)) / (top - bottom) }
  let Result : M4 α := { Result with c3.z := (-(zFar + zNear)) / (zFar - zNear) }
  Result

/-- `orthoRH_NO` src/matrix_transform.cpp:151-161 (the integer literals `1`, `2`, `-(2)` are converted to `float`) -/
def M4.orthoRH_NO (left right bottom top zNear zFar : α) : M4 α :=
  let Result : M4 α := M4.diag (lit 1)
  let Result : M4 α := { Result with c0.x := lit 2 / (right - left) }
  let Result : M4 α := { Result with c1.y := lit 2 / (top - bottom) }
  let Result : M4 α := { Result with c2.z := (-(lit 2)) / (zFar - zNear) }
  let Result : M4 α := { Result with c3.x := (-(right + left)) / (right - left) }
  let Result : M4 α := { Result with c3.y := (-(top + bottom)) / (top - bottom) }
  let Result : M4 α := { Result with c3.z := (-(zFar + zNear)) / (zFar - zNear) }
  Result

/-- `perspectiveRH_ZO` src/matrix_transform.cpp:163-176 -/
def M4.perspectiveRH_ZO (b : Build) (fovy aspect zNear zFar : α) : Res (M4 α) := do
  cassert b (decide (F.abs (aspect - epsilonf) > lit 0))
  let tanHalfFovy : α := F.tan (fovy * lit 0.5)
  let Result : M4 α := M4.diag (lit 0)
  let Result : M4 α := { Result with c0.x := lit 1 / (aspect * tanHalfFovy) }
  let Result : M4 α := { Result with c1.y := lit 1 / tanHalfFovy }
  let Result : M4 α := { Result with c2.z := zFar / (zNear - zFar) }
  let Result : M4 α := { Result with c2.w := -(lit 1) }
  let Result : M4 α := { Result with c3.z := (-(zFar * zNear)) / (zFar - zNear) }
  pure Result

/-- `perspectiveRH_NO` src/matrix_transform.cpp:178-191 -/
def M4.perspectiveRH_NO (b : Build) (fovy aspect zNear zFar : α) : Res (M4 α) := do
  cassert b (decide (F.abs (aspect - epsilonf) > lit 0))
  let tanHalfFovy : α := F.tan (fovy * lit 0.5)
  let Result : M4 α := M4.diag (lit 0)
  let Result : M4 α := { Result with c0.x := lit 1 / (aspect * tanHalfFovy) }
  let Result : M4 α := { Result with c1.y := lit 1 / tanHalfFovy }
  let Result : M4 α := { Result with c2.z := (-(zFar + zNear)) / (zFar - zNear) }
  let Result : M4 α := { Result with c2.w := -(lit 1) }
  let Result : M4 α := { Result with c3.z := (-(lit 2 * zFar * zNear)) / (zFar - zNear) }
  pure Result

/-- `perspectiveLH_ZO` src/matrix_transform.cpp:193-206 -/
def M4.perspectiveLH_ZO (b : Build) (fovy aspect zNear zFar : α) : Res (M4 α) := do
  cassert b (decide (F.abs (aspect - epsilonf) > lit 0))
  let tanHalfFovy : α := F.tan (fovy * lit 0.5)
  let Result : M4 α := M4.diag (lit 0)
  let Result : M4 α := { Result with c0.x := lit 1 / (aspect * tanHalfFovy) }
  let Result : M4 α := { Result with c1.y := lit 1 / tanHalfFovy }
  let Result : M4 α := { Result with c2.z := zFar / (zFar - zNear) }
  let Result : M4 α := { Result with c2.w := lit 1 }
  let Result : M4 α := { Result with c3.z := (-(zFar * zNear)) / (zFar - zNear) }
  pure Result

/-- `perspectiveLH_NO` src/matrix_transform.cpp:208-221 -/
def M4.perspectiveLH_NO (b : Build) (fovy aspect zNear zFar : α) : Res (M4 α) := do
  cassert b (decide (F.abs (aspect - epsilonf) > lit 0))
  let tanHalfFovy : α := F.tan (fovy * lit 0.5)
  let Result : M4 α := M4.diag (lit 0)
  let Result : M4 α := { Result with c0.x := lit 1 / (aspect * tanHalfFovy) }
  let Result : M4 α := { Result with c1.y := lit 1 / tanHalfFovy }
  let Result : M4 α := { Result with c2.z := (zFar + zNear) / (zFar - zNear) }
  let Result : M4 α := { Result with c2.w := lit 1 }
  let Result : M4 α := { Result with c3.z := (-(lit 2 * zFar * zNear)) / (zFar - zNear) }
  pure Result

/-- `Row` of src/matrix_transform.cpp:230: the local array of three `vec3`, indexed with `int` values that the code keeps in 0..2 -/
def M3.row (R : M3 α) (i : Fin 3) : V3 α :=
  match i with
  | 0 => R.c0
  | 1 => R.c1
  | 2 => R.c2

/-- subscript `v[j]` with `j` in 0..2 as used in src/matrix_transform.cpp:235,254,274-284 (src/vec3.cpp:128-132) -/
def V3.idx (v : V3 α) (i : Fin 3) : α :=
  match i with
  | 0 => v.x
  | 1 => v.y
  | 2 => v.z

/-- write `orientation[i] = a` with `i` in 0..2 as used in src/matrix_transform.cpp:280-283 (src/quat.cpp:98-110) -/
def Quat.setIdx (q : Quat α) (i : Fin 3) (a : α) : Quat α :=
  match i with
  | 0 => { q with x := a }
  | 1 => { q with y := a }
  | 2 => { q with z := a }

/-- table `Next` of src/matrix_transform.cpp:271 -/
def Next (i : Fin 3) : Fin 3 :=
  match i with
  | 0 => 1
  | 1 => 2
  | 2 => 0

/-- `decompose_orthogonal` src/matrix_transform.cpp:223-286.  The three output references are returned as a triple
(scale, orientation, translation); the caller's previous `orientation` is the argument
`orientation0` (every field of it is overwritten).  The three output arguments are taken to be
distinct objects. -/
def M4.decompose_orthogonal (model_mat : M4 α) (orientation0 : Quat α) :
    V3 α × Quat α × V3 α :=
  let translation : V3 α := ⟨model_mat.c3.x, model_mat.c3.y, model_mat.c3.z⟩
  let Row : M3 α :=
    ⟨⟨model_mat.c0.x, model_mat.c0.y, model_mat.c0.z⟩,
     ⟨model_mat.c1.x, model_mat.c1.y, model_mat.c1.z⟩,
     ⟨model_mat.c2.x, model_mat.c2.y, model_mat.c2.z⟩⟩
  let sx : α := V3.length Row.c0
  let Row : M3 α := { Row with c0 := V3.divAssignS Row.c0 sx }
  let sy : α := V3.length Row.c1
  let Row : M3 α := { Row with c1 := V3.divAssignS Row.c1 sy }
  let sz : α := V3.length Row.c2
  let Row : M3 α := { Row with c2 := V3.divAssignS Row.c2 sz }
  let scale : V3 α := ⟨sx, sy, sz⟩
  let p : V3 α × M3 α :=
    if V3.dot Row.c0 (V3.cross Row.c1 Row.c2) < lit 0 then
      (⟨scale.x * (-(lit 1)), scale.y * (-(lit 1)), scale.z * (-(lit 1))⟩,
       ⟨V3.mulAssignS Row.c0 (-(lit 1)), V3.mulAssignS Row.c1 (-(lit 1)),
        V3.mulAssignS Row.c2 (-(lit 1))⟩)
    else (scale, Row)
  let scale : V3 α := p.1
  let Row : M3 α := p.2
  let trace : α := Row.c0.x + Row.c1.y + Row.c2.z
  let orientation : Quat α :=
    if trace > lit 0 then
      let root : α := F.sqrt (trace + lit 1)
      let o : Quat α := { orientation0 with w := lit 0.5 * root }
      let root : α := lit 0.5 / root
      let o : Quat α := { o with x := root * (Row.c1.z - Row.c2.y) }
      let o : Quat α := { o with y := root * (Row.c2.x - Row.c0.z) }
      let o : Quat α := { o with z := root * (Row.c0.y - Row.c1.x) }
      o
    else
      let i : Fin 3 := 0
      let i : Fin 3 := if Row.c1.y > Row.c0.x then 1 else i
      let i : Fin 3 := if Row.c2.z > (Row.row i).idx i then 2 else i
      let j : Fin 3 := Next i
      let k : Fin 3 := Next j
      let root : α := F.sqrt ((Row.row i).idx i - (Row.row j).idx j - (Row.row k).idx k + lit 1)
      let o : Quat α := orientation0.setIdx i (lit 0.5 * root)
      let root : α := lit 0.5 / root
      let o : Quat α := o.setIdx j (root * ((Row.row i).idx j + (Row.row j).idx i))
      let o : Quat α := o.setIdx k (root * ((Row.row i).idx k + (Row.row k).idx i))
      let o : Quat α := { o with w := root * ((Row.row j).idx k - (Row.row k).idx j) }
      o
  (scale, orientation, translation)

end Zcm
