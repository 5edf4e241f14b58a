import Verif.Model.Stmt
import Verif.Spec.Coord

/-!
# C97

`Stmt.f` is the statement-level transcription of the C++ function (Model/Stmt.lean): it ends in `.abort` when an assertion
fails and in `.ub` when it reads an indeterminate component or subscripts out of range.
-/

namespace Zcm

variable {α : Type} [Add α] [Sub α] [Mul α] [Div α] [Neg α] [FloatOps α] [Libm α]
  [LT α] [DecidableLT α] [LE α] [DecidableLE α] [BEq α]

private theorem quat_cast3_eq (b : Build) (m : M3 α) : Stmt.quat_cast3 b m = .ok (M3.quat_cast m) := by
  have key : Stmt.quat_cast3 .debug m = .ok (M3.quat_cast m) ∧ Stmt.quat_cast3 .release m = .ok (M3.quat_cast m) := by
    have e : ∀ b : Build, M3.entry b m 0 0 = .ok m.c0.x ∧ M3.entry b m 0 1 = .ok m.c0.y ∧ M3.entry b m 0 2 = .ok m.c0.z ∧
        M3.entry b m 1 0 = .ok m.c1.x ∧ M3.entry b m 1 1 = .ok m.c1.y ∧ M3.entry b m 1 2 = .ok m.c1.z ∧
        M3.entry b m 2 0 = .ok m.c2.x ∧ M3.entry b m 2 1 = .ok m.c2.y ∧ M3.entry b m 2 2 = .ok m.c2.z := by
      intro b; cases b <;> exact ⟨rfl, rfl, rfl, rfl, rfl, rfl, rfl, rfl, rfl⟩
    constructor <;>
    · unfold Stmt.quat_cast3 M3.quat_cast
      simp only [e, Res.ok_bind]
      split_ifs <;> rfl
  cases b
  · exact key.1
  · exact key.2

/-- the operators of `mat2` -/
theorem C97_mat2_operators :
    (∀ (b : Build) (first : M2 α) (second : M2 α), Stmt.add2 b first second = .ok (first + second)) ∧
    (∀ (b : Build) (first : M2 α) (second : M2 α), Stmt.sub2 b first second = .ok (first - second)) ∧
    (∀ (b : Build) (first : M2 α), Stmt.neg2 b first = .ok (-first)) ∧
    (∀ (b : Build) (m1 : M2 α) (m2 : M2 α), Stmt.mul2 b m1 m2 = .ok (m1 * m2)) ∧
    (∀ (b : Build) (mat : M2 α) (scalar : α), Stmt.mulS2 b mat scalar = .ok (mat * scalar)) ∧
    (∀ (b : Build) (mat : M2 α) (scalar : α), Stmt.divS2 b mat scalar = .ok (mat / scalar)) ∧
    (∀ (b : Build) (scalar : α) (mat : M2 α), Stmt.smul2 b scalar mat = .ok (scalar * mat)) ∧
    (∀ (b : Build) (scalar : α) (mat : M2 α), Stmt.sdiv2 b scalar mat = .ok (scalar / mat)) ∧
    (∀ (b : Build) (m : M2 α) (v : V2 α), Stmt.mulV2 b m v = .ok (m * v)) ∧
    (∀ (b : Build) (v : V2 α) (m : M2 α), Stmt.vmul2 b v m = .ok (v * m)) ∧
    (∀ (b : Build) (first : M2 α) (second : M2 α), Stmt.eq2 b first second = .ok (M2.eq first second)) ∧
    (∀ (b : Build) (first : M2 α) (second : M2 α), Stmt.div2 b first second = .ok (first / second)) ∧
    (∀ (b : Build) (mat : M2 α) (vec : V2 α), Stmt.divV2 b mat vec = .ok (mat / vec)) ∧
    (∀ (b : Build) (vec : V2 α) (mat : M2 α), Stmt.vdiv2 b vec mat = .ok (vec / mat)) := by
  refine ⟨?_, ?_, ?_, ?_, ?_, ?_, ?_, ?_, ?_, ?_, ?_, ?_, ?_, ?_⟩
  · intro b first second; cases b <;> rfl
  · intro b first second; cases b <;> rfl
  · intro b first; cases b <;> rfl
  · intro b m1 m2; cases b <;> rfl
  · intro b mat scalar; cases b <;> rfl
  · intro b mat scalar; cases b <;> rfl
  · intro b scalar mat; cases b <;> rfl
  · intro b scalar mat; cases b <;> rfl
  · intro b m v; cases b <;> rfl
  · intro b v m; cases b <;> rfl
  · intro b first second; cases b <;> rfl
  · intro b first second; cases b <;> rfl
  · intro b mat vec; cases b <;> rfl
  · intro b vec mat; cases b <;> rfl

/-- the operators of `mat3` -/
theorem C97_mat3_operators :
    (∀ (b : Build) (first : M3 α) (second : M3 α), Stmt.add3 b first second = .ok (first + second)) ∧
    (∀ (b : Build) (first : M3 α) (second : M3 α), Stmt.sub3 b first second = .ok (first - second)) ∧
    (∀ (b : Build) (first : M3 α), Stmt.neg3 b first = .ok (-first)) ∧
    (∀ (b : Build) (m1 : M3 α) (m2 : M3 α), Stmt.mul3 b m1 m2 = .ok (m1 * m2)) ∧
    (∀ (b : Build) (mat : M3 α) (scalar : α), Stmt.mulS3 b mat scalar = .ok (mat * scalar)) ∧
    (∀ (b : Build) (mat : M3 α) (scalar : α), Stmt.divS3 b mat scalar = .ok (mat / scalar)) ∧
    (∀ (b : Build) (scalar : α) (mat : M3 α), Stmt.smul3 b scalar mat = .ok (scalar * mat)) ∧
    (∀ (b : Build) (scalar : α) (mat : M3 α), Stmt.sdiv3 b scalar mat = .ok (scalar / mat)) ∧
    (∀ (b : Build) (m : M3 α) (v : V3 α), Stmt.mulV3 b m v = .ok (m * v)) ∧
    (∀ (b : Build) (v : V3 α) (m : M3 α), Stmt.vmul3 b v m = .ok (v * m)) ∧
    (∀ (b : Build) (first : M3 α) (second : M3 α), Stmt.eq3 b first second = .ok (M3.eq first second)) ∧
    (∀ (b : Build) (first : M3 α) (second : M3 α), Stmt.div3 b first second = .ok (first / second)) ∧
    (∀ (b : Build) (mat : M3 α) (vec : V3 α), Stmt.divV3 b mat vec = .ok (mat / vec)) ∧
    (∀ (b : Build) (vec : V3 α) (mat : M3 α), Stmt.vdiv3 b vec mat = .ok (vec / mat)) := by
  refine ⟨?_, ?_, ?_, ?_, ?_, ?_, ?_, ?_, ?_, ?_, ?_, ?_, ?_, ?_⟩
  · intro b first second; cases b <;> rfl
  · intro b first second; cases b <;> rfl
  · intro b first; cases b <;> rfl
  · intro b m1 m2; cases b <;> rfl
  · intro b mat scalar; cases b <;> rfl
  · intro b mat scalar; cases b <;> rfl
  · intro b scalar mat; cases b <;> rfl
  · intro b scalar mat; cases b <;> rfl
  · intro b m v; cases b <;> rfl
  · intro b v m; cases b <;> rfl
  · intro b first second; cases b <;> rfl
  · intro b first second; cases b <;> rfl
  · intro b mat vec; cases b <;> rfl
  · intro b vec mat; cases b <;> rfl

/-- the operators of `mat4` -/
theorem C97_mat4_operators :
    (∀ (b : Build) (first : M4 α) (second : M4 α), Stmt.add4 b first second = .ok (first + second)) ∧
    (∀ (b : Build) (first : M4 α) (second : M4 α), Stmt.sub4 b first second = .ok (first - second)) ∧
    (∀ (b : Build) (first : M4 α), Stmt.neg4 b first = .ok (-first)) ∧
    (∀ (b : Build) (m1 : M4 α) (m2 : M4 α), Stmt.mul4 b m1 m2 = .ok (m1 * m2)) ∧
    (∀ (b : Build) (mat : M4 α) (scalar : α), Stmt.mulS4 b mat scalar = .ok (mat * scalar)) ∧
    (∀ (b : Build) (mat : M4 α) (scalar : α), Stmt.divS4 b mat scalar = .ok (mat / scalar)) ∧
    (∀ (b : Build) (scalar : α) (mat : M4 α), Stmt.smul4 b scalar mat = .ok (scalar * mat)) ∧
    (∀ (b : Build) (scalar : α) (mat : M4 α), Stmt.sdiv4 b scalar mat = .ok (scalar / mat)) ∧
    (∀ (b : Build) (m : M4 α) (v : V4 α), Stmt.mulV4 b m v = .ok (m * v)) ∧
    (∀ (b : Build) (v : V4 α) (m : M4 α), Stmt.vmul4 b v m = .ok (v * m)) ∧
    (∀ (b : Build) (first : M4 α) (second : M4 α), Stmt.eq4 b first second = .ok (M4.eq first second)) ∧
    (∀ (b : Build) (first : M4 α) (second : M4 α), Stmt.div4 b first second = .ok (first / second)) ∧
    (∀ (b : Build) (mat : M4 α) (vec : V4 α), Stmt.divV4 b mat vec = .ok (mat / vec)) ∧
    (∀ (b : Build) (vec : V4 α) (mat : M4 α), Stmt.vdiv4 b vec mat = .ok (vec / mat)) := by
  refine ⟨?_, ?_, ?_, ?_, ?_, ?_, ?_, ?_, ?_, ?_, ?_, ?_, ?_, ?_⟩
  · intro b first second; cases b <;> rfl
  · intro b first second; cases b <;> rfl
  · intro b first; cases b <;> rfl
  · intro b m1 m2; cases b <;> rfl
  · intro b mat scalar; cases b <;> rfl
  · intro b mat scalar; cases b <;> rfl
  · intro b scalar mat; cases b <;> rfl
  · intro b scalar mat; cases b <;> rfl
  · intro b m v; cases b <;> rfl
  · intro b v m; cases b <;> rfl
  · intro b first second; cases b <;> rfl
  · intro b first second; cases b <;> rfl
  · intro b mat vec; cases b <;> rfl
  · intro b vec mat; cases b <;> rfl

/-- `matrixCompMult` -/
theorem C97_matrixCompMult :
    (∀ (b : Build) (x : M2 α) (y : M2 α), Stmt.matrixCompMult2 b x y = .ok (M2.matrixCompMult x y)) ∧
    (∀ (b : Build) (x : M3 α) (y : M3 α), Stmt.matrixCompMult3 b x y = .ok (M3.matrixCompMult x y)) ∧
    (∀ (b : Build) (x : M4 α) (y : M4 α), Stmt.matrixCompMult4 b x y = .ok (M4.matrixCompMult x y)) := by
  refine ⟨?_, ?_, ?_⟩
  · intro b x y; cases b <;> rfl
  · intro b x y; cases b <;> rfl
  · intro b x y; cases b <;> rfl

/-- `transpose` -/
theorem C97_transpose :
    (∀ (b : Build) (m : M2 α), Stmt.transpose2 b m = .ok (M2.transpose m)) ∧
    (∀ (b : Build) (m : M3 α), Stmt.transpose3 b m = .ok (M3.transpose m)) ∧
    (∀ (b : Build) (m : M4 α), Stmt.transpose4 b m = .ok (M4.transpose m)) := by
  refine ⟨?_, ?_, ?_⟩
  · intro b m; cases b <;> rfl
  · intro b m; cases b <;> rfl
  · intro b m; cases b <;> rfl

/-- `determinant` -/
theorem C97_determinant :
    (∀ (b : Build) (m : M2 α), Stmt.determinant2 b m = .ok (M2.determinant m)) ∧
    (∀ (b : Build) (m : M3 α), Stmt.determinant3 b m = .ok (M3.determinant m)) ∧
    (∀ (b : Build) (m : M4 α), Stmt.determinant4 b m = .ok (M4.determinant m)) := by
  refine ⟨?_, ?_, ?_⟩
  · intro b m; cases b <;> rfl
  · intro b m; cases b <;> rfl
  · intro b m; cases b <;> rfl

/-- `inverse` -/
theorem C97_inverse :
    (∀ (b : Build) (m : M2 α), Stmt.inverse2 b m = .ok (M2.inverse m)) ∧
    (∀ (b : Build) (m : M3 α), Stmt.inverse3 b m = .ok (M3.inverse m)) ∧
    (∀ (b : Build) (m : M4 α), Stmt.inverse4 b m = .ok (M4.inverse m)) := by
  refine ⟨?_, ?_, ?_⟩
  · intro b m; cases b <;> rfl
  · intro b m; cases b <;> rfl
  · intro b m; cases b <;> rfl

/-- `adjugate` -/
theorem C97_adjugate :
    (∀ (b : Build) (m : M2 α), Stmt.adjugate2 b m = .ok (M2.adjugate m)) ∧
    (∀ (b : Build) (m : M3 α), Stmt.adjugate3 b m = .ok (M3.adjugate m)) ∧
    (∀ (b : Build) (m : M4 α), Stmt.adjugate4 b m = .ok (M4.adjugate m)) := by
  refine ⟨?_, ?_, ?_⟩
  · intro b m; cases b <;> rfl
  · intro b m; cases b <;> rfl
  · intro b m; cases b <;> rfl

set_option maxRecDepth 4000 in
/-- `inverseTranspose` -/
theorem C97_inverseTranspose :
    (∀ (b : Build) (m : M2 α), Stmt.inverseTranspose2 b m = .ok (M2.inverseTranspose m)) ∧
    (∀ (b : Build) (m : M3 α), Stmt.inverseTranspose3 b m = .ok (M3.inverseTranspose m)) ∧
    (∀ (b : Build) (m : M4 α), Stmt.inverseTranspose4 b m = .ok (M4.inverseTranspose m)) := by
  refine ⟨?_, ?_, ?_⟩
  · intro b m; cases b <;> rfl
  · intro b m; cases b <;> rfl
  · intro b m; cases b <;> rfl

set_option maxRecDepth 4000 in
/-- `adjugateTranspose` -/
theorem C97_adjugateTranspose :
    (∀ (b : Build) (m : M2 α), Stmt.adjugateTranspose2 b m = .ok (M2.adjugateTranspose m)) ∧
    (∀ (b : Build) (m : M3 α), Stmt.adjugateTranspose3 b m = .ok (M3.adjugateTranspose m)) ∧
    (∀ (b : Build) (m : M4 α), Stmt.adjugateTranspose4 b m = .ok (M4.adjugateTranspose m)) := by
  refine ⟨?_, ?_, ?_⟩
  · intro b m; cases b <;> rfl
  · intro b m; cases b <;> rfl
  · intro b m; cases b <;> rfl

/-- `translate`, `rotate` and `scale` -/
theorem C97_transforms :
    (∀ (b : Build) (m : M4 α) (v : V3 α), Stmt.translate b m v = .ok (M4.translate m v)) ∧
    (∀ (b : Build) (m : M4 α) (angle : α) (v : V3 α), Stmt.rotate b m angle v = .ok (M4.rotate m angle v)) ∧
    (∀ (b : Build) (m : M4 α) (v : V3 α), Stmt.scale b m v = .ok (M4.scale m v)) := by
  refine ⟨?_, ?_, ?_⟩
  · intro b m v; cases b <;> rfl
  · intro b m angle v; cases b <;> rfl
  · intro b m v; cases b <;> rfl

/-- `lookAtRH` and `lookAtLH` -/
theorem C97_lookAt :
    (∀ (b : Build) (eye : V3 α) (center : V3 α) (up : V3 α), Stmt.lookAtRH b eye center up = .ok (M4.lookAtRH eye center up)) ∧
    (∀ (b : Build) (eye : V3 α) (center : V3 α) (up : V3 α), Stmt.lookAtLH b eye center up = .ok (M4.lookAtLH eye center up)) := by
  refine ⟨?_, ?_⟩
  · intro b eye center up; cases b <;> rfl
  · intro b eye center up; cases b <;> rfl

/-- `ortho*` -/
theorem C97_ortho :
    (∀ (b : Build) (left : α) (right : α) (bottom : α) (top : α), Stmt.ortho b left right bottom top = .ok (M4.ortho left right bottom top)) ∧
    (∀ (b : Build) (left : α) (right : α) (bottom : α) (top : α) (zNear : α) (zFar : α), Stmt.orthoLH_ZO b left right bottom top zNear zFar = .ok (M4.orthoLH_ZO left right bottom top zNear zFar)) ∧
    (∀ (b : Build) (left : α) (right : α) (bottom : α) (top : α) (zNear : α) (zFar : α), Stmt.orthoRH_ZO b left right bottom top zNear zFar = .ok (M4.orthoRH_ZO left right bottom top zNear zFar)) ∧
    (∀ (b : Build) (left : α) (right : α) (bottom : α) (top : α) (zNear : α) (zFar : α), Stmt.orthoLH_NO b left right bottom top zNear zFar = .ok (M4.orthoLH_NO left right bottom top zNear zFar)) ∧
    (∀ (b : Build) (left : α) (right : α) (bottom : α) (top : α) (zNear : α) (zFar : α), Stmt.orthoRH_NO b left right bottom top zNear zFar = .ok (M4.orthoRH_NO left right bottom top zNear zFar)) := by
  refine ⟨?_, ?_, ?_, ?_, ?_⟩
  · intro b left right bottom top; cases b <;> rfl
  · intro b left right bottom top zNear zFar; cases b <;> rfl
  · intro b left right bottom top zNear zFar; cases b <;> rfl
  · intro b left right bottom top zNear zFar; cases b <;> rfl
  · intro b left right bottom top zNear zFar; cases b <;> rfl

/-- `perspective*`: the only assertion that can fail is the one on `aspect`, which the functional model has too -/
theorem C97_perspective :
    (∀ (b : Build) (fovy : α) (aspect : α) (zNear : α) (zFar : α), Stmt.perspectiveRH_ZO b fovy aspect zNear zFar = M4.perspectiveRH_ZO b fovy aspect zNear zFar) ∧
    (∀ (b : Build) (fovy : α) (aspect : α) (zNear : α) (zFar : α), Stmt.perspectiveRH_NO b fovy aspect zNear zFar = M4.perspectiveRH_NO b fovy aspect zNear zFar) ∧
    (∀ (b : Build) (fovy : α) (aspect : α) (zNear : α) (zFar : α), Stmt.perspectiveLH_ZO b fovy aspect zNear zFar = M4.perspectiveLH_ZO b fovy aspect zNear zFar) ∧
    (∀ (b : Build) (fovy : α) (aspect : α) (zNear : α) (zFar : α), Stmt.perspectiveLH_NO b fovy aspect zNear zFar = M4.perspectiveLH_NO b fovy aspect zNear zFar) := by
  refine ⟨?_, ?_, ?_, ?_⟩
  · intro b fovy aspect zNear zFar; cases b <;> rfl
  · intro b fovy aspect zNear zFar; cases b <;> rfl
  · intro b fovy aspect zNear zFar; cases b <;> rfl
  · intro b fovy aspect zNear zFar; cases b <;> rfl

/-- conversions between matrices and quaternions -/
theorem C97_casts :
    (∀ (b : Build) (q : Quat α), Stmt.mat3_cast b q = .ok (Quat.mat3_cast q)) ∧
    (∀ (b : Build) (m : M3 α), Stmt.mat4_of_mat3 b m = .ok (M4.ofMat3 m)) ∧
    (∀ (b : Build) (q : Quat α), Stmt.mat4_cast b q = .ok (Quat.mat4_cast q)) ∧
    (∀ (b : Build) (m : M3 α), Stmt.quat_cast3 b m = .ok (M3.quat_cast m)) ∧
    (∀ (b : Build) (m : M4 α), Stmt.quat_cast4 b m = .ok (M4.quat_cast m)) := by
  refine ⟨?_, ?_, ?_, ?_, ?_⟩
  · intro b q; cases b <;> rfl
  · intro b m; cases b <;> rfl
  · intro b q; cases b <;> rfl
  · intro b m; exact quat_cast3_eq b m
  · intro b m; exact quat_cast3_eq b _

/-- `quatLookAtLH` and `quatLookAtRH` -/
theorem C97_quatLookAt :
    (∀ (b : Build) (direction : V3 α) (up : V3 α), Stmt.quatLookAtLH b direction up = .ok (Quat.lookAtLH direction up)) ∧
    (∀ (b : Build) (direction : V3 α) (up : V3 α), Stmt.quatLookAtRH b direction up = .ok (Quat.lookAtRH direction up)) := by
  refine ⟨?_, ?_⟩
  · intro b direction up; unfold Stmt.quatLookAtLH; simp only [quat_cast3_eq]; cases b <;> rfl
  · intro b direction up; unfold Stmt.quatLookAtRH; simp only [quat_cast3_eq]; cases b <;> rfl

/-! ## `decompose_orthogonal` -/

private theorem rows_eq (b : Build) (m : M4 α) (σ : Store (V3 (Option α))) (scale translation : ℕ) :
    Stmt.decompose_rows b m σ scale translation =
      .ok (Function.update (Function.update σ translation (V3.cells ⟨m.c3.x, m.c3.y, m.c3.z⟩)) scale
        (V3.cells ⟨V3.length ⟨m.c0.x, m.c0.y, m.c0.z⟩, V3.length ⟨m.c1.x, m.c1.y, m.c1.z⟩,
          V3.length ⟨m.c2.x, m.c2.y, m.c2.z⟩⟩),
        ⟨V3.divAssignS ⟨m.c0.x, m.c0.y, m.c0.z⟩ (V3.length ⟨m.c0.x, m.c0.y, m.c0.z⟩),
          V3.divAssignS ⟨m.c1.x, m.c1.y, m.c1.z⟩ (V3.length ⟨m.c1.x, m.c1.y, m.c1.z⟩),
          V3.divAssignS ⟨m.c2.x, m.c2.y, m.c2.z⟩ (V3.length ⟨m.c2.x, m.c2.y, m.c2.z⟩)⟩) := by
  have h0 : ∀ b : Build, ([0, 1, 2].foldlM (fun Row i => [0, 1, 2].foldlM (fun Row j => do
      Stmt.rowSet Row i (← V3.set b (← Stmt.rowAt Row i) j (← M4.entry b m i j))) Row)
      (⟨V3.default, V3.default, V3.default⟩ : M3 α) : Res (M3 α)) =
      .ok ⟨⟨m.c0.x, m.c0.y, m.c0.z⟩, ⟨m.c1.x, m.c1.y, m.c1.z⟩, ⟨m.c2.x, m.c2.y, m.c2.z⟩⟩ := by
    intro b; cases b <;> rfl
  have h1 : ∀ b : Build, M4.at b m 3 = .ok m.c3 := by intro b; cases b <;> rfl
  have r0 : ∀ R : M3 α, Stmt.rowAt R 0 = .ok R.c0 := fun _ => rfl
  have r1 : ∀ R : M3 α, Stmt.rowAt R 1 = .ok R.c1 := fun _ => rfl
  have r2 : ∀ R : M3 α, Stmt.rowAt R 2 = .ok R.c2 := fun _ => rfl
  have s0 : ∀ (R : M3 α) v, Stmt.rowSet R 0 v = .ok { R with c0 := v } := fun _ _ => rfl
  have s1 : ∀ (R : M3 α) v, Stmt.rowSet R 1 v = .ok { R with c1 := v } := fun _ _ => rfl
  have s2 : ∀ (R : M3 α) v, Stmt.rowSet R 2 v = .ok { R with c2 := v } := fun _ _ => rfl
  unfold Stmt.decompose_rows
  simp only [h0, h1, r0, r1, r2, s0, s1, s2, Res.ok_bind, Res.pure_eq, Function.update_self, Function.update_idem,
    Cell.read, V3.cells]

private theorem flip_eq (b : Build) (σ : Store (V3 (Option α))) (scale : ℕ) (R : M3 α) (s : V3 α)
    (hs : σ scale = V3.cells s) :
    Stmt.decompose_flip b σ scale R =
      .ok (if V3.dot R.c0 (V3.cross R.c1 R.c2) < lit 0 then
        (Function.update σ scale (V3.cells ⟨s.x * (-(lit 1)), s.y * (-(lit 1)), s.z * (-(lit 1))⟩),
          ⟨V3.mulAssignS R.c0 (-(lit 1)), V3.mulAssignS R.c1 (-(lit 1)), V3.mulAssignS R.c2 (-(lit 1))⟩)
        else (σ, R)) := by
  have r0 : ∀ R : M3 α, Stmt.rowAt R 0 = .ok R.c0 := fun _ => rfl
  have r1 : ∀ R : M3 α, Stmt.rowAt R 1 = .ok R.c1 := fun _ => rfl
  have r2 : ∀ R : M3 α, Stmt.rowAt R 2 = .ok R.c2 := fun _ => rfl
  have s0 : ∀ (R : M3 α) v, Stmt.rowSet R 0 v = .ok { R with c0 := v } := fun _ _ => rfl
  have s1 : ∀ (R : M3 α) v, Stmt.rowSet R 1 v = .ok { R with c1 := v } := fun _ _ => rfl
  have s2 : ∀ (R : M3 α) v, Stmt.rowSet R 2 v = .ok { R with c2 := v } := fun _ _ => rfl
  have a0 : ∀ v : V3 (Option α), V3.at b v 0 = .ok v.x := by cases b <;> intro v <;> rfl
  have a1 : ∀ v : V3 (Option α), V3.at b v 1 = .ok v.y := by cases b <;> intro v <;> rfl
  have a2 : ∀ v : V3 (Option α), V3.at b v 2 = .ok v.z := by cases b <;> intro v <;> rfl
  have w0 : ∀ (v : V3 (Option α)) x, V3.set b v 0 x = .ok { v with x := x } := by cases b <;> intro v x <;> rfl
  have w1 : ∀ (v : V3 (Option α)) x, V3.set b v 1 x = .ok { v with y := x } := by cases b <;> intro v x <;> rfl
  have w2 : ∀ (v : V3 (Option α)) x, V3.set b v 2 x = .ok { v with z := x } := by cases b <;> intro v x <;> rfl
  unfold Stmt.decompose_flip
  simp only [r0, r1, r2, Res.ok_bind]
  split_ifs with h
  · simp only [List.foldlM, hs, a0, a1, a2, w0, w1, w2, r0, r1, r2, s0, s1, s2, Res.ok_bind, Res.pure_eq,
      Function.update_self, Function.update_idem, Cell.read, V3.cells]
  · rfl

/-- the last part of `M4.decompose_orthogonal`, to name its result -/
private def orient (Row : M3 α) (orientation0 : Quat α) : Quat α :=
  let trace : α := Row.c0.x + Row.c1.y + Row.c2.z
  if trace > lit 0 then
    let root : α := F.sqrt (trace + lit 1)
    let o : Quat α := { orientation0 with w := lit 0.5 * root }
    let root : α := lit 0.5 / root
    let o : Quat α := { o with x := root * (Row.c1.z - Row.c2.y) }
    let o : Quat α := { o with y := root * (Row.c2.x - Row.c0.z) }
    let o : Quat α := { o with z := root * (Row.c0.y - Row.c1.x) }
    o
  else
    let i : Fin 3 := 0
    let i : Fin 3 := if Row.c1.y > Row.c0.x then 1 else i
    let i : Fin 3 := if Row.c2.z > (Row.row i).idx i then 2 else i
    let j : Fin 3 := Next i
    let k : Fin 3 := Next j
    let root : α := F.sqrt ((Row.row i).idx i - (Row.row j).idx j - (Row.row k).idx k + lit 1)
    let o : Quat α := orientation0.setIdx i (lit 0.5 * root)
    let root : α := lit 0.5 / root
    let o : Quat α := o.setIdx j (root * ((Row.row i).idx j + (Row.row j).idx i))
    let o : Quat α := o.setIdx k (root * ((Row.row i).idx k + (Row.row k).idx i))
    let o : Quat α := { o with w := root * ((Row.row j).idx k - (Row.row k).idx j) }
    o

private theorem orientation_eq (b : Build) (R : M3 α) (o : Quat (Option α)) (o0 : Quat α) :
    Stmt.decompose_orientation b R o = .ok (Quat.cells (orient R o0)) := by
  have r0 : ∀ R : M3 α, Stmt.rowAt R 0 = .ok R.c0 := fun _ => rfl
  have r1 : ∀ R : M3 α, Stmt.rowAt R 1 = .ok R.c1 := fun _ => rfl
  have r2 : ∀ R : M3 α, Stmt.rowAt R 2 = .ok R.c2 := fun _ => rfl
  unfold Stmt.decompose_orientation orient
  simp only [r0, r1, r2, Res.ok_bind]
  by_cases ht : R.c0.x + R.c1.y + R.c2.z > lit 0
  · simp only [if_pos ht]; rfl
  · simp only [if_neg ht]
    by_cases h1 : R.c1.y > R.c0.x
    · simp only [if_pos h1]
      have a1 : V3.at b R.c1 1 = .ok R.c1.y := by cases b <;> rfl
      simp only [r1, a1, Res.ok_bind]
      by_cases h2 : R.c2.z > R.c1.y
      · have : R.c2.z > (R.row 1).idx 1 := h2
        simp only [if_pos h2, if_pos this]; cases b <;> rfl
      · have : ¬ R.c2.z > (R.row 1).idx 1 := h2
        simp only [if_neg h2, if_neg this]; cases b <;> rfl
    · simp only [if_neg h1]
      have a0 : V3.at b R.c0 0 = .ok R.c0.x := by cases b <;> rfl
      simp only [r0, a0, Res.ok_bind]
      by_cases h2 : R.c2.z > R.c0.x
      · have : R.c2.z > (R.row 0).idx 0 := h2
        simp only [if_pos h2, if_pos this]; cases b <;> rfl
      · have : ¬ R.c2.z > (R.row 0).idx 0 := h2
        simp only [if_neg h2, if_neg this]; cases b <;> rfl

/-- `decompose_orthogonal(model_mat, scale, orientation, translation)` writes the three results (here `r`) whatever the
output objects held before, even when they were indeterminate, and changes no other object.  When `scale` and
`translation` are the same object it ends up holding the scale. -/
theorem C97_decompose (b : Build) (model_mat : M4 α) (σ : Store (V3 (Option α))) (scale translation : ℕ)
    (orientation : Quat (Option α)) (orientation0 : Quat α) :
    let r := M4.decompose_orthogonal model_mat orientation0
    Stmt.decompose_orthogonal b model_mat σ scale translation orientation =
      .ok (Function.update (Function.update σ translation (V3.cells r.2.2)) scale (V3.cells r.1), Quat.cells r.2.1) := by
  intro r
  unfold Stmt.decompose_orthogonal
  rw [rows_eq]
  simp only [Res.ok_bind]
  rw [flip_eq (s := ⟨V3.length ⟨model_mat.c0.x, model_mat.c0.y, model_mat.c0.z⟩,
    V3.length ⟨model_mat.c1.x, model_mat.c1.y, model_mat.c1.z⟩,
    V3.length ⟨model_mat.c2.x, model_mat.c2.y, model_mat.c2.z⟩⟩) (hs := Function.update_self ..)]
  simp only [Res.ok_bind]
  rw [orientation_eq (o0 := orientation0)]
  simp only [Res.ok_bind, Res.pure_eq, Res.ok.injEq, Prod.mk.injEq]
  constructor
  · show _ = Function.update (Function.update σ translation (V3.cells ⟨model_mat.c3.x, model_mat.c3.y, model_mat.c3.z⟩))
      scale (V3.cells (M4.decompose_orthogonal model_mat orientation0).1)
    unfold M4.decompose_orthogonal
    simp only
    split_ifs
    · simp only [Function.update_idem]
    · rfl
  · show _ = Quat.cells (M4.decompose_orthogonal model_mat orientation0).2.1
    unfold M4.decompose_orthogonal orient
    simp only
    split_ifs <;> rfl

/-- The `no_init_t` constructors: a vector or quaternion made this way may not be read before it is written; every subscript
write makes just that component readable; a matrix made this way is nevertheless all zeros. -/
theorem C97_no_init :
    (∀ (b : Build) (i : UInt32), i < 2 → (do Cell.read (← V2.at b V2.noInit i) : Res α) = .ub) ∧
    (∀ (b : Build) (i : UInt32), i < 3 → (do Cell.read (← V3.at b V3.noInit i) : Res α) = .ub) ∧
    (∀ (b : Build) (i : UInt32), i < 4 → (do Cell.read (← V4.at b V4.noInit i) : Res α) = .ub) ∧
    (∀ (b : Build) (i : UInt32), i < 4 → (do Cell.read (← Quat.at b Quat.noInit i) : Res α) = .ub) ∧
    (∀ (b : Build) (i j : UInt32) (a : α), i < 4 → j < 4 →
      (do Cell.read (← V4.at b (← V4.set b V4.noInit i (some a)) j) : Res α) = if j = i then .ok a else .ub) ∧
    (∀ c r, entry (M2.ofNoInit : M2 α) c r = lit 0) ∧ (∀ c r, entry (M3.ofNoInit : M3 α) c r = lit 0) ∧
    (∀ c r, entry (M4.ofNoInit : M4 α) c r = lit 0) := by
  have L2 : ∀ i : UInt32, i < 2 → i = 0 ∨ i = 1 := fun i h => by grind
  have L3 : ∀ i : UInt32, i < 3 → i = 0 ∨ i = 1 ∨ i = 2 := fun i h => by grind
  have L4 : ∀ i : UInt32, i < 4 → i = 0 ∨ i = 1 ∨ i = 2 ∨ i = 3 := fun i h => by grind
  refine ⟨?_, ?_, ?_, ?_, ?_, ?_, ?_, ?_⟩
  · intro b i h; rcases L2 i h with rfl | rfl <;> cases b <;> rfl
  · intro b i h; rcases L3 i h with rfl | rfl | rfl <;> cases b <;> rfl
  · intro b i h; rcases L4 i h with rfl | rfl | rfl | rfl <;> cases b <;> rfl
  · intro b i h; rcases L4 i h with rfl | rfl | rfl | rfl <;> cases b <;> rfl
  · intro b i j a h h'
    rcases L4 i h with rfl | rfl | rfl | rfl <;> rcases L4 j h' with rfl | rfl | rfl | rfl <;> cases b <;> rfl
  · intro c r; fin_cases c <;> fin_cases r <;> rfl
  · intro c r; fin_cases c <;> fin_cases r <;> rfl
  · intro c r; fin_cases c <;> fin_cases r <;> rfl

/-! ## The outcomes are told apart

`bad1` is the `mat2` transposition with one store forgotten, `bad2` the same with a wrong subscript: neither satisfies
`C97_transpose`.  The last two examples run `decompose_orthogonal` on indeterminate outputs. -/

private def bad1 (b : Build) (m : M2 ℚ) : Res (M2 ℚ) := do
  let r : M2 (Option ℚ) := M2.noInit
  let r ← M2.storeEntry b r 0 0 (← M2.entry b m 0 0)
  let r ← M2.storeEntry b r 0 1 (← M2.entry b m 1 0)
  let r ← M2.storeEntry b r 1 1 (← M2.entry b m 1 1)
  M2.load r

private def bad2 (b : Build) (m : M2 ℚ) : Res (M2 ℚ) := do
  let r : M2 (Option ℚ) := M2.noInit
  let r ← M2.storeEntry b r 0 0 (← M2.entry b m 0 3)
  M2.load r

example : ∀ b m, bad1 b m = .ub := by intro b m; cases b <;> rfl
example : ∀ m, bad2 .debug m = .abort := fun _ => rfl
example : ∀ m, bad2 .release m = .ub := fun _ => rfl

end Zcm
