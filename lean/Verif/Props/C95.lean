import Verif.Props.C44
import Verif.Props.C46
import Verif.Lemmas.Affine

/-!
# C95: Normals and planes transform by the inverse transpose

Exact arithmetic.  This is what `inverseTranspose` and `adjugateTranspose` are used for: tangent vectors
and points move with the matrix, normals and plane equations with its inverse transpose.
-/

namespace Zcm

open Matrix

/-- C95: a normal moved by `inverseTranspose(m)` keeps its products with the tangent vectors moved by
`m`, so it stays orthogonal to exactly the same directions. -/
theorem C95_normal3 (m : M3 ℝ) (n t : V3 ℝ) (h : M3.determinant m ≠ 0) :
    V3.dot (M3.inverseTranspose m * n) (m * t) = V3.dot n t ∧
    (V3.dot (M3.inverseTranspose m * n) (m * t) = 0 ↔ V3.dot n t = 0) := by
  have e : V3.dot (M3.inverseTranspose m * n) (m * t) = V3.dot n t := by
    have h1 := (C44_mat3 m m h).1
    rw [(C46_mat3 m).1]
    generalize M3.inverse m = i at *
    have a1 := congrArg (fun m : M3 ℝ => m.c0.x) h1
    have a2 := congrArg (fun m : M3 ℝ => m.c0.y) h1
    have a3 := congrArg (fun m : M3 ℝ => m.c0.z) h1
    have b1 := congrArg (fun m : M3 ℝ => m.c1.x) h1
    have b2 := congrArg (fun m : M3 ℝ => m.c1.y) h1
    have b3 := congrArg (fun m : M3 ℝ => m.c1.z) h1
    have c1 := congrArg (fun m : M3 ℝ => m.c2.x) h1
    have c2 := congrArg (fun m : M3 ℝ => m.c2.y) h1
    have c3 := congrArg (fun m : M3 ℝ => m.c2.z) h1
    simp [M3.mul_c0x, M3.mul_c0y, M3.mul_c0z, M3.mul_c1x, M3.mul_c1y, M3.mul_c1z, M3.mul_c2x,
      M3.mul_c2y, M3.mul_c2z, M3.default, M3.diag] at a1 a2 a3 b1 b2 b3 c1 c2 c3
    simp [V3.dot, M3.mulV_x, M3.mulV_y, M3.mulV_z, M3.transpose]
    linear_combination n.x * t.x * a1 + n.y * t.x * a2 + n.z * t.x * a3 + n.x * t.y * b1 + n.y * t.y * b2 +
      n.z * t.y * b3 + n.x * t.z * c1 + n.y * t.z * c2 + n.z * t.z * c3
  exact ⟨e, by rw [e]⟩

/-- C95: the cross product of two moved tangent vectors is their cross product moved by
`adjugateTranspose(m)`, for every matrix, singular or mirroring ones included; for an invertible matrix
it is the determinant times the normal moved by `inverseTranspose(m)`. -/
theorem C95_cross (m : M3 ℝ) (s t : V3 ℝ) :
    V3.cross (m * s) (m * t) = M3.adjugateTranspose m * V3.cross s t ∧
    (M3.determinant m ≠ 0 →
      V3.cross (m * s) (m * t) = M3.determinant m * (M3.inverseTranspose m * V3.cross s t)) := by
  have e : V3.cross (m * s) (m * t) = M3.adjugateTranspose m * V3.cross s t := by
    ext <;> simp [M3.mulV_x, M3.mulV_y, M3.mulV_z, M3.adjugateTranspose] <;> ring
  refine ⟨e, fun h => ?_⟩
  have hd : M3.inverseTranspose m = M3.adjugateTranspose m / M3.determinant m := by
    rw [(C46_mat3 m).1, (C46_mat3 m).2, M3.inverse_eq]; rfl
  rw [e, hd]
  generalize M3.determinant m = d at *
  ext <;> simp [M3.mulV_x, M3.mulV_y, M3.mulV_z] <;> field_simp

/-- C95: a plane `a x + b y + c z + d = 0` moved by `inverseTranspose(m)` contains the point moved by
`m` exactly when the plane contained the point; points in front stay in front. -/
theorem C95_plane (m : M4 ℝ) (plane p : V4 ℝ) (h : M4.determinant m ≠ 0) :
    V4.dot (M4.inverseTranspose m * plane) (m * p) = V4.dot plane p := by
  have h1 := (C44_mat4 m m h).1
  rw [(C46_mat4 m).1]
  have hd : ∀ a b : V4 ℝ, V4.dot a b = coord a ⬝ᵥ coord b := by
    intro a b; simp [dotProduct, Fin.sum_univ_four, V4.dot]
  rw [hd, hd, M4.coord_mulV, M4.coord_mulV, M4.toMat_transpose, Matrix.mulVec_transpose, ← Matrix.dotProduct_mulVec,
    Matrix.mulVec_mulVec, ← M4.toMat_mul, h1, M4.toMat_default, Matrix.one_mulVec]

/-- C95 fails for `mat2`: `inverseTranspose(mat2)` is the plain inverse (see C46), so a normal moved by it
is in general no longer orthogonal to the tangent moved by the matrix. -/
theorem C95_normal2_false : ∃ (m : M2 ℝ) (n t : V2 ℝ), M2.determinant m ≠ 0 ∧ V2.dot n t = 0 ∧
    V2.dot (M2.inverseTranspose m * n) (m * t) ≠ 0 := by
  refine ⟨⟨⟨1, 0⟩, ⟨2, 1⟩⟩, ⟨1, 0⟩, ⟨0, 1⟩, ?_, ?_, ?_⟩
  · simp [M2.determinant]
  · simp [V2.dot]
  · simp [V2.dot, M2.inverseTranspose, M2.mulV_x, M2.mulV_y, M2.ofFloats]

/-- C95 for `mat2`, the part that holds: with `transpose(inverse(m))`, or with `inverseTranspose(m)` when
`m` is symmetric, normals stay normals.
MISSING: `inverseTranspose(m)` for `m` that is not symmetric; it is false, see `C95_normal2_false`. -/
theorem C95_normal2_partial (m : M2 ℝ) (n t : V2 ℝ) (h : M2.determinant m ≠ 0) :
    V2.dot (M2.transpose (M2.inverse m) * n) (m * t) = V2.dot n t ∧
    (m.c0.y = m.c1.x → V2.dot (M2.inverseTranspose m * n) (m * t) = V2.dot n t) := by
  have hd : ∀ a b : V2 ℝ, V2.dot a b = coord a ⬝ᵥ coord b := by
    intro a b; simp [dotProduct, Fin.sum_univ_two, V2.dot]
  have e : V2.dot (M2.transpose (M2.inverse m) * n) (m * t) = V2.dot n t := by
    rw [hd, hd, M2.coord_mulV, M2.coord_mulV, M2.toMat_transpose, Matrix.mulVec_transpose, ← Matrix.dotProduct_mulVec,
      Matrix.mulVec_mulVec, ← M2.toMat_mul, (C44_mat2 m m h).1, M2.toMat_default, Matrix.one_mulVec]
  refine ⟨e, fun hs => ?_⟩
  rw [← e, ((C46_mat2_partial m).2.2 hs).1]

/-- Non-vacuity: a shear, which moves normals and tangents differently. -/
example : M3.determinant (⟨⟨1, 0, 0⟩, ⟨2, 1, 0⟩, ⟨0, 0, 1⟩⟩ : M3 ℝ) ≠ 0 := by
  simp [M3.determinant]

end Zcm
