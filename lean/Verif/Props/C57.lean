import Verif.Lemmas.Hamilton
import Verif.Lemmas.Affine

/-!
# C57: `mat3_cast` / `mat4_cast` agree with quaternion rotation

Exact arithmetic.
-/

namespace Zcm

open Quaternion

attribute [local simp] M3.mulV_x M3.mulV_y M3.mulV_z M3.mul_c0x M3.mul_c0y M3.mul_c0z
  M3.mul_c1x M3.mul_c1y M3.mul_c1z M3.mul_c2x M3.mul_c2y M3.mul_c2z

/-- C57: for a unit quaternion the matrix rotates like the quaternion; it is orthogonal with
determinant 1. -/
theorem C57_rotation (q : Quat ℝ) (v : V3 ℝ) (hq : Quat.length q = 1) :
    Quat.mat3_cast q * v = q * v ∧
    (toMat (Quat.mat3_cast q)).transpose * toMat (Quat.mat3_cast q) = 1 ∧
    (toMat (Quat.mat3_cast q)).det = 1 := by
  have h := Quat.dot_self_of_length hq
  simp only [Quat.dot] at h
  refine ⟨?_, ?_, ?_⟩
  · ext <;> simp [Quat.mulV_x, Quat.mulV_y, Quat.mulV_z, Quat.mat3_cast] <;> grind
  · rw [← M3.toMat_transpose, ← M3.toMat_mul, ← M3.toMat_default, M3.toMat_injective]
    ext <;> simp [Quat.mat3_cast, M3.transpose, M3.default, M3.diag] <;> grind
  · rw [M3.det_toMat]
    simp [M3.determinant, Quat.mat3_cast]
    grind

/-- C57: the matrix of a product is the product of the matrices; `q` and `-q` give the same
matrix; the identity gives the identity; the conjugate gives the transpose. -/
theorem C57_hom (p q : Quat ℝ) (hp : Quat.length p = 1) (hq : Quat.length q = 1) :
    Quat.mat3_cast (p * q) = Quat.mat3_cast p * Quat.mat3_cast q ∧
    Quat.mat3_cast (-q) = Quat.mat3_cast q ∧
    Quat.mat3_cast (Quat.default : Quat ℝ) = M3.default ∧
    toMat (Quat.mat3_cast (Quat.conjugate q)) = (toMat (Quat.mat3_cast q)).transpose := by
  have h := Quat.dot_self_of_length hq
  have h' := Quat.dot_self_of_length hp
  simp only [Quat.dot] at h h'
  refine ⟨?_, ?_, ?_, ?_⟩
  · ext <;> simp [Quat.mat3_cast] <;> grind
  · ext <;> simp [Quat.mat3_cast]
  · ext <;> simp [Quat.mat3_cast, Quat.default, M3.default, M3.diag]
  · rw [← M3.toMat_transpose, M3.toMat_injective]
    ext <;> simp [Quat.mat3_cast, Quat.conjugate, M3.transpose] <;> ring

/-- C57: `mat4_cast(q)` is `mat3_cast(q)` bordered by zeros and a 1; it acts on points and
directions `hom p w` by rotating `p`. -/
theorem C57_mat4 (q : Quat ℝ) (p : V3 ℝ) (w : ℝ) (hq : Quat.length q = 1) :
    (∀ c r : Fin 3, entry (Quat.mat4_cast q) c.castSucc r.castSucc = entry (Quat.mat3_cast q) c r) ∧
    (∀ i : Fin 3, entry (Quat.mat4_cast q) 3 i.castSucc = 0 ∧ entry (Quat.mat4_cast q) i.castSucc 3 = 0) ∧
    entry (Quat.mat4_cast q) 3 3 = 1 ∧
    Quat.mat4_cast q * hom p w = hom (q * p) w := by
  have h := Quat.dot_self_of_length hq
  simp only [Quat.dot] at h
  refine ⟨fun c r => ?_, fun i => ?_, ?_, ?_⟩
  · fin_cases c <;> fin_cases r <;> rfl
  · fin_cases i <;> constructor <;> simp [Quat.mat4_cast, M4.ofMat3, V4.ofXYZ_W]
  · simp [Quat.mat4_cast, M4.ofMat3]
  rw [← (C57_rotation q p hq).1]
  simp only [M4.mulV_cols, Quat.mat4_cast, M4.ofMat3, V4.ofXYZ_W]
  ext <;> simp

/-- Non-vacuity: the matrix of `(3 + 4k)/5`. -/
example : Quat.length (Quat.wxyz (3/5) 0 0 (4/5) : Quat ℝ) = 1 ∧
    Quat.mat3_cast (Quat.wxyz (3/5) 0 0 (4/5) : Quat ℝ) =
      ⟨⟨-7/25, 24/25, 0⟩, ⟨-24/25, -7/25, 0⟩, ⟨0, 0, 1⟩⟩ := by
  refine ⟨Quat.length_of_dot_self (by simp [Quat.dot]; norm_num), ?_⟩
  ext <;> simp [Quat.mat3_cast] <;> norm_num

end Zcm
