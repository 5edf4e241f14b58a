import Verif.Lemmas.Linear

/-!
# C45: adjugate

Exact arithmetic.
-/

namespace Zcm

open Matrix

/-- C45 for `mat2`: for every matrix, singular or not. -/
theorem C45_mat2 (m : M2 ℝ) :
    M2.adjugate m * m = M2.determinant m * (M2.default : M2 ℝ) ∧
    m * M2.adjugate m = M2.determinant m * (M2.default : M2 ℝ) ∧
    M2.inverse m = M2.adjugate m / M2.determinant m ∧
    toMat (M2.adjugate m) = (toMat m).adjugate := by
  refine ⟨?_, ?_, M2.inverse_eq m, M2.toMat_adjugate m⟩
  · rw [← M2.toMat_injective, M2.toMat_mul, M2.toMat_smul, M2.toMat_adjugate, M2.toMat_default,
      Matrix.adjugate_mul, M2.det_toMat]
  · rw [← M2.toMat_injective, M2.toMat_mul, M2.toMat_smul, M2.toMat_adjugate, M2.toMat_default,
      Matrix.mul_adjugate, M2.det_toMat]

/-- C45 for `mat3`: for every matrix, singular or not. -/
theorem C45_mat3 (m : M3 ℝ) :
    M3.adjugate m * m = M3.determinant m * (M3.default : M3 ℝ) ∧
    m * M3.adjugate m = M3.determinant m * (M3.default : M3 ℝ) ∧
    M3.inverse m = M3.adjugate m / M3.determinant m ∧
    toMat (M3.adjugate m) = (toMat m).adjugate := by
  refine ⟨?_, ?_, M3.inverse_eq m, M3.toMat_adjugate m⟩
  · rw [← M3.toMat_injective, M3.toMat_mul, M3.toMat_smul, M3.toMat_adjugate, M3.toMat_default,
      Matrix.adjugate_mul, M3.det_toMat]
  · rw [← M3.toMat_injective, M3.toMat_mul, M3.toMat_smul, M3.toMat_adjugate, M3.toMat_default,
      Matrix.mul_adjugate, M3.det_toMat]

/-- C45 for `mat4`: for every matrix, singular or not. -/
theorem C45_mat4 (m : M4 ℝ) :
    M4.adjugate m * m = M4.determinant m * (M4.default : M4 ℝ) ∧
    m * M4.adjugate m = M4.determinant m * (M4.default : M4 ℝ) ∧
    M4.inverse m = M4.adjugate m / M4.determinant m ∧
    toMat (M4.adjugate m) = (toMat m).adjugate := by
  refine ⟨?_, ?_, M4.inverse_eq m, M4.toMat_adjugate m⟩
  · rw [← M4.toMat_injective, M4.toMat_mul, M4.toMat_smul, M4.toMat_adjugate, M4.toMat_default,
      Matrix.adjugate_mul, M4.det_toMat]
  · rw [← M4.toMat_injective, M4.toMat_mul, M4.toMat_smul, M4.toMat_adjugate, M4.toMat_default,
      Matrix.mul_adjugate, M4.det_toMat]

/-- Non-vacuity: a singular matrix with non-zero adjugate. -/
example : M2.determinant (⟨⟨1, 2⟩, ⟨2, 4⟩⟩ : M2 ℝ) = 0 ∧
    M2.adjugate (⟨⟨1, 2⟩, ⟨2, 4⟩⟩ : M2 ℝ) = ⟨⟨4, -2⟩, ⟨-2, 1⟩⟩ := by
  constructor
  · simp [M2.determinant]; norm_num
  · ext <;> simp [M2.adjugate, M2.ofFloats]

end Zcm
