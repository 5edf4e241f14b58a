import Verif.Lemmas.Linear

/-!
# C44: inverse is the two-sided inverse

Exact arithmetic.
-/

namespace Zcm

open Matrix

/-- C44 for `mat2`. -/
theorem C44_mat2 (A B : M2 ℝ) (hA : M2.determinant A ≠ 0) :
    M2.inverse A * A = M2.default ∧ A * M2.inverse A = M2.default ∧
    M2.inverse (M2.inverse A) = A ∧
    M2.inverse (A * B) = M2.inverse B * M2.inverse A ∧
    M2.determinant (M2.inverse A) = 1 / M2.determinant A := by
  rw [← M2.det_toMat] at hA
  have hA' := isUnit_iff_ne_zero.2 hA
  simp only [← M2.det_toMat, ← M2.toMat_injective, M2.toMat_mul, M2.toMat_inverse, M2.toMat_default]
  refine ⟨Matrix.nonsing_inv_mul _ hA', Matrix.mul_nonsing_inv _ hA', Matrix.nonsing_inv_nonsing_inv _ hA',
    Matrix.mul_inv_rev _ _, ?_⟩
  rw [Matrix.det_nonsing_inv, Ring.inverse_eq_inv', one_div]

/-- C44 for `mat3`. -/
theorem C44_mat3 (A B : M3 ℝ) (hA : M3.determinant A ≠ 0) :
    M3.inverse A * A = M3.default ∧ A * M3.inverse A = M3.default ∧
    M3.inverse (M3.inverse A) = A ∧
    M3.inverse (A * B) = M3.inverse B * M3.inverse A ∧
    M3.determinant (M3.inverse A) = 1 / M3.determinant A := by
  rw [← M3.det_toMat] at hA
  have hA' := isUnit_iff_ne_zero.2 hA
  simp only [← M3.det_toMat, ← M3.toMat_injective, M3.toMat_mul, M3.toMat_inverse, M3.toMat_default]
  refine ⟨Matrix.nonsing_inv_mul _ hA', Matrix.mul_nonsing_inv _ hA', Matrix.nonsing_inv_nonsing_inv _ hA',
    Matrix.mul_inv_rev _ _, ?_⟩
  rw [Matrix.det_nonsing_inv, Ring.inverse_eq_inv', one_div]

/-- C44 for `mat4`. -/
theorem C44_mat4 (A B : M4 ℝ) (hA : M4.determinant A ≠ 0) :
    M4.inverse A * A = M4.default ∧ A * M4.inverse A = M4.default ∧
    M4.inverse (M4.inverse A) = A ∧
    M4.inverse (A * B) = M4.inverse B * M4.inverse A ∧
    M4.determinant (M4.inverse A) = 1 / M4.determinant A := by
  rw [← M4.det_toMat] at hA
  have hA' := isUnit_iff_ne_zero.2 hA
  simp only [← M4.det_toMat, ← M4.toMat_injective, M4.toMat_mul, M4.toMat_inverse, M4.toMat_default]
  refine ⟨Matrix.nonsing_inv_mul _ hA', Matrix.mul_nonsing_inv _ hA', Matrix.nonsing_inv_nonsing_inv _ hA',
    Matrix.mul_inv_rev _ _, ?_⟩
  rw [Matrix.det_nonsing_inv, Ring.inverse_eq_inv', one_div]

/-- Non-vacuity: an invertible matrix, and its inverse. -/
example : M2.determinant (⟨⟨1, 2⟩, ⟨3, 4⟩⟩ : M2 ℝ) ≠ 0 ∧
    M2.inverse (⟨⟨1, 2⟩, ⟨3, 4⟩⟩ : M2 ℝ) = ⟨⟨-2, 1⟩, ⟨3/2, -1/2⟩⟩ := by
  constructor
  · simp [M2.determinant]; norm_num
  · ext <;> simp [M2.inverse, M2.ofFloats] <;> norm_num
example : M4.determinant (⟨⟨2, 0, 0, 1⟩, ⟨0, 3, 0, 0⟩, ⟨0, 0, 4, 0⟩, ⟨0, 0, 5, 1⟩⟩ : M4 ℝ) ≠ 0 := by
  simp [M4.determinant]

end Zcm
