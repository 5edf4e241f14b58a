import Verif.Lemmas.Linear

/-!
# C43: determinant

Exact arithmetic.
-/

namespace Zcm

open Matrix

/-- C43 for `mat2`: the Leibniz determinant of the entries, over permutations of the indices. -/
theorem C43_mat2 (m : M2 ℝ) :
    M2.determinant m =
      ∑ σ : Equiv.Perm (Fin 2), ((Equiv.Perm.sign σ : ℤ) : ℝ) * ∏ i, entry m i (σ i) := by
  rw [← M2.det_toMat, Matrix.det_apply']
  rfl

/-- C43 for `mat2`: multiplicativity, transpose, identity, scaling. -/
theorem C43_mat2_laws (A B : M2 ℝ) (s : ℝ) :
    M2.determinant (A * B) = M2.determinant A * M2.determinant B ∧
    M2.determinant (M2.transpose A) = M2.determinant A ∧
    M2.determinant (M2.default : M2 ℝ) = 1 ∧
    M2.determinant (s * A) = s ^ 2 * M2.determinant A := by
  simp only [← M2.det_toMat, M2.toMat_mul, M2.toMat_transpose, M2.toMat_default, M2.toMat_smul]
  refine ⟨Matrix.det_mul _ _, Matrix.det_transpose _, Matrix.det_one, ?_⟩
  rw [Matrix.det_smul, Fintype.card_fin]

/-- C43 for `mat3`: the Leibniz determinant of the entries, over permutations of the indices. -/
theorem C43_mat3 (m : M3 ℝ) :
    M3.determinant m =
      ∑ σ : Equiv.Perm (Fin 3), ((Equiv.Perm.sign σ : ℤ) : ℝ) * ∏ i, entry m i (σ i) := by
  rw [← M3.det_toMat, Matrix.det_apply']
  rfl

/-- C43 for `mat3`: multiplicativity, transpose, identity, scaling. -/
theorem C43_mat3_laws (A B : M3 ℝ) (s : ℝ) :
    M3.determinant (A * B) = M3.determinant A * M3.determinant B ∧
    M3.determinant (M3.transpose A) = M3.determinant A ∧
    M3.determinant (M3.default : M3 ℝ) = 1 ∧
    M3.determinant (s * A) = s ^ 3 * M3.determinant A := by
  simp only [← M3.det_toMat, M3.toMat_mul, M3.toMat_transpose, M3.toMat_default, M3.toMat_smul]
  refine ⟨Matrix.det_mul _ _, Matrix.det_transpose _, Matrix.det_one, ?_⟩
  rw [Matrix.det_smul, Fintype.card_fin]

/-- C43 for `mat4`: the Leibniz determinant of the entries, over permutations of the indices. -/
theorem C43_mat4 (m : M4 ℝ) :
    M4.determinant m =
      ∑ σ : Equiv.Perm (Fin 4), ((Equiv.Perm.sign σ : ℤ) : ℝ) * ∏ i, entry m i (σ i) := by
  rw [← M4.det_toMat, Matrix.det_apply']
  rfl

/-- C43 for `mat4`: multiplicativity, transpose, identity, scaling. -/
theorem C43_mat4_laws (A B : M4 ℝ) (s : ℝ) :
    M4.determinant (A * B) = M4.determinant A * M4.determinant B ∧
    M4.determinant (M4.transpose A) = M4.determinant A ∧
    M4.determinant (M4.default : M4 ℝ) = 1 ∧
    M4.determinant (s * A) = s ^ 4 * M4.determinant A := by
  simp only [← M4.det_toMat, M4.toMat_mul, M4.toMat_transpose, M4.toMat_default, M4.toMat_smul]
  refine ⟨Matrix.det_mul _ _, Matrix.det_transpose _, Matrix.det_one, ?_⟩
  rw [Matrix.det_smul, Fintype.card_fin]

/-- Non-vacuity. -/
example : M3.determinant (⟨⟨2, 0, 1⟩, ⟨1, 3, 0⟩, ⟨0, 5, 4⟩⟩ : M3 ℝ) = 29 := by
  simp [M3.determinant]; norm_num

end Zcm
