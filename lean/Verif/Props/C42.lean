import Verif.Lemmas.Linear

/-!
# C42: transpose
-/

namespace Zcm

open Matrix

/-- C42 for `mat2`, any scalar type: rows become columns, and transposing twice changes nothing. -/
theorem C42_mat2 {α : Type} (m : M2 α) (i j : Fin 2) :
    entry (M2.transpose m) i j = entry m j i ∧ M2.transpose (M2.transpose m) = m := by
  refine ⟨?_, by ext <;> rfl⟩
  fin_cases i <;> fin_cases j <;> simp <;> rfl

/-- C42 for `mat2`: linearity and the product rule (exact arithmetic). -/
theorem C42_mat2_laws (A B : M2 ℝ) (s : ℝ) :
    M2.transpose (A + B) = M2.transpose A + M2.transpose B ∧
    M2.transpose (s * A) = s * M2.transpose A ∧
    M2.transpose (A * B) = M2.transpose B * M2.transpose A := by
  simp only [← M2.toMat_injective, M2.toMat_mul, M2.toMat_add, M2.toMat_smul, M2.toMat_transpose]
  exact ⟨Matrix.transpose_add _ _, Matrix.transpose_smul _ _, Matrix.transpose_mul _ _⟩

/-- C42 for `mat3`, any scalar type: rows become columns, and transposing twice changes nothing. -/
theorem C42_mat3 {α : Type} (m : M3 α) (i j : Fin 3) :
    entry (M3.transpose m) i j = entry m j i ∧ M3.transpose (M3.transpose m) = m := by
  refine ⟨?_, by ext <;> rfl⟩
  fin_cases i <;> fin_cases j <;> simp <;> rfl

/-- C42 for `mat3`: linearity and the product rule (exact arithmetic). -/
theorem C42_mat3_laws (A B : M3 ℝ) (s : ℝ) :
    M3.transpose (A + B) = M3.transpose A + M3.transpose B ∧
    M3.transpose (s * A) = s * M3.transpose A ∧
    M3.transpose (A * B) = M3.transpose B * M3.transpose A := by
  simp only [← M3.toMat_injective, M3.toMat_mul, M3.toMat_add, M3.toMat_smul, M3.toMat_transpose]
  exact ⟨Matrix.transpose_add _ _, Matrix.transpose_smul _ _, Matrix.transpose_mul _ _⟩

/-- C42 for `mat4`, any scalar type: rows become columns, and transposing twice changes nothing. -/
theorem C42_mat4 {α : Type} (m : M4 α) (i j : Fin 4) :
    entry (M4.transpose m) i j = entry m j i ∧ M4.transpose (M4.transpose m) = m := by
  refine ⟨?_, by ext <;> rfl⟩
  fin_cases i <;> fin_cases j <;> simp <;> rfl

/-- C42 for `mat4`: linearity and the product rule (exact arithmetic). -/
theorem C42_mat4_laws (A B : M4 ℝ) (s : ℝ) :
    M4.transpose (A + B) = M4.transpose A + M4.transpose B ∧
    M4.transpose (s * A) = s * M4.transpose A ∧
    M4.transpose (A * B) = M4.transpose B * M4.transpose A := by
  simp only [← M4.toMat_injective, M4.toMat_mul, M4.toMat_add, M4.toMat_smul, M4.toMat_transpose]
  exact ⟨Matrix.transpose_add _ _, Matrix.transpose_smul _ _, Matrix.transpose_mul _ _⟩

/-- Non-vacuity. -/
example : M2.transpose (⟨⟨1, 2⟩, ⟨3, 4⟩⟩ : M2 ℝ) = ⟨⟨1, 3⟩, ⟨2, 4⟩⟩ := rfl

end Zcm
