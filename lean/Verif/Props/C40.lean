import Verif.Lemmas.Linear

/-!
# C40: matrix multiplication is the linear-algebra product

Exact arithmetic.
-/

namespace Zcm

open Matrix

/-- C40 for `mat2`: the product is Mathlib's matrix product. -/
theorem C40_mat2 (A B : M2 ℝ) : toMat (A * B) = toMat A * toMat B := M2.toMat_mul A B

/-- C40 for `mat2`, entry by entry. -/
theorem C40_mat2_entry (A B : M2 ℝ) (c r : Fin 2) :
    entry (A * B) c r = ∑ k, entry A k r * entry B c k := by
  have h := congrFun (congrFun (M2.toMat_mul A B) r) c
  rw [Matrix.mul_apply] at h
  exact h

/-- C40 for `mat2`: associativity, distributivity, identity. -/
theorem C40_mat2_laws (A B C : M2 ℝ) :
    (A * B) * C = A * (B * C) ∧ A * (B + C) = A * B + A * C ∧ (A + B) * C = A * C + B * C ∧
    (M2.default : M2 ℝ) * A = A ∧ A * (M2.default : M2 ℝ) = A := by
  simp only [← M2.toMat_injective, M2.toMat_mul, M2.toMat_add, M2.toMat_default]
  exact ⟨Matrix.mul_assoc _ _ _, Matrix.mul_add _ _ _, Matrix.add_mul _ _ _, Matrix.one_mul _,
    Matrix.mul_one _⟩

/-- C40 for `mat3`: the product is Mathlib's matrix product. -/
theorem C40_mat3 (A B : M3 ℝ) : toMat (A * B) = toMat A * toMat B := M3.toMat_mul A B

/-- C40 for `mat3`, entry by entry. -/
theorem C40_mat3_entry (A B : M3 ℝ) (c r : Fin 3) :
    entry (A * B) c r = ∑ k, entry A k r * entry B c k := by
  have h := congrFun (congrFun (M3.toMat_mul A B) r) c
  rw [Matrix.mul_apply] at h
  exact h

/-- C40 for `mat3`: associativity, distributivity, identity. -/
theorem C40_mat3_laws (A B C : M3 ℝ) :
    (A * B) * C = A * (B * C) ∧ A * (B + C) = A * B + A * C ∧ (A + B) * C = A * C + B * C ∧
    (M3.default : M3 ℝ) * A = A ∧ A * (M3.default : M3 ℝ) = A := by
  simp only [← M3.toMat_injective, M3.toMat_mul, M3.toMat_add, M3.toMat_default]
  exact ⟨Matrix.mul_assoc _ _ _, Matrix.mul_add _ _ _, Matrix.add_mul _ _ _, Matrix.one_mul _,
    Matrix.mul_one _⟩

/-- C40 for `mat4`: the product is Mathlib's matrix product. -/
theorem C40_mat4 (A B : M4 ℝ) : toMat (A * B) = toMat A * toMat B := M4.toMat_mul A B

/-- C40 for `mat4`, entry by entry. -/
theorem C40_mat4_entry (A B : M4 ℝ) (c r : Fin 4) :
    entry (A * B) c r = ∑ k, entry A k r * entry B c k := by
  have h := congrFun (congrFun (M4.toMat_mul A B) r) c
  rw [Matrix.mul_apply] at h
  exact h

/-- C40 for `mat4`: associativity, distributivity, identity. -/
theorem C40_mat4_laws (A B C : M4 ℝ) :
    (A * B) * C = A * (B * C) ∧ A * (B + C) = A * B + A * C ∧ (A + B) * C = A * C + B * C ∧
    (M4.default : M4 ℝ) * A = A ∧ A * (M4.default : M4 ℝ) = A := by
  simp only [← M4.toMat_injective, M4.toMat_mul, M4.toMat_add, M4.toMat_default]
  exact ⟨Matrix.mul_assoc _ _ _, Matrix.mul_add _ _ _, Matrix.add_mul _ _ _, Matrix.one_mul _,
    Matrix.mul_one _⟩

/-- Non-vacuity: a product that depends on the order of the factors (columns are listed). -/
example : (⟨⟨1, 2⟩, ⟨3, 4⟩⟩ : M2 ℝ) * (⟨⟨0, 1⟩, ⟨1, 0⟩⟩ : M2 ℝ) = ⟨⟨3, 4⟩, ⟨1, 2⟩⟩ ∧
    (⟨⟨0, 1⟩, ⟨1, 0⟩⟩ : M2 ℝ) * (⟨⟨1, 2⟩, ⟨3, 4⟩⟩ : M2 ℝ) = ⟨⟨2, 1⟩, ⟨4, 3⟩⟩ := by
  constructor <;> ext <;> simp [M2.mul_c0x, M2.mul_c0y, M2.mul_c1x, M2.mul_c1y]

end Zcm
