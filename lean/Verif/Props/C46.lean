import Verif.Lemmas.Linear

/-!
# C46: inverseTranspose and adjugateTranspose

Exact arithmetic.  The `mat2` overloads return the untransposed matrices.
-/

namespace Zcm

open Matrix

/-- C46 for `mat2`, what the functions really return: the inverse and the adjugate, not transposed.
Missing from C46: the transposition (`C46_mat2_false`). -/
theorem C46_mat2_partial (m : M2 ℝ) :
    M2.inverseTranspose m = M2.inverse m ∧ M2.adjugateTranspose m = M2.adjugate m ∧
    (m.c0.y = m.c1.x → M2.inverseTranspose m = M2.transpose (M2.inverse m) ∧
      M2.adjugateTranspose m = M2.transpose (M2.adjugate m)) := by
  have h1 : M2.inverseTranspose m = M2.inverse m := by
    ext <;> simp [M2.inverseTranspose, M2.inverse, M2.ofFloats, div_eq_mul_inv]
  refine ⟨h1, rfl, fun h => ⟨?_, ?_⟩⟩
  · rw [h1]
    ext <;> simp [M2.transpose, M2.inverse, M2.ofFloats, h]
  · ext <;> simp [M2.transpose, M2.adjugateTranspose, M2.adjugate, M2.ofFloats, h]

/-- C46 fails for `mat2`, already for an invertible matrix. -/
theorem C46_mat2_false : ∃ m : M2 ℝ, M2.determinant m ≠ 0 ∧
    M2.inverseTranspose m ≠ M2.transpose (M2.inverse m) ∧
    M2.adjugateTranspose m ≠ M2.transpose (M2.adjugate m) := by
  refine ⟨⟨⟨1, 0⟩, ⟨2, 1⟩⟩, ?_, ?_, ?_⟩
  · simp [M2.determinant]
  · intro h
    have := congrArg (fun m : M2 ℝ => m.c0.y) h
    simp [M2.inverseTranspose, M2.transpose, M2.inverse, M2.ofFloats] at this
  · intro h
    have := congrArg (fun m : M2 ℝ => m.c0.y) h
    simp [M2.adjugateTranspose, M2.transpose, M2.adjugate, M2.ofFloats] at this

/-- C46 for `mat3`. -/
theorem C46_mat3 (m : M3 ℝ) :
    M3.inverseTranspose m = M3.transpose (M3.inverse m) ∧
    M3.adjugateTranspose m = M3.transpose (M3.adjugate m) := by
  have h : M3.adjugateTranspose m = M3.transpose (M3.adjugate m) := by
    ext <;> simp [M3.adjugateTranspose, M3.transpose, M3.adjugate]
  have hd : M3.inverseTranspose m = M3.adjugateTranspose m / M3.determinant m := by
    show M3.adjugateTranspose m / (_ : ℝ) = _
    congr 1
    simp only [M3.determinant]; ring
  refine ⟨?_, h⟩
  rw [hd, h, M3.inverse_eq]
  rfl

/-- C46 for `mat4`. -/
theorem C46_mat4 (m : M4 ℝ) :
    M4.inverseTranspose m = M4.transpose (M4.inverse m) ∧
    M4.adjugateTranspose m = M4.transpose (M4.adjugate m) := by
  have h : M4.adjugateTranspose m = M4.transpose (M4.adjugate m) := by
    ext <;> simp [M4.adjugateTranspose, M4.transpose, M4.adjugate]
  have hd : M4.inverseTranspose m = M4.adjugateTranspose m / M4.determinant m := by
    show M4.adjugateTranspose m / (_ : ℝ) = _
    congr 1
  refine ⟨?_, h⟩
  rw [hd, h, M4.inverse_eq]
  rfl

/-- Non-vacuity: an invertible `mat3` that is not symmetric. -/
example : M3.determinant (⟨⟨1, 0, 0⟩, ⟨2, 1, 0⟩, ⟨0, 0, 1⟩⟩ : M3 ℝ) ≠ 0 := by
  simp [M3.determinant]

end Zcm
