import Verif.Lemmas.Linear

/-!
# C47: matrix division undoes multiplication

Exact arithmetic.
-/

namespace Zcm

open Matrix

/-- C47 for `mat2`. -/
theorem C47_mat2 (A B : M2 ℝ) (v : V2 ℝ) (hB : M2.determinant B ≠ 0) :
    (A * B) / B = A ∧ (A / B) * B = A ∧ B / B = (M2.default : M2 ℝ) ∧
    B * (B / v) = v ∧ (v / B) * B = v ∧ (∀ x : V2 ℝ, B * x = v → x = B / v) ∧
    (∀ x : V2 ℝ, x * B = v → x = v / B) := by
  rw [← M2.det_toMat] at hB
  have hB := isUnit_iff_ne_zero.2 hB
  have e1 : ∀ X Y : M2 ℝ, X / Y = X * M2.inverse Y := fun _ _ => rfl
  have e2 : ∀ (X : M2 ℝ) (w : V2 ℝ), X / w = M2.inverse X * w := fun _ _ => rfl
  have e3 : ∀ (X : M2 ℝ) (w : V2 ℝ), w / X = w * M2.inverse X := fun _ _ => rfl
  have h1 := Matrix.nonsing_inv_mul _ hB
  have h2 := Matrix.mul_nonsing_inv _ hB
  simp only [← M2.toMat_injective, ← M2.coord_injective, e1, e2, e3, M2.toMat_mul, M2.toMat_inverse,
    M2.toMat_default, M2.coord_mulV, M2.coord_vMul]
  refine ⟨?_, ?_, h2, ?_, ?_, fun x hx => ?_, fun x hx => ?_⟩
  · rw [Matrix.mul_assoc, h2, Matrix.mul_one]
  · rw [Matrix.mul_assoc, h1, Matrix.mul_one]
  · rw [Matrix.mulVec_mulVec, h2, Matrix.one_mulVec]
  · rw [Matrix.vecMul_vecMul, h1, Matrix.vecMul_one]
  · rw [← hx, Matrix.mulVec_mulVec, h1, Matrix.one_mulVec]
  · rw [← hx, Matrix.vecMul_vecMul, h2, Matrix.vecMul_one]

/-- C47 for `mat2`: `A /= B` stores `A / B` in `A` and changes nothing else; `A` and `B` may be the
same object, then `A` becomes the identity. -/
theorem C47_mat2_assign (σ : Store (M2 ℝ)) (a b : ℕ) :
    M2.divAssign σ a b a = σ a / σ b ∧ (∀ k, k ≠ a → M2.divAssign σ a b k = σ k) ∧
    (M2.determinant (σ a) ≠ 0 → M2.divAssign σ a a a = (M2.default : M2 ℝ)) := by
  have h : ∀ b, M2.divAssign σ a b a = σ a / σ b := fun b => by simp [M2.divAssign]
  refine ⟨h b, fun k hk => by simp [M2.divAssign, hk], fun h0 => ?_⟩
  rw [h a]
  exact (C47_mat2 (σ a) (σ a) ⟨0, 0⟩ h0).2.2.1

/-- C47 for `mat3`. -/
theorem C47_mat3 (A B : M3 ℝ) (v : V3 ℝ) (hB : M3.determinant B ≠ 0) :
    (A * B) / B = A ∧ (A / B) * B = A ∧ B / B = (M3.default : M3 ℝ) ∧
    B * (B / v) = v ∧ (v / B) * B = v ∧ (∀ x : V3 ℝ, B * x = v → x = B / v) ∧
    (∀ x : V3 ℝ, x * B = v → x = v / B) := by
  rw [← M3.det_toMat] at hB
  have hB := isUnit_iff_ne_zero.2 hB
  have e1 : ∀ X Y : M3 ℝ, X / Y = X * M3.inverse Y := fun _ _ => rfl
  have e2 : ∀ (X : M3 ℝ) (w : V3 ℝ), X / w = M3.inverse X * w := fun _ _ => rfl
  have e3 : ∀ (X : M3 ℝ) (w : V3 ℝ), w / X = w * M3.inverse X := fun _ _ => rfl
  have h1 := Matrix.nonsing_inv_mul _ hB
  have h2 := Matrix.mul_nonsing_inv _ hB
  simp only [← M3.toMat_injective, ← M3.coord_injective, e1, e2, e3, M3.toMat_mul, M3.toMat_inverse,
    M3.toMat_default, M3.coord_mulV, M3.coord_vMul]
  refine ⟨?_, ?_, h2, ?_, ?_, fun x hx => ?_, fun x hx => ?_⟩
  · rw [Matrix.mul_assoc, h2, Matrix.mul_one]
  · rw [Matrix.mul_assoc, h1, Matrix.mul_one]
  · rw [Matrix.mulVec_mulVec, h2, Matrix.one_mulVec]
  · rw [Matrix.vecMul_vecMul, h1, Matrix.vecMul_one]
  · rw [← hx, Matrix.mulVec_mulVec, h1, Matrix.one_mulVec]
  · rw [← hx, Matrix.vecMul_vecMul, h2, Matrix.vecMul_one]

/-- C47 for `mat3`: `A /= B` stores `A / B` in `A` and changes nothing else; `A` and `B` may be the
same object, then `A` becomes the identity. -/
theorem C47_mat3_assign (σ : Store (M3 ℝ)) (a b : ℕ) :
    M3.divAssign σ a b a = σ a / σ b ∧ (∀ k, k ≠ a → M3.divAssign σ a b k = σ k) ∧
    (M3.determinant (σ a) ≠ 0 → M3.divAssign σ a a a = (M3.default : M3 ℝ)) := by
  have h : ∀ b, M3.divAssign σ a b a = σ a / σ b := fun b => by simp [M3.divAssign]
  refine ⟨h b, fun k hk => by simp [M3.divAssign, hk], fun h0 => ?_⟩
  rw [h a]
  exact (C47_mat3 (σ a) (σ a) ⟨0, 0, 0⟩ h0).2.2.1

/-- C47 for `mat4`. -/
theorem C47_mat4 (A B : M4 ℝ) (v : V4 ℝ) (hB : M4.determinant B ≠ 0) :
    (A * B) / B = A ∧ (A / B) * B = A ∧ B / B = (M4.default : M4 ℝ) ∧
    B * (B / v) = v ∧ (v / B) * B = v ∧ (∀ x : V4 ℝ, B * x = v → x = B / v) ∧
    (∀ x : V4 ℝ, x * B = v → x = v / B) := by
  rw [← M4.det_toMat] at hB
  have hB := isUnit_iff_ne_zero.2 hB
  have e1 : ∀ X Y : M4 ℝ, X / Y = X * M4.inverse Y := fun _ _ => rfl
  have e2 : ∀ (X : M4 ℝ) (w : V4 ℝ), X / w = M4.inverse X * w := fun _ _ => rfl
  have e3 : ∀ (X : M4 ℝ) (w : V4 ℝ), w / X = w * M4.inverse X := fun _ _ => rfl
  have h1 := Matrix.nonsing_inv_mul _ hB
  have h2 := Matrix.mul_nonsing_inv _ hB
  simp only [← M4.toMat_injective, ← M4.coord_injective, e1, e2, e3, M4.toMat_mul, M4.toMat_inverse,
    M4.toMat_default, M4.coord_mulV, M4.coord_vMul]
  refine ⟨?_, ?_, h2, ?_, ?_, fun x hx => ?_, fun x hx => ?_⟩
  · rw [Matrix.mul_assoc, h2, Matrix.mul_one]
  · rw [Matrix.mul_assoc, h1, Matrix.mul_one]
  · rw [Matrix.mulVec_mulVec, h2, Matrix.one_mulVec]
  · rw [Matrix.vecMul_vecMul, h1, Matrix.vecMul_one]
  · rw [← hx, Matrix.mulVec_mulVec, h1, Matrix.one_mulVec]
  · rw [← hx, Matrix.vecMul_vecMul, h2, Matrix.vecMul_one]

/-- C47 for `mat4`: `A /= B` stores `A / B` in `A` and changes nothing else; `A` and `B` may be the
same object, then `A` becomes the identity. -/
theorem C47_mat4_assign (σ : Store (M4 ℝ)) (a b : ℕ) :
    M4.divAssign σ a b a = σ a / σ b ∧ (∀ k, k ≠ a → M4.divAssign σ a b k = σ k) ∧
    (M4.determinant (σ a) ≠ 0 → M4.divAssign σ a a a = (M4.default : M4 ℝ)) := by
  have h : ∀ b, M4.divAssign σ a b a = σ a / σ b := fun b => by simp [M4.divAssign]
  refine ⟨h b, fun k hk => by simp [M4.divAssign, hk], fun h0 => ?_⟩
  rw [h a]
  exact (C47_mat4 (σ a) (σ a) ⟨0, 0, 0, 0⟩ h0).2.2.1

/-- Non-vacuity. -/
example : M2.determinant (⟨⟨1, 2⟩, ⟨3, 4⟩⟩ : M2 ℝ) ≠ 0 ∧
    (⟨⟨1, 2⟩, ⟨3, 4⟩⟩ : M2 ℝ) / (⟨23, 34⟩ : V2 ℝ) = ⟨5, 6⟩ := by
  have h : M2.determinant (⟨⟨1, 2⟩, ⟨3, 4⟩⟩ : M2 ℝ) ≠ 0 := by simp [M2.determinant]; norm_num
  refine ⟨h, ((C47_mat2 M2.default _ _ h).2.2.2.2.2.1 _ ?_).symm⟩
  ext <;> simp [M2.mulV_x, M2.mulV_y] <;> norm_num

end Zcm
