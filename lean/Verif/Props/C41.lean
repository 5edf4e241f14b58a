import Verif.Lemmas.Linear

/-!
# C41: matrix-vector products

Exact arithmetic.
-/

namespace Zcm

open Matrix

/-- C41 for `mat2`: `M * v` takes `v` as a column, `v * M` as a row. -/
theorem C41_mat2 (m : M2 ℝ) (v : V2 ℝ) (i : Fin 2) :
    coord (m * v) i = ∑ k, entry m k i * coord v k ∧
    coord (v * m) i = ∑ k, coord v k * entry m i k := by
  rw [M2.coord_mulV, M2.coord_vMul]
  exact ⟨rfl, rfl⟩

/-- C41 for `mat2`: compatibility with the matrix product and linearity. -/
theorem C41_mat2_laws (A B : M2 ℝ) (v w : V2 ℝ) (s : ℝ) :
    (A * B) * v = A * (B * v) ∧ v * (A * B) = (v * A) * B ∧ v * A = M2.transpose A * v ∧
    A * (v + w) = A * v + A * w ∧ A * (s * v) = s * (A * v) ∧
    (v + w) * A = v * A + w * A ∧ (s * v) * A = s * (v * A) ∧
    (M2.default : M2 ℝ) * v = v ∧ v * (M2.default : M2 ℝ) = v := by
  have ca : ∀ x y : V2 ℝ, coord (x + y) = coord x + coord y := fun x y => by
    ext i; fin_cases i <;> rfl
  have cs : ∀ x : V2 ℝ, coord (s * x) = s • coord x := fun x => by
    ext i; fin_cases i <;> rfl
  simp only [← M2.coord_injective, M2.coord_mulV, M2.coord_vMul, M2.toMat_mul, M2.toMat_transpose, ca, cs,
    M2.toMat_default]
  exact ⟨(Matrix.mulVec_mulVec _ _ _).symm, (Matrix.vecMul_vecMul _ _ _).symm, (Matrix.mulVec_transpose _ _).symm,
    Matrix.mulVec_add _ _ _, Matrix.mulVec_smul _ _ _, Matrix.add_vecMul _ _ _, Matrix.smul_vecMul _ _ _,
    Matrix.one_mulVec _, Matrix.vecMul_one _⟩

/-- C41 for `mat3`: `M * v` takes `v` as a column, `v * M` as a row. -/
theorem C41_mat3 (m : M3 ℝ) (v : V3 ℝ) (i : Fin 3) :
    coord (m * v) i = ∑ k, entry m k i * coord v k ∧
    coord (v * m) i = ∑ k, coord v k * entry m i k := by
  rw [M3.coord_mulV, M3.coord_vMul]
  exact ⟨rfl, rfl⟩

/-- C41 for `mat3`: compatibility with the matrix product and linearity. -/
theorem C41_mat3_laws (A B : M3 ℝ) (v w : V3 ℝ) (s : ℝ) :
    (A * B) * v = A * (B * v) ∧ v * (A * B) = (v * A) * B ∧ v * A = M3.transpose A * v ∧
    A * (v + w) = A * v + A * w ∧ A * (s * v) = s * (A * v) ∧
    (v + w) * A = v * A + w * A ∧ (s * v) * A = s * (v * A) ∧
    (M3.default : M3 ℝ) * v = v ∧ v * (M3.default : M3 ℝ) = v := by
  have ca : ∀ x y : V3 ℝ, coord (x + y) = coord x + coord y := fun x y => by
    ext i; fin_cases i <;> rfl
  have cs : ∀ x : V3 ℝ, coord (s * x) = s • coord x := fun x => by
    ext i; fin_cases i <;> rfl
  simp only [← M3.coord_injective, M3.coord_mulV, M3.coord_vMul, M3.toMat_mul, M3.toMat_transpose, ca, cs,
    M3.toMat_default]
  exact ⟨(Matrix.mulVec_mulVec _ _ _).symm, (Matrix.vecMul_vecMul _ _ _).symm, (Matrix.mulVec_transpose _ _).symm,
    Matrix.mulVec_add _ _ _, Matrix.mulVec_smul _ _ _, Matrix.add_vecMul _ _ _, Matrix.smul_vecMul _ _ _,
    Matrix.one_mulVec _, Matrix.vecMul_one _⟩

/-- C41 for `mat4`: `M * v` takes `v` as a column, `v * M` as a row. -/
theorem C41_mat4 (m : M4 ℝ) (v : V4 ℝ) (i : Fin 4) :
    coord (m * v) i = ∑ k, entry m k i * coord v k ∧
    coord (v * m) i = ∑ k, coord v k * entry m i k := by
  rw [M4.coord_mulV, M4.coord_vMul]
  exact ⟨rfl, rfl⟩

/-- C41 for `mat4`: compatibility with the matrix product and linearity. -/
theorem C41_mat4_laws (A B : M4 ℝ) (v w : V4 ℝ) (s : ℝ) :
    (A * B) * v = A * (B * v) ∧ v * (A * B) = (v * A) * B ∧ v * A = M4.transpose A * v ∧
    A * (v + w) = A * v + A * w ∧ A * (s * v) = s * (A * v) ∧
    (v + w) * A = v * A + w * A ∧ (s * v) * A = s * (v * A) ∧
    (M4.default : M4 ℝ) * v = v ∧ v * (M4.default : M4 ℝ) = v := by
  have ca : ∀ x y : V4 ℝ, coord (x + y) = coord x + coord y := fun x y => by
    ext i; fin_cases i <;> rfl
  have cs : ∀ x : V4 ℝ, coord (s * x) = s • coord x := fun x => by
    ext i; fin_cases i <;> rfl
  simp only [← M4.coord_injective, M4.coord_mulV, M4.coord_vMul, M4.toMat_mul, M4.toMat_transpose, ca, cs,
    M4.toMat_default]
  exact ⟨(Matrix.mulVec_mulVec _ _ _).symm, (Matrix.vecMul_vecMul _ _ _).symm, (Matrix.mulVec_transpose _ _).symm,
    Matrix.mulVec_add _ _ _, Matrix.mulVec_smul _ _ _, Matrix.add_vecMul _ _ _, Matrix.smul_vecMul _ _ _,
    Matrix.one_mulVec _, Matrix.vecMul_one _⟩

/-- Non-vacuity: the two products differ (columns of the matrix are listed). -/
example : (⟨⟨1, 2⟩, ⟨3, 4⟩⟩ : M2 ℝ) * (⟨5, 6⟩ : V2 ℝ) = ⟨23, 34⟩ ∧
    (⟨5, 6⟩ : V2 ℝ) * (⟨⟨1, 2⟩, ⟨3, 4⟩⟩ : M2 ℝ) = ⟨17, 39⟩ := by
  constructor <;> ext <;> simp [M2.mulV_x, M2.mulV_y, M2.vMul_x, M2.vMul_y] <;> norm_num

end Zcm
