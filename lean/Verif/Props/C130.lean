import Verif.Lemmas.F32Linear
import Verif.Model.Matrix
import Verif.Props.C81

/-!
# C130  Transposes, columns and linearity of matrix products in IEEE arithmetic

Some laws of matrix algebra hold bit for bit in binary32 (NaN, infinities and subnormals included), others up to a few
rounding errors.
-/

set_option exponentiation.threshold 300

namespace Zcm

open F32

/-! ## mat2 -/

/-- C130, mat2: the transpose of a product is the product of the transposes in the other order, bit for bit. -/
theorem C130_transpose_mat2 (a b : M2 F32) : M2.transpose (a * b) = M2.transpose b * M2.transpose a := by
  ext <;> exact sum_comm2 _ _ _ _

/-- C130, mat2: a row vector times a matrix is the transposed matrix times the vector, and its components are the dot
products with the columns, bit for bit. -/
theorem C130_row_mat2 (m : M2 F32) (v : V2 F32) :
    v * m = M2.transpose m * v ∧ v * m = ⟨V2.dot m.c0 v, V2.dot m.c1 v⟩ := by
  constructor <;> ext <;> first | rfl | exact sum_comm2 _ _ _ _

/-- C130, mat2: the columns of a product are the first matrix applied to the columns of the second, bit for bit. -/
theorem C130_columns_mat2 (a b : M2 F32) : (a * b).c0 = a * b.c0 ∧ (a * b).c1 = a * b.c1 :=
  ⟨rfl, rfl⟩

/-- C130, mat2: a matrix applied to a sum of vectors is the sum of the results, up to 11 units of `2^-24` of the sum of
the magnitudes of all terms. -/
theorem C130_mul_add_vec2 (m : M2 F32) (a b : V2 F32) (fm : ∀ c r, (entry m c r).IsFin = true)
    (fa : ∀ i, (coord a i).IsFin = true ∧ |(coord a i).val| ≤ 2 ^ 126) (fb : ∀ i, (coord b i).IsFin = true ∧ |(coord b i).val| ≤ 2 ^ 126)
    (r : Fin 2) (hT : ∑ c, |(entry m c r).val| * (|(coord a c).val| + |(coord b c).val|) ≤ 2 ^ 125) :
    ((coord (m * (a + b)) r).IsFin = true ∧ (coord (m * a + m * b) r).IsFin = true) ∧
      |(coord (m * (a + b)) r).val - (coord (m * a + m * b) r).val| ≤
        11 / 2 ^ 24 * ∑ c, |(entry m c r).val| * (|(coord a c).val| + |(coord b c).val|) + 1 / 2 ^ 144 := by
  rw [show coord (m * a + m * b) r = coord (m * a) r + coord (m * b) r by fin_cases r <;> rfl]
  exact linear_add (by norm_num) (C81_mat2_vec m (a + b) r) (C81_mat2_vec m a r) (C81_mat2_vec m b r)
    (fun c => by fin_cases c <;> rfl) (fun c => fm c r) fa fb hT

/-- C130, mat2: a sum of matrices applied to a vector likewise. -/
theorem C130_add_mul_vec2 (m n : M2 F32) (a : V2 F32) (fa : ∀ i, (coord a i).IsFin = true)
    (fm : ∀ c r, (entry m c r).IsFin = true ∧ |(entry m c r).val| ≤ 2 ^ 126)
    (fn : ∀ c r, (entry n c r).IsFin = true ∧ |(entry n c r).val| ≤ 2 ^ 126) (r : Fin 2) (hT : ∑ c, |(coord a c).val| * (|(entry m c r).val| + |(entry n c r).val|) ≤ 2 ^ 125) :
    ((coord ((m + n) * a) r).IsFin = true ∧ (coord (m * a + n * a) r).IsFin = true) ∧
      |(coord ((m + n) * a) r).val - (coord (m * a + n * a) r).val| ≤
        11 / 2 ^ 24 * ∑ c, |(coord a c).val| * (|(entry m c r).val| + |(entry n c r).val|) + 1 / 2 ^ 144 := by
  rw [show coord (m * a + n * a) r = coord (m * a) r + coord (n * a) r by fin_cases r <;> rfl]
  exact linear_add (by norm_num) (C81_mat2_vec (m + n) a r).swap (C81_mat2_vec m a r).swap (C81_mat2_vec n a r).swap
    (fun c => by fin_cases c <;> fin_cases r <;> rfl) fa (fun c => fm c r) (fun c => fn c r) hT

/-- C130, mat2: a matrix times a sum of matrices likewise. -/
theorem C130_mul_add_mat2 (l m n : M2 F32) (fl : ∀ c r, (entry l c r).IsFin = true)
    (fm : ∀ c r, (entry m c r).IsFin = true ∧ |(entry m c r).val| ≤ 2 ^ 126)
    (fn : ∀ c r, (entry n c r).IsFin = true ∧ |(entry n c r).val| ≤ 2 ^ 126) (c r : Fin 2) (hT : ∑ k, |(entry l k r).val| * (|(entry m c k).val| + |(entry n c k).val|) ≤ 2 ^ 125) :
    ((entry (l * (m + n)) c r).IsFin = true ∧ (entry (l * m + l * n) c r).IsFin = true) ∧
      |(entry (l * (m + n)) c r).val - (entry (l * m + l * n) c r).val| ≤
        11 / 2 ^ 24 * ∑ k, |(entry l k r).val| * (|(entry m c k).val| + |(entry n c k).val|) + 1 / 2 ^ 144 := by
  rw [show entry (l * m + l * n) c r = entry (l * m) c r + entry (l * n) c r by fin_cases c <;> fin_cases r <;> rfl]
  exact linear_add (by norm_num) (C81_mat2_mul l (m + n) c r) (C81_mat2_mul l m c r) (C81_mat2_mul l n c r)
    (fun k => by fin_cases c <;> fin_cases k <;> rfl) (fun k => fl k r) (fm c) (fn c) hT

/-- C130, mat2: a matrix applied to a difference of vectors is the difference of the results, up to 11 units of `2^-24` of the sum of
the magnitudes of all terms. -/
theorem C130_mul_sub_vec2 (m : M2 F32) (a b : V2 F32) (fm : ∀ c r, (entry m c r).IsFin = true)
    (fa : ∀ i, (coord a i).IsFin = true ∧ |(coord a i).val| ≤ 2 ^ 126) (fb : ∀ i, (coord b i).IsFin = true ∧ |(coord b i).val| ≤ 2 ^ 126)
    (r : Fin 2) (hT : ∑ c, |(entry m c r).val| * (|(coord a c).val| + |(coord b c).val|) ≤ 2 ^ 125) :
    ((coord (m * (a - b)) r).IsFin = true ∧ (coord (m * a - m * b) r).IsFin = true) ∧
      |(coord (m * (a - b)) r).val - (coord (m * a - m * b) r).val| ≤
        11 / 2 ^ 24 * ∑ c, |(entry m c r).val| * (|(coord a c).val| + |(coord b c).val|) + 1 / 2 ^ 144 := by
  rw [show coord (m * a - m * b) r = coord (m * a) r - coord (m * b) r by fin_cases r <;> rfl]
  exact linear_sub (by norm_num) (C81_mat2_vec m (a - b) r) (C81_mat2_vec m a r) (C81_mat2_vec m b r)
    (fun c => by fin_cases c <;> rfl) (fun c => fm c r) fa fb hT

/-- C130, mat2: a difference of matrices applied to a vector likewise. -/
theorem C130_sub_mul_vec2 (m n : M2 F32) (a : V2 F32) (fa : ∀ i, (coord a i).IsFin = true)
    (fm : ∀ c r, (entry m c r).IsFin = true ∧ |(entry m c r).val| ≤ 2 ^ 126)
    (fn : ∀ c r, (entry n c r).IsFin = true ∧ |(entry n c r).val| ≤ 2 ^ 126) (r : Fin 2) (hT : ∑ c, |(coord a c).val| * (|(entry m c r).val| + |(entry n c r).val|) ≤ 2 ^ 125) :
    ((coord ((m - n) * a) r).IsFin = true ∧ (coord (m * a - n * a) r).IsFin = true) ∧
      |(coord ((m - n) * a) r).val - (coord (m * a - n * a) r).val| ≤
        11 / 2 ^ 24 * ∑ c, |(coord a c).val| * (|(entry m c r).val| + |(entry n c r).val|) + 1 / 2 ^ 144 := by
  rw [show coord (m * a - n * a) r = coord (m * a) r - coord (n * a) r by fin_cases r <;> rfl]
  exact linear_sub (by norm_num) (C81_mat2_vec (m - n) a r).swap (C81_mat2_vec m a r).swap (C81_mat2_vec n a r).swap
    (fun c => by fin_cases c <;> fin_cases r <;> rfl) fa (fun c => fm c r) (fun c => fn c r) hT

/-- C130, mat2: a matrix times a difference of matrices likewise. -/
theorem C130_mul_sub_mat2 (l m n : M2 F32) (fl : ∀ c r, (entry l c r).IsFin = true)
    (fm : ∀ c r, (entry m c r).IsFin = true ∧ |(entry m c r).val| ≤ 2 ^ 126)
    (fn : ∀ c r, (entry n c r).IsFin = true ∧ |(entry n c r).val| ≤ 2 ^ 126) (c r : Fin 2) (hT : ∑ k, |(entry l k r).val| * (|(entry m c k).val| + |(entry n c k).val|) ≤ 2 ^ 125) :
    ((entry (l * (m - n)) c r).IsFin = true ∧ (entry (l * m - l * n) c r).IsFin = true) ∧
      |(entry (l * (m - n)) c r).val - (entry (l * m - l * n) c r).val| ≤
        11 / 2 ^ 24 * ∑ k, |(entry l k r).val| * (|(entry m c k).val| + |(entry n c k).val|) + 1 / 2 ^ 144 := by
  rw [show entry (l * m - l * n) c r = entry (l * m) c r - entry (l * n) c r by fin_cases c <;> fin_cases r <;> rfl]
  exact linear_sub (by norm_num) (C81_mat2_mul l (m - n) c r) (C81_mat2_mul l m c r) (C81_mat2_mul l n c r)
    (fun k => by fin_cases c <;> fin_cases k <;> rfl) (fun k => fl k r) (fm c) (fn c) hT

/-! ## mat3 -/

/-- C130, mat3: the transpose of a product is the product of the transposes in the other order, bit for bit. -/
theorem C130_transpose_mat3 (a b : M3 F32) : M3.transpose (a * b) = M3.transpose b * M3.transpose a := by
  ext <;> exact sum_comm3 _ _ _ _ _ _

/-- C130, mat3: a row vector times a matrix is the transposed matrix times the vector, and its components are the dot
products with the columns, bit for bit. -/
theorem C130_row_mat3 (m : M3 F32) (v : V3 F32) :
    v * m = M3.transpose m * v ∧ v * m = ⟨V3.dot m.c0 v, V3.dot m.c1 v, V3.dot m.c2 v⟩ := by
  exact ⟨rfl, rfl⟩

/-- C130, mat3: the columns of a product are the first matrix applied to the columns of the second, bit for bit. -/
theorem C130_columns_mat3 (a b : M3 F32) : (a * b).c0 = a * b.c0 ∧ (a * b).c1 = a * b.c1 ∧ (a * b).c2 = a * b.c2 :=
  ⟨rfl, rfl, rfl⟩

/-- C130, mat3: a matrix applied to a sum of vectors is the sum of the results, up to 11 units of `2^-24` of the sum of
the magnitudes of all terms. -/
theorem C130_mul_add_vec3 (m : M3 F32) (a b : V3 F32) (fm : ∀ c r, (entry m c r).IsFin = true)
    (fa : ∀ i, (coord a i).IsFin = true ∧ |(coord a i).val| ≤ 2 ^ 126) (fb : ∀ i, (coord b i).IsFin = true ∧ |(coord b i).val| ≤ 2 ^ 126)
    (r : Fin 3) (hT : ∑ c, |(entry m c r).val| * (|(coord a c).val| + |(coord b c).val|) ≤ 2 ^ 125) :
    ((coord (m * (a + b)) r).IsFin = true ∧ (coord (m * a + m * b) r).IsFin = true) ∧
      |(coord (m * (a + b)) r).val - (coord (m * a + m * b) r).val| ≤
        11 / 2 ^ 24 * ∑ c, |(entry m c r).val| * (|(coord a c).val| + |(coord b c).val|) + 1 / 2 ^ 144 := by
  rw [show coord (m * a + m * b) r = coord (m * a) r + coord (m * b) r by fin_cases r <;> rfl]
  exact linear_add (by norm_num) (C81_mat3_vec m (a + b) r) (C81_mat3_vec m a r) (C81_mat3_vec m b r)
    (fun c => by fin_cases c <;> rfl) (fun c => fm c r) fa fb hT

/-- C130, mat3: a sum of matrices applied to a vector likewise. -/
theorem C130_add_mul_vec3 (m n : M3 F32) (a : V3 F32) (fa : ∀ i, (coord a i).IsFin = true)
    (fm : ∀ c r, (entry m c r).IsFin = true ∧ |(entry m c r).val| ≤ 2 ^ 126)
    (fn : ∀ c r, (entry n c r).IsFin = true ∧ |(entry n c r).val| ≤ 2 ^ 126) (r : Fin 3) (hT : ∑ c, |(coord a c).val| * (|(entry m c r).val| + |(entry n c r).val|) ≤ 2 ^ 125) :
    ((coord ((m + n) * a) r).IsFin = true ∧ (coord (m * a + n * a) r).IsFin = true) ∧
      |(coord ((m + n) * a) r).val - (coord (m * a + n * a) r).val| ≤
        11 / 2 ^ 24 * ∑ c, |(coord a c).val| * (|(entry m c r).val| + |(entry n c r).val|) + 1 / 2 ^ 144 := by
  rw [show coord (m * a + n * a) r = coord (m * a) r + coord (n * a) r by fin_cases r <;> rfl]
  exact linear_add (by norm_num) (C81_mat3_vec (m + n) a r).swap (C81_mat3_vec m a r).swap (C81_mat3_vec n a r).swap
    (fun c => by fin_cases c <;> fin_cases r <;> rfl) fa (fun c => fm c r) (fun c => fn c r) hT

/-- C130, mat3: a matrix times a sum of matrices likewise. -/
theorem C130_mul_add_mat3 (l m n : M3 F32) (fl : ∀ c r, (entry l c r).IsFin = true)
    (fm : ∀ c r, (entry m c r).IsFin = true ∧ |(entry m c r).val| ≤ 2 ^ 126)
    (fn : ∀ c r, (entry n c r).IsFin = true ∧ |(entry n c r).val| ≤ 2 ^ 126) (c r : Fin 3) (hT : ∑ k, |(entry l k r).val| * (|(entry m c k).val| + |(entry n c k).val|) ≤ 2 ^ 125) :
    ((entry (l * (m + n)) c r).IsFin = true ∧ (entry (l * m + l * n) c r).IsFin = true) ∧
      |(entry (l * (m + n)) c r).val - (entry (l * m + l * n) c r).val| ≤
        11 / 2 ^ 24 * ∑ k, |(entry l k r).val| * (|(entry m c k).val| + |(entry n c k).val|) + 1 / 2 ^ 144 := by
  rw [show entry (l * m + l * n) c r = entry (l * m) c r + entry (l * n) c r by fin_cases c <;> fin_cases r <;> rfl]
  exact linear_add (by norm_num) (C81_mat3_mul l (m + n) c r) (C81_mat3_mul l m c r) (C81_mat3_mul l n c r)
    (fun k => by fin_cases c <;> fin_cases k <;> rfl) (fun k => fl k r) (fm c) (fn c) hT

/-- C130, mat3: a matrix applied to a difference of vectors is the difference of the results, up to 11 units of `2^-24` of the sum of
the magnitudes of all terms. -/
theorem C130_mul_sub_vec3 (m : M3 F32) (a b : V3 F32) (fm : ∀ c r, (entry m c r).IsFin = true)
    (fa : ∀ i, (coord a i).IsFin = true ∧ |(coord a i).val| ≤ 2 ^ 126) (fb : ∀ i, (coord b i).IsFin = true ∧ |(coord b i).val| ≤ 2 ^ 126)
    (r : Fin 3) (hT : ∑ c, |(entry m c r).val| * (|(coord a c).val| + |(coord b c).val|) ≤ 2 ^ 125) :
    ((coord (m * (a - b)) r).IsFin = true ∧ (coord (m * a - m * b) r).IsFin = true) ∧
      |(coord (m * (a - b)) r).val - (coord (m * a - m * b) r).val| ≤
        11 / 2 ^ 24 * ∑ c, |(entry m c r).val| * (|(coord a c).val| + |(coord b c).val|) + 1 / 2 ^ 144 := by
  rw [show coord (m * a - m * b) r = coord (m * a) r - coord (m * b) r by fin_cases r <;> rfl]
  exact linear_sub (by norm_num) (C81_mat3_vec m (a - b) r) (C81_mat3_vec m a r) (C81_mat3_vec m b r)
    (fun c => by fin_cases c <;> rfl) (fun c => fm c r) fa fb hT

/-- C130, mat3: a difference of matrices applied to a vector likewise. -/
theorem C130_sub_mul_vec3 (m n : M3 F32) (a : V3 F32) (fa : ∀ i, (coord a i).IsFin = true)
    (fm : ∀ c r, (entry m c r).IsFin = true ∧ |(entry m c r).val| ≤ 2 ^ 126)
    (fn : ∀ c r, (entry n c r).IsFin = true ∧ |(entry n c r).val| ≤ 2 ^ 126) (r : Fin 3) (hT : ∑ c, |(coord a c).val| * (|(entry m c r).val| + |(entry n c r).val|) ≤ 2 ^ 125) :
    ((coord ((m - n) * a) r).IsFin = true ∧ (coord (m * a - n * a) r).IsFin = true) ∧
      |(coord ((m - n) * a) r).val - (coord (m * a - n * a) r).val| ≤
        11 / 2 ^ 24 * ∑ c, |(coord a c).val| * (|(entry m c r).val| + |(entry n c r).val|) + 1 / 2 ^ 144 := by
  rw [show coord (m * a - n * a) r = coord (m * a) r - coord (n * a) r by fin_cases r <;> rfl]
  exact linear_sub (by norm_num) (C81_mat3_vec (m - n) a r).swap (C81_mat3_vec m a r).swap (C81_mat3_vec n a r).swap
    (fun c => by fin_cases c <;> fin_cases r <;> rfl) fa (fun c => fm c r) (fun c => fn c r) hT

/-- C130, mat3: a matrix times a difference of matrices likewise. -/
theorem C130_mul_sub_mat3 (l m n : M3 F32) (fl : ∀ c r, (entry l c r).IsFin = true)
    (fm : ∀ c r, (entry m c r).IsFin = true ∧ |(entry m c r).val| ≤ 2 ^ 126)
    (fn : ∀ c r, (entry n c r).IsFin = true ∧ |(entry n c r).val| ≤ 2 ^ 126) (c r : Fin 3) (hT : ∑ k, |(entry l k r).val| * (|(entry m c k).val| + |(entry n c k).val|) ≤ 2 ^ 125) :
    ((entry (l * (m - n)) c r).IsFin = true ∧ (entry (l * m - l * n) c r).IsFin = true) ∧
      |(entry (l * (m - n)) c r).val - (entry (l * m - l * n) c r).val| ≤
        11 / 2 ^ 24 * ∑ k, |(entry l k r).val| * (|(entry m c k).val| + |(entry n c k).val|) + 1 / 2 ^ 144 := by
  rw [show entry (l * m - l * n) c r = entry (l * m) c r - entry (l * n) c r by fin_cases c <;> fin_cases r <;> rfl]
  exact linear_sub (by norm_num) (C81_mat3_mul l (m - n) c r) (C81_mat3_mul l m c r) (C81_mat3_mul l n c r)
    (fun k => by fin_cases c <;> fin_cases k <;> rfl) (fun k => fl k r) (fm c) (fn c) hT

/-! ## mat4 -/

/-- C130, mat4: the transpose of a product is the product of the transposes in the other order, bit for bit. -/
theorem C130_transpose_mat4 (a b : M4 F32) : M4.transpose (a * b) = M4.transpose b * M4.transpose a := by
  ext <;> exact sum_comm4 _ _ _ _ _ _ _ _

/-- C130, mat4: the components of a row vector times a matrix are the dot products with the columns, bit for bit. -/
theorem C130_row_mat4 (m : M4 F32) (v : V4 F32) : v * m = ⟨V4.dot m.c0 v, V4.dot m.c1 v, V4.dot m.c2 v, V4.dot m.c3 v⟩ := rfl

/-- C130, mat4: the columns of a product are the columns of the second matrix times the transpose of the first, bit for bit. -/
theorem C130_columns_mat4 (a b : M4 F32) :
    (a * b).c0 = b.c0 * M4.transpose a ∧ (a * b).c1 = b.c1 * M4.transpose a ∧ (a * b).c2 = b.c2 * M4.transpose a ∧ (a * b).c3 = b.c3 * M4.transpose a := ⟨rfl, rfl, rfl, rfl⟩

/-- C130, mat4: `mat4 * vec4` adds the four terms in pairs, `vec4 * mat4` and `mat4 * mat4` one after the other.  So the
columns of `a * b` need not be `a` applied to the columns of `b`, and `v * transpose(a)` need not be `a * v`: here they differ. -/
theorem C130_columns_differ_mat4 : ∃ (a b : M4 F32), (∀ c r, (entry a c r).IsFin = true ∧ (entry b c r).IsFin = true) ∧
    (a * b).c0 ≠ a * b.c0 ∧ b.c0 * M4.transpose a ≠ a * b.c0 := by
  refine ⟨⟨⟨lit (2 ^ 24), lit 0, lit 0, lit 0⟩, ⟨lit 0, lit 1, lit 0, lit 0⟩, ⟨lit 1, lit 0, lit 1, lit 0⟩, ⟨lit 1, lit 0, lit 0, lit 1⟩⟩,
    ⟨⟨lit 1, lit 1, lit 1, lit 1⟩, ⟨lit 0, lit 1, lit 0, lit 0⟩, ⟨lit 0, lit 0, lit 1, lit 0⟩, ⟨lit 0, lit 0, lit 0, lit 1⟩⟩, ?_, ?_, ?_⟩
  · decide +kernel
  · intro h
    exact absurd (congrArg V4.x h) (by decide +kernel)
  · intro h
    exact absurd (congrArg V4.x h) (by decide +kernel)

/-- C130, mat4: but they agree up to 9 units of `2^-24` of the sum of the magnitudes of the terms. -/
theorem C130_columns_close_mat4 (a b : M4 F32) (fa : ∀ c r, (entry a c r).IsFin = true) (fb : ∀ c r, (entry b c r).IsFin = true)
    (c r : Fin 4) (hT : ∑ k, |(entry a k r).val * (entry b c k).val| ≤ 2 ^ 126) :
    |((entry (a * b) c r).val - (coord (a * (⟨entry b c 0, entry b c 1, entry b c 2, entry b c 3⟩ : V4 F32)) r).val : ℚ)| ≤
      9 / 2 ^ 24 * ∑ k, |(entry a k r).val * (entry b c k).val| + 1 / 2 ^ 146 := by
  have h1 := C81_mat4_mul a b c r
  have h2 := C81_mat4_vec a ⟨entry b c 0, entry b c 1, entry b c 2, entry b c 3⟩ r
  have e : coord (⟨entry b c 0, entry b c 1, entry b c 2, entry b c 3⟩ : V4 F32) = entry b c := by
    funext k; fin_cases k <;> rfl
  rw [e] at h2
  exact same_sum h1 h2 (fun k => fa k r) (fun k => fb c k) hT

/-- C130, mat4: a matrix applied to a sum of vectors is the sum of the results, up to 11 units of `2^-24` of the sum of
the magnitudes of all terms. -/
theorem C130_mul_add_vec4 (m : M4 F32) (a b : V4 F32) (fm : ∀ c r, (entry m c r).IsFin = true)
    (fa : ∀ i, (coord a i).IsFin = true ∧ |(coord a i).val| ≤ 2 ^ 126) (fb : ∀ i, (coord b i).IsFin = true ∧ |(coord b i).val| ≤ 2 ^ 126)
    (r : Fin 4) (hT : ∑ c, |(entry m c r).val| * (|(coord a c).val| + |(coord b c).val|) ≤ 2 ^ 125) :
    ((coord (m * (a + b)) r).IsFin = true ∧ (coord (m * a + m * b) r).IsFin = true) ∧
      |(coord (m * (a + b)) r).val - (coord (m * a + m * b) r).val| ≤
        11 / 2 ^ 24 * ∑ c, |(entry m c r).val| * (|(coord a c).val| + |(coord b c).val|) + 1 / 2 ^ 144 := by
  rw [show coord (m * a + m * b) r = coord (m * a) r + coord (m * b) r by fin_cases r <;> rfl]
  exact linear_add (by norm_num) (C81_mat4_vec m (a + b) r) (C81_mat4_vec m a r) (C81_mat4_vec m b r)
    (fun c => by fin_cases c <;> rfl) (fun c => fm c r) fa fb hT

/-- C130, mat4: a sum of matrices applied to a vector likewise. -/
theorem C130_add_mul_vec4 (m n : M4 F32) (a : V4 F32) (fa : ∀ i, (coord a i).IsFin = true)
    (fm : ∀ c r, (entry m c r).IsFin = true ∧ |(entry m c r).val| ≤ 2 ^ 126)
    (fn : ∀ c r, (entry n c r).IsFin = true ∧ |(entry n c r).val| ≤ 2 ^ 126) (r : Fin 4) (hT : ∑ c, |(coord a c).val| * (|(entry m c r).val| + |(entry n c r).val|) ≤ 2 ^ 125) :
    ((coord ((m + n) * a) r).IsFin = true ∧ (coord (m * a + n * a) r).IsFin = true) ∧
      |(coord ((m + n) * a) r).val - (coord (m * a + n * a) r).val| ≤
        11 / 2 ^ 24 * ∑ c, |(coord a c).val| * (|(entry m c r).val| + |(entry n c r).val|) + 1 / 2 ^ 144 := by
  rw [show coord (m * a + n * a) r = coord (m * a) r + coord (n * a) r by fin_cases r <;> rfl]
  exact linear_add (by norm_num) (C81_mat4_vec (m + n) a r).swap (C81_mat4_vec m a r).swap (C81_mat4_vec n a r).swap
    (fun c => by fin_cases c <;> fin_cases r <;> rfl) fa (fun c => fm c r) (fun c => fn c r) hT

/-- C130, mat4: a matrix times a sum of matrices likewise. -/
theorem C130_mul_add_mat4 (l m n : M4 F32) (fl : ∀ c r, (entry l c r).IsFin = true)
    (fm : ∀ c r, (entry m c r).IsFin = true ∧ |(entry m c r).val| ≤ 2 ^ 126)
    (fn : ∀ c r, (entry n c r).IsFin = true ∧ |(entry n c r).val| ≤ 2 ^ 126) (c r : Fin 4) (hT : ∑ k, |(entry l k r).val| * (|(entry m c k).val| + |(entry n c k).val|) ≤ 2 ^ 125) :
    ((entry (l * (m + n)) c r).IsFin = true ∧ (entry (l * m + l * n) c r).IsFin = true) ∧
      |(entry (l * (m + n)) c r).val - (entry (l * m + l * n) c r).val| ≤
        11 / 2 ^ 24 * ∑ k, |(entry l k r).val| * (|(entry m c k).val| + |(entry n c k).val|) + 1 / 2 ^ 144 := by
  rw [show entry (l * m + l * n) c r = entry (l * m) c r + entry (l * n) c r by fin_cases c <;> fin_cases r <;> rfl]
  exact linear_add (by norm_num) (C81_mat4_mul l (m + n) c r) (C81_mat4_mul l m c r) (C81_mat4_mul l n c r)
    (fun k => by fin_cases c <;> fin_cases k <;> rfl) (fun k => fl k r) (fm c) (fn c) hT

/-- C130, mat4: a matrix applied to a difference of vectors is the difference of the results, up to 11 units of `2^-24` of the sum of
the magnitudes of all terms. -/
theorem C130_mul_sub_vec4 (m : M4 F32) (a b : V4 F32) (fm : ∀ c r, (entry m c r).IsFin = true)
    (fa : ∀ i, (coord a i).IsFin = true ∧ |(coord a i).val| ≤ 2 ^ 126) (fb : ∀ i, (coord b i).IsFin = true ∧ |(coord b i).val| ≤ 2 ^ 126)
    (r : Fin 4) (hT : ∑ c, |(entry m c r).val| * (|(coord a c).val| + |(coord b c).val|) ≤ 2 ^ 125) :
    ((coord (m * (a - b)) r).IsFin = true ∧ (coord (m * a - m * b) r).IsFin = true) ∧
      |(coord (m * (a - b)) r).val - (coord (m * a - m * b) r).val| ≤
        11 / 2 ^ 24 * ∑ c, |(entry m c r).val| * (|(coord a c).val| + |(coord b c).val|) + 1 / 2 ^ 144 := by
  rw [show coord (m * a - m * b) r = coord (m * a) r - coord (m * b) r by fin_cases r <;> rfl]
  exact linear_sub (by norm_num) (C81_mat4_vec m (a - b) r) (C81_mat4_vec m a r) (C81_mat4_vec m b r)
    (fun c => by fin_cases c <;> rfl) (fun c => fm c r) fa fb hT

/-- C130, mat4: a difference of matrices applied to a vector likewise. -/
theorem C130_sub_mul_vec4 (m n : M4 F32) (a : V4 F32) (fa : ∀ i, (coord a i).IsFin = true)
    (fm : ∀ c r, (entry m c r).IsFin = true ∧ |(entry m c r).val| ≤ 2 ^ 126)
    (fn : ∀ c r, (entry n c r).IsFin = true ∧ |(entry n c r).val| ≤ 2 ^ 126) (r : Fin 4) (hT : ∑ c, |(coord a c).val| * (|(entry m c r).val| + |(entry n c r).val|) ≤ 2 ^ 125) :
    ((coord ((m - n) * a) r).IsFin = true ∧ (coord (m * a - n * a) r).IsFin = true) ∧
      |(coord ((m - n) * a) r).val - (coord (m * a - n * a) r).val| ≤
        11 / 2 ^ 24 * ∑ c, |(coord a c).val| * (|(entry m c r).val| + |(entry n c r).val|) + 1 / 2 ^ 144 := by
  rw [show coord (m * a - n * a) r = coord (m * a) r - coord (n * a) r by fin_cases r <;> rfl]
  exact linear_sub (by norm_num) (C81_mat4_vec (m - n) a r).swap (C81_mat4_vec m a r).swap (C81_mat4_vec n a r).swap
    (fun c => by fin_cases c <;> fin_cases r <;> rfl) fa (fun c => fm c r) (fun c => fn c r) hT

/-- C130, mat4: a matrix times a difference of matrices likewise. -/
theorem C130_mul_sub_mat4 (l m n : M4 F32) (fl : ∀ c r, (entry l c r).IsFin = true)
    (fm : ∀ c r, (entry m c r).IsFin = true ∧ |(entry m c r).val| ≤ 2 ^ 126)
    (fn : ∀ c r, (entry n c r).IsFin = true ∧ |(entry n c r).val| ≤ 2 ^ 126) (c r : Fin 4) (hT : ∑ k, |(entry l k r).val| * (|(entry m c k).val| + |(entry n c k).val|) ≤ 2 ^ 125) :
    ((entry (l * (m - n)) c r).IsFin = true ∧ (entry (l * m - l * n) c r).IsFin = true) ∧
      |(entry (l * (m - n)) c r).val - (entry (l * m - l * n) c r).val| ≤
        11 / 2 ^ 24 * ∑ k, |(entry l k r).val| * (|(entry m c k).val| + |(entry n c k).val|) + 1 / 2 ^ 144 := by
  rw [show entry (l * m - l * n) c r = entry (l * m) c r - entry (l * n) c r by fin_cases c <;> fin_cases r <;> rfl]
  exact linear_sub (by norm_num) (C81_mat4_mul l (m - n) c r) (C81_mat4_mul l m c r) (C81_mat4_mul l n c r)
    (fun k => by fin_cases c <;> fin_cases k <;> rfl) (fun k => fl k r) (fm c) (fn c) hT

/-! ## Non-vacuity -/

/-- small integers meet the hypotheses of the theorems above -/
example : let m : M2 F32 := ⟨⟨lit 1, lit (-2)⟩, ⟨lit 3, lit 5⟩⟩
    let a : V2 F32 := ⟨lit 7, lit (-1)⟩
    let b : V2 F32 := ⟨lit (1 / 2), lit 2⟩
    (∀ c r, (entry m c r).IsFin = true) ∧ (∀ i, (coord a i).IsFin = true ∧ |(coord a i).val| ≤ 2 ^ 126) ∧
      (∀ i, (coord b i).IsFin = true ∧ |(coord b i).val| ≤ 2 ^ 126) ∧
      (∀ r, ∑ c, |(entry m c r).val| * (|(coord a c).val| + |(coord b c).val|) ≤ 2 ^ 125) := by
  decide +kernel

end Zcm
