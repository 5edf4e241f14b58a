import Verif.Lemmas.F32Division
import Verif.Props.C81
import Verif.Props.C98

/-!
# C124: dividing by a matrix, in IEEE arithmetic

`m / v` solves the linear system `m * x = v`, `v / m` solves `x * m = v`, `a / b` solves `x * b = a`, and `m * inverse(m)`,
`inverse(m) * m` are the identity, all up to an error that is small unless the determinant nearly cancels: `divisionError`
(Spec/Cramer.lean).  `BoundedBy m B`: finite, entries at most `B`.  `Invertible32` (Spec/Leibniz.lean): less than 18 bits cancel
in the determinant.
-/

set_option exponentiation.threshold 300

namespace Zcm

open F32

private theorem det_ne {n : ℕ} {A : Matrix (Fin (n + 1)) (Fin (n + 1)) ℚ} {B : ℚ} (hB : 1 ≤ B) (h : Invertible32 A B) : IsUnit A.det := by
  refine isUnit_iff_ne_zero.2 fun h0 => ?_
  have := h.2
  rw [h0, abs_zero, mul_zero] at this
  have : 0 < B ^ n := by positivity
  linarith

private theorem solve {n : ℕ} {A : Matrix (Fin n) (Fin n) ℚ} (h : IsUnit A.det) {x v : Fin n → ℚ} (hx : ∀ r, ∑ c, A r c * x c = v r) (i : Fin n) :
    ∑ k, v k * A⁻¹ i k = x i := by
  have e : A.mulVec x = v := funext hx
  have : A⁻¹.mulVec v = x := by rw [← e, Matrix.mulVec_mulVec, Matrix.nonsing_inv_mul _ h, Matrix.one_mulVec]
  rw [← congrFun this i]
  exact Finset.sum_congr rfl fun k _ => mul_comm _ _

private theorem solve_left {n : ℕ} {A : Matrix (Fin n) (Fin n) ℚ} (h : IsUnit A.det) {x v : Fin n → ℚ} (hx : ∀ c, ∑ r, x r * A r c = v c) (i : Fin n) :
    ∑ k, v k * A⁻¹ k i = x i := by
  have e : Matrix.vecMul x A = v := funext hx
  have : Matrix.vecMul v A⁻¹ = x := by rw [← e, Matrix.vecMul_vecMul, Matrix.mul_nonsing_inv _ h, Matrix.vecMul_one]
  rw [← congrFun this i]
  rfl

/-! ## `mat2` -/

/-- C124, `mat2 / vec2`: component `i` of the solution `x` of `m * x = v`. -/
theorem C124_mat2_vec (m : M2 F32) (v : V2 F32) (B : ℚ) (hB : 1 ≤ B) (hB' : B ≤ 2 ^ 30) (h : BoundedBy m B)
    (hi : Invertible32 (exactMat m) B) (fv : ∀ k, (coord v k).IsFin = true) (hv : ∑ k, |(coord v k).val| ≤ 2 ^ 100)
    (x : Fin 2 → ℚ) (hx : ∀ r, ∑ c, (entry m c r).val * x c = (coord v r).val) (i : Fin 2)
    (hS : cramerSize (exactMat m) (fun k => (coord v k).val) (fun _ => i) (fun k => k) ≤ 2 ^ 120) :
    (coord (m / v) i).IsFin = true ∧
    |(coord (m / v) i).val - x i| ≤ divisionError (exactMat m) B (fun k => (coord v k).val) (fun _ => i) (fun k => k) := by
  have d := division (by norm_num) (by norm_num) hB hi (p := fun _ => i) (q := fun k => k)
    (C81_mat2_vec (M2.inverse m) v i).swap fv (fun k => C98_inverse_mat2 m B hB hB' h hi i k) hS hv
  rwa [solve (det_ne hB hi) hx] at d

/-- C124, `vec2 / mat2`: component `i` of the solution `x` of `x * m = v`. -/
theorem C124_vec_mat2 (m : M2 F32) (v : V2 F32) (B : ℚ) (hB : 1 ≤ B) (hB' : B ≤ 2 ^ 30) (h : BoundedBy m B)
    (hi : Invertible32 (exactMat m) B) (fv : ∀ k, (coord v k).IsFin = true) (hv : ∑ k, |(coord v k).val| ≤ 2 ^ 100)
    (x : Fin 2 → ℚ) (hx : ∀ c, ∑ r, x r * (entry m c r).val = (coord v c).val) (i : Fin 2)
    (hS : cramerSize (exactMat m) (fun k => (coord v k).val) (fun k => k) (fun _ => i) ≤ 2 ^ 120) :
    (coord (v / m) i).IsFin = true ∧
    |(coord (v / m) i).val - x i| ≤ divisionError (exactMat m) B (fun k => (coord v k).val) (fun k => k) (fun _ => i) := by
  have d := division (by norm_num) (by norm_num) hB hi (p := fun k => k) (q := fun _ => i)
    (C81_vec_mat2 v (M2.inverse m) i) fv (fun k => C98_inverse_mat2 m B hB hB' h hi k i) hS hv
  rwa [solve_left (det_ne hB hi) hx] at d

/-- C124, `mat2 / mat2`: the entry in column `c`, row `r` of the solution `x` of `x * b = a`. -/
theorem C124_mat2 (a b : M2 F32) (B : ℚ) (hB : 1 ≤ B) (hB' : B ≤ 2 ^ 30) (h : BoundedBy b B)
    (hi : Invertible32 (exactMat b) B) (r : Fin 2) (fa : ∀ k, (entry a k r).IsFin = true) (ha : ∑ k, |(entry a k r).val| ≤ 2 ^ 100)
    (x : Matrix (Fin 2) (Fin 2) ℚ) (hx : x * exactMat b = exactMat a) (c : Fin 2)
    (hS : cramerSize (exactMat b) (fun k => (entry a k r).val) (fun k => k) (fun _ => c) ≤ 2 ^ 120) :
    (entry (a / b) c r).IsFin = true ∧
    |(entry (a / b) c r).val - x r c| ≤ divisionError (exactMat b) B (fun k => (entry a k r).val) (fun k => k) (fun _ => c) := by
  have d := division (by norm_num) (by norm_num) hB hi (p := fun k => k) (q := fun _ => c)
    (C81_mat2_mul a (M2.inverse b) c r) fa (fun k => C98_inverse_mat2 b B hB hB' h hi k c) hS ha
  rwa [solve_left (det_ne hB hi) (x := x r) (v := fun k => (entry a k r).val) (fun c => congrFun (congrFun hx r) c)] at d

/-- C124, `m * inverse(m)`, which is also `m / m`: the entry in column `c`, row `r` is 1 on the diagonal and 0 elsewhere. -/
theorem C124_mat2_right (m : M2 F32) (B : ℚ) (hB : 1 ≤ B) (hB' : B ≤ 2 ^ 30) (h : BoundedBy m B)
    (hi : Invertible32 (exactMat m) B) (c r : Fin 2)
    (hS : cramerSize (exactMat m) (fun k => (entry m k r).val) (fun k => k) (fun _ => c) ≤ 2 ^ 120) :
    m * M2.inverse m = m / m ∧ (entry (m * M2.inverse m) c r).IsFin = true ∧
    |(entry (m * M2.inverse m) c r).val - if r = c then 1 else 0| ≤
      divisionError (exactMat m) B (fun k => (entry m k r).val) (fun k => k) (fun _ => c) := by
  have s : ∑ k, |(entry m k r).val| ≤ 2 ^ 100 := by
    refine (Finset.sum_le_sum fun k _ => (h k r).2.trans hB').trans ?_
    simp only [Finset.sum_const, Finset.card_univ, Fintype.card_fin]
    norm_num
  have d := C124_mat2 m m B hB hB' h hi r (fun k => (h k r).1) s 1 (one_mul _) c hS
  rw [Matrix.one_apply] at d
  exact ⟨rfl, d⟩

/-- C124, `inverse(m) * m`: the entry in column `c`, row `r` is 1 on the diagonal and 0 elsewhere. -/
theorem C124_mat2_left (m : M2 F32) (B : ℚ) (hB : 1 ≤ B) (hB' : B ≤ 2 ^ 30) (h : BoundedBy m B)
    (hi : Invertible32 (exactMat m) B) (c r : Fin 2)
    (hS : cramerSize (exactMat m) (fun k => (entry m c k).val) (fun _ => r) (fun k => k) ≤ 2 ^ 120) :
    (entry (M2.inverse m * m) c r).IsFin = true ∧
    |(entry (M2.inverse m * m) c r).val - if r = c then 1 else 0| ≤
      divisionError (exactMat m) B (fun k => (entry m c k).val) (fun _ => r) (fun k => k) := by
  have s : ∑ k, |(entry m c k).val| ≤ 2 ^ 100 := by
    refine (Finset.sum_le_sum fun k _ => (h c k).2.trans hB').trans ?_
    simp only [Finset.sum_const, Finset.card_univ, Fintype.card_fin]
    norm_num
  have d := division (by norm_num) (by norm_num) hB hi (p := fun _ => r) (q := fun k => k)
    (C81_mat2_mul (M2.inverse m) m c r).swap (fun k => (h c k).1) (fun k => C98_inverse_mat2 m B hB hB' h hi r k) hS s
  have e : ∑ k, (entry m c k).val * (exactMat m)⁻¹ r k = if r = c then 1 else 0 := by
    have := congrFun (congrFun (Matrix.nonsing_inv_mul (exactMat m) (det_ne hB hi)) r) c
    rw [Matrix.one_apply, Matrix.mul_apply] at this
    rw [← this]
    exact Finset.sum_congr rfl fun k _ => mul_comm _ _
  rwa [e] at d

/-! ## `mat3` -/

/-- C124, `mat3 / vec3`: component `i` of the solution `x` of `m * x = v`. -/
theorem C124_mat3_vec (m : M3 F32) (v : V3 F32) (B : ℚ) (hB : 1 ≤ B) (hB' : B ≤ 2 ^ 30) (h : BoundedBy m B)
    (hi : Invertible32 (exactMat m) B) (fv : ∀ k, (coord v k).IsFin = true) (hv : ∑ k, |(coord v k).val| ≤ 2 ^ 100)
    (x : Fin 3 → ℚ) (hx : ∀ r, ∑ c, (entry m c r).val * x c = (coord v r).val) (i : Fin 3)
    (hS : cramerSize (exactMat m) (fun k => (coord v k).val) (fun _ => i) (fun k => k) ≤ 2 ^ 120) :
    (coord (m / v) i).IsFin = true ∧
    |(coord (m / v) i).val - x i| ≤ divisionError (exactMat m) B (fun k => (coord v k).val) (fun _ => i) (fun k => k) := by
  have d := division (by norm_num) (by norm_num) hB hi (p := fun _ => i) (q := fun k => k)
    (C81_mat3_vec (M3.inverse m) v i).swap fv (fun k => C98_inverse_mat3 m B hB hB' h hi i k) hS hv
  rwa [solve (det_ne hB hi) hx] at d

/-- C124, `vec3 / mat3`: component `i` of the solution `x` of `x * m = v`. -/
theorem C124_vec_mat3 (m : M3 F32) (v : V3 F32) (B : ℚ) (hB : 1 ≤ B) (hB' : B ≤ 2 ^ 30) (h : BoundedBy m B)
    (hi : Invertible32 (exactMat m) B) (fv : ∀ k, (coord v k).IsFin = true) (hv : ∑ k, |(coord v k).val| ≤ 2 ^ 100)
    (x : Fin 3 → ℚ) (hx : ∀ c, ∑ r, x r * (entry m c r).val = (coord v c).val) (i : Fin 3)
    (hS : cramerSize (exactMat m) (fun k => (coord v k).val) (fun k => k) (fun _ => i) ≤ 2 ^ 120) :
    (coord (v / m) i).IsFin = true ∧
    |(coord (v / m) i).val - x i| ≤ divisionError (exactMat m) B (fun k => (coord v k).val) (fun k => k) (fun _ => i) := by
  have d := division (by norm_num) (by norm_num) hB hi (p := fun k => k) (q := fun _ => i)
    (C81_vec_mat3 v (M3.inverse m) i) fv (fun k => C98_inverse_mat3 m B hB hB' h hi k i) hS hv
  rwa [solve_left (det_ne hB hi) hx] at d

/-- C124, `mat3 / mat3`: the entry in column `c`, row `r` of the solution `x` of `x * b = a`. -/
theorem C124_mat3 (a b : M3 F32) (B : ℚ) (hB : 1 ≤ B) (hB' : B ≤ 2 ^ 30) (h : BoundedBy b B)
    (hi : Invertible32 (exactMat b) B) (r : Fin 3) (fa : ∀ k, (entry a k r).IsFin = true) (ha : ∑ k, |(entry a k r).val| ≤ 2 ^ 100)
    (x : Matrix (Fin 3) (Fin 3) ℚ) (hx : x * exactMat b = exactMat a) (c : Fin 3)
    (hS : cramerSize (exactMat b) (fun k => (entry a k r).val) (fun k => k) (fun _ => c) ≤ 2 ^ 120) :
    (entry (a / b) c r).IsFin = true ∧
    |(entry (a / b) c r).val - x r c| ≤ divisionError (exactMat b) B (fun k => (entry a k r).val) (fun k => k) (fun _ => c) := by
  have d := division (by norm_num) (by norm_num) hB hi (p := fun k => k) (q := fun _ => c)
    (C81_mat3_mul a (M3.inverse b) c r) fa (fun k => C98_inverse_mat3 b B hB hB' h hi k c) hS ha
  rwa [solve_left (det_ne hB hi) (x := x r) (v := fun k => (entry a k r).val) (fun c => congrFun (congrFun hx r) c)] at d

/-- C124, `m * inverse(m)`, which is also `m / m`: the entry in column `c`, row `r` is 1 on the diagonal and 0 elsewhere. -/
theorem C124_mat3_right (m : M3 F32) (B : ℚ) (hB : 1 ≤ B) (hB' : B ≤ 2 ^ 30) (h : BoundedBy m B)
    (hi : Invertible32 (exactMat m) B) (c r : Fin 3)
    (hS : cramerSize (exactMat m) (fun k => (entry m k r).val) (fun k => k) (fun _ => c) ≤ 2 ^ 120) :
    m * M3.inverse m = m / m ∧ (entry (m * M3.inverse m) c r).IsFin = true ∧
    |(entry (m * M3.inverse m) c r).val - if r = c then 1 else 0| ≤
      divisionError (exactMat m) B (fun k => (entry m k r).val) (fun k => k) (fun _ => c) := by
  have s : ∑ k, |(entry m k r).val| ≤ 2 ^ 100 := by
    refine (Finset.sum_le_sum fun k _ => (h k r).2.trans hB').trans ?_
    simp only [Finset.sum_const, Finset.card_univ, Fintype.card_fin]
    norm_num
  have d := C124_mat3 m m B hB hB' h hi r (fun k => (h k r).1) s 1 (one_mul _) c hS
  rw [Matrix.one_apply] at d
  exact ⟨rfl, d⟩

/-- C124, `inverse(m) * m`: the entry in column `c`, row `r` is 1 on the diagonal and 0 elsewhere. -/
theorem C124_mat3_left (m : M3 F32) (B : ℚ) (hB : 1 ≤ B) (hB' : B ≤ 2 ^ 30) (h : BoundedBy m B)
    (hi : Invertible32 (exactMat m) B) (c r : Fin 3)
    (hS : cramerSize (exactMat m) (fun k => (entry m c k).val) (fun _ => r) (fun k => k) ≤ 2 ^ 120) :
    (entry (M3.inverse m * m) c r).IsFin = true ∧
    |(entry (M3.inverse m * m) c r).val - if r = c then 1 else 0| ≤
      divisionError (exactMat m) B (fun k => (entry m c k).val) (fun _ => r) (fun k => k) := by
  have s : ∑ k, |(entry m c k).val| ≤ 2 ^ 100 := by
    refine (Finset.sum_le_sum fun k _ => (h c k).2.trans hB').trans ?_
    simp only [Finset.sum_const, Finset.card_univ, Fintype.card_fin]
    norm_num
  have d := division (by norm_num) (by norm_num) hB hi (p := fun _ => r) (q := fun k => k)
    (C81_mat3_mul (M3.inverse m) m c r).swap (fun k => (h c k).1) (fun k => C98_inverse_mat3 m B hB hB' h hi r k) hS s
  have e : ∑ k, (entry m c k).val * (exactMat m)⁻¹ r k = if r = c then 1 else 0 := by
    have := congrFun (congrFun (Matrix.nonsing_inv_mul (exactMat m) (det_ne hB hi)) r) c
    rw [Matrix.one_apply, Matrix.mul_apply] at this
    rw [← this]
    exact Finset.sum_congr rfl fun k _ => mul_comm _ _
  rwa [e] at d

/-! ## `mat4` -/

/-- C124, `mat4 / vec4`: component `i` of the solution `x` of `m * x = v`. -/
theorem C124_mat4_vec (m : M4 F32) (v : V4 F32) (B : ℚ) (hB : 1 ≤ B) (hB' : B ≤ 2 ^ 30) (h : BoundedBy m B)
    (hi : Invertible32 (exactMat m) B) (fv : ∀ k, (coord v k).IsFin = true) (hv : ∑ k, |(coord v k).val| ≤ 2 ^ 100)
    (x : Fin 4 → ℚ) (hx : ∀ r, ∑ c, (entry m c r).val * x c = (coord v r).val) (i : Fin 4)
    (hS : cramerSize (exactMat m) (fun k => (coord v k).val) (fun _ => i) (fun k => k) ≤ 2 ^ 120) :
    (coord (m / v) i).IsFin = true ∧
    |(coord (m / v) i).val - x i| ≤ divisionError (exactMat m) B (fun k => (coord v k).val) (fun _ => i) (fun k => k) := by
  have d := division (by norm_num) (by norm_num) hB hi (p := fun _ => i) (q := fun k => k)
    (C81_mat4_vec (M4.inverse m) v i).swap fv (fun k => C98_inverse_mat4 m B hB hB' h hi i k) hS hv
  rwa [solve (det_ne hB hi) hx] at d

/-- C124, `vec4 / mat4`: component `i` of the solution `x` of `x * m = v`. -/
theorem C124_vec_mat4 (m : M4 F32) (v : V4 F32) (B : ℚ) (hB : 1 ≤ B) (hB' : B ≤ 2 ^ 30) (h : BoundedBy m B)
    (hi : Invertible32 (exactMat m) B) (fv : ∀ k, (coord v k).IsFin = true) (hv : ∑ k, |(coord v k).val| ≤ 2 ^ 100)
    (x : Fin 4 → ℚ) (hx : ∀ c, ∑ r, x r * (entry m c r).val = (coord v c).val) (i : Fin 4)
    (hS : cramerSize (exactMat m) (fun k => (coord v k).val) (fun k => k) (fun _ => i) ≤ 2 ^ 120) :
    (coord (v / m) i).IsFin = true ∧
    |(coord (v / m) i).val - x i| ≤ divisionError (exactMat m) B (fun k => (coord v k).val) (fun k => k) (fun _ => i) := by
  have d := division (by norm_num) (by norm_num) hB hi (p := fun k => k) (q := fun _ => i)
    (C81_vec_mat4 v (M4.inverse m) i) fv (fun k => C98_inverse_mat4 m B hB hB' h hi k i) hS hv
  rwa [solve_left (det_ne hB hi) hx] at d

/-- C124, `mat4 / mat4`: the entry in column `c`, row `r` of the solution `x` of `x * b = a`. -/
theorem C124_mat4 (a b : M4 F32) (B : ℚ) (hB : 1 ≤ B) (hB' : B ≤ 2 ^ 30) (h : BoundedBy b B)
    (hi : Invertible32 (exactMat b) B) (r : Fin 4) (fa : ∀ k, (entry a k r).IsFin = true) (ha : ∑ k, |(entry a k r).val| ≤ 2 ^ 100)
    (x : Matrix (Fin 4) (Fin 4) ℚ) (hx : x * exactMat b = exactMat a) (c : Fin 4)
    (hS : cramerSize (exactMat b) (fun k => (entry a k r).val) (fun k => k) (fun _ => c) ≤ 2 ^ 120) :
    (entry (a / b) c r).IsFin = true ∧
    |(entry (a / b) c r).val - x r c| ≤ divisionError (exactMat b) B (fun k => (entry a k r).val) (fun k => k) (fun _ => c) := by
  have d := division (by norm_num) (by norm_num) hB hi (p := fun k => k) (q := fun _ => c)
    (C81_mat4_mul a (M4.inverse b) c r) fa (fun k => C98_inverse_mat4 b B hB hB' h hi k c) hS ha
  rwa [solve_left (det_ne hB hi) (x := x r) (v := fun k => (entry a k r).val) (fun c => congrFun (congrFun hx r) c)] at d

/-- C124, `m * inverse(m)`, which is also `m / m`: the entry in column `c`, row `r` is 1 on the diagonal and 0 elsewhere. -/
theorem C124_mat4_right (m : M4 F32) (B : ℚ) (hB : 1 ≤ B) (hB' : B ≤ 2 ^ 30) (h : BoundedBy m B)
    (hi : Invertible32 (exactMat m) B) (c r : Fin 4)
    (hS : cramerSize (exactMat m) (fun k => (entry m k r).val) (fun k => k) (fun _ => c) ≤ 2 ^ 120) :
    m * M4.inverse m = m / m ∧ (entry (m * M4.inverse m) c r).IsFin = true ∧
    |(entry (m * M4.inverse m) c r).val - if r = c then 1 else 0| ≤
      divisionError (exactMat m) B (fun k => (entry m k r).val) (fun k => k) (fun _ => c) := by
  have s : ∑ k, |(entry m k r).val| ≤ 2 ^ 100 := by
    refine (Finset.sum_le_sum fun k _ => (h k r).2.trans hB').trans ?_
    simp only [Finset.sum_const, Finset.card_univ, Fintype.card_fin]
    norm_num
  have d := C124_mat4 m m B hB hB' h hi r (fun k => (h k r).1) s 1 (one_mul _) c hS
  rw [Matrix.one_apply] at d
  exact ⟨rfl, d⟩

/-- C124, `inverse(m) * m`: the entry in column `c`, row `r` is 1 on the diagonal and 0 elsewhere. -/
theorem C124_mat4_left (m : M4 F32) (B : ℚ) (hB : 1 ≤ B) (hB' : B ≤ 2 ^ 30) (h : BoundedBy m B)
    (hi : Invertible32 (exactMat m) B) (c r : Fin 4)
    (hS : cramerSize (exactMat m) (fun k => (entry m c k).val) (fun _ => r) (fun k => k) ≤ 2 ^ 120) :
    (entry (M4.inverse m * m) c r).IsFin = true ∧
    |(entry (M4.inverse m * m) c r).val - if r = c then 1 else 0| ≤
      divisionError (exactMat m) B (fun k => (entry m c k).val) (fun _ => r) (fun k => k) := by
  have s : ∑ k, |(entry m c k).val| ≤ 2 ^ 100 := by
    refine (Finset.sum_le_sum fun k _ => (h c k).2.trans hB').trans ?_
    simp only [Finset.sum_const, Finset.card_univ, Fintype.card_fin]
    norm_num
  have d := division (by norm_num) (by norm_num) hB hi (p := fun _ => r) (q := fun k => k)
    (C81_mat4_mul (M4.inverse m) m c r).swap (fun k => (h c k).1) (fun k => C98_inverse_mat4 m B hB hB' h hi r k) hS s
  have e : ∑ k, (entry m c k).val * (exactMat m)⁻¹ r k = if r = c then 1 else 0 := by
    have := congrFun (congrFun (Matrix.nonsing_inv_mul (exactMat m) (det_ne hB hi)) r) c
    rw [Matrix.one_apply, Matrix.mul_apply] at this
    rw [← this]
    exact Finset.sum_congr rfl fun k _ => mul_comm _ _
  rwa [e] at d

/-! ## The hypotheses are met -/

private def sheared : M2 F32 := ⟨⟨lit 2, lit 1⟩, ⟨lit 5, lit 3⟩⟩

private theorem sheared_eq : exactMat sheared = !![2, 5; 1, 3] := by
  ext r c; fin_cases r <;> fin_cases c <;> decide +kernel

private theorem sheared_good : BoundedBy sheared 5 ∧ Invertible32 (exactMat sheared) 5 := by
  have b : ∀ c r, (entry sheared c r).IsFin = true ∧ |(entry sheared c r).val| ≤ 5 := by decide +kernel
  refine ⟨b, ?_⟩
  have t : termSize (exactMat sheared) = 11 := by rw [sheared_eq, termSize_two]; norm_num [abs_of_pos]
  have d : (exactMat sheared).det = 1 := by rw [sheared_eq, Matrix.det_fin_two_of]; norm_num
  unfold Invertible32
  rw [t, d]
  norm_num

private theorem sheared_cramer (v : Fin 2 → ℚ) (p q : Fin 2 → Fin 2) (hv : ∀ k, |v k| ≤ 5) : cramerSize (exactMat sheared) v p q ≤ 2 ^ 120 := by
  have d : (exactMat sheared).det = 1 := by rw [sheared_eq, Matrix.det_fin_two_of]; norm_num
  have m : ∀ i j, minorSize (exactMat sheared) i j ≤ 5 := by
    intro i j
    unfold minorSize
    rw [termSize_one, sheared_eq]
    fin_cases i <;> fin_cases j <;> simp [Fin.succAbove] <;> norm_num
  unfold cramerSize
  rw [d, abs_one]
  refine (Finset.sum_le_sum (g := fun _ => (5 : ℚ) * 5) fun k _ => ?_).trans (by simp; norm_num)
  rw [div_one]
  exact mul_le_mul (hv k) (m _ _) (minorSize_nonneg _ _ _) (by norm_num)

/-- The system `2 x + 5 y = 1`, `x + 3 y = 2` has the solution (-7, 3). -/
example : (coord (sheared / (⟨lit 1, lit 2⟩ : V2 F32)) 0).IsFin = true ∧
    |(coord (sheared / (⟨lit 1, lit 2⟩ : V2 F32)) 0).val - (![-7, 3] : Fin 2 → ℚ) 0| ≤
      divisionError (exactMat sheared) 5 (fun k => (coord (⟨lit 1, lit 2⟩ : V2 F32) k).val) (fun _ => 0) (fun k => k) :=
  C124_mat2_vec _ _ 5 (by norm_num) (by norm_num) sheared_good.1 sheared_good.2 (by decide +kernel) (by decide +kernel) _
    (by decide +kernel) 0 (sheared_cramer _ _ _ (by decide +kernel))

example (c r : Fin 2) : |(entry (sheared * M2.inverse sheared) c r).val - if r = c then 1 else 0| ≤
    divisionError (exactMat sheared) 5 (fun k => (entry sheared k r).val) (fun k => k) (fun _ => c) :=
  (C124_mat2_right _ 5 (by norm_num) (by norm_num) sheared_good.1 sheared_good.2 c r
    (sheared_cramer _ _ _ fun k => (sheared_good.1 k r).2)).2.2

end Zcm
