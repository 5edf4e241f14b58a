import Verif.Spec.Coord
import Verif.Model.Geometric
import Verif.Lemmas.F32Approx

/-!
# C81  Sums of products are accurate in IEEE arithmetic

`dot`, `length2`, `cross`, matrix-vector, vector-matrix and matrix-matrix products computed in binary32 differ from the
exact (rational) result by at most `(1 + 2^-24)^n - 1`, about `n * 2^-24`, times the sum of the magnitudes of their
terms, and overflow only if the terms are huge: `AccurateSum` of Spec/Accuracy.
-/

namespace Zcm

open F32

theorem fn2 {f : Fin 2 → F32} : ![f 0, f 1] = f := by ext i; fin_cases i <;> rfl
theorem fn3 {f : Fin 3 → F32} : ![f 0, f 1, f 2] = f := by ext i; fin_cases i <;> rfl
theorem fn4 {f : Fin 4 → F32} : ![f 0, f 1, f 2, f 3] = f := by ext i; fin_cases i <;> rfl

/-- C81, `dot` and `length2` of `vec2`. -/
theorem C81_dot_vec2 (a b : V2 F32) :
    AccurateSum (V2.dot a b) (coord a) (coord b) ∧ AccurateSum (V2.length2 a) (coord a) (coord a) :=
  ⟨accurate2 a.x b.x a.y b.y, accurate2 a.x a.x a.y a.y⟩

/-- C81, `dot` and `length2` of `vec3`. -/
theorem C81_dot_vec3 (a b : V3 F32) :
    AccurateSum (V3.dot a b) (coord a) (coord b) ∧ AccurateSum (V3.length2 a) (coord a) (coord a) :=
  ⟨accurate3 a.x b.x a.y b.y a.z b.z, accurate3 a.x a.x a.y a.y a.z a.z⟩

/-- C81, `dot` and `length2` of `vec4`. -/
theorem C81_dot_vec4 (a b : V4 F32) :
    AccurateSum (V4.dot a b) (coord a) (coord b) ∧ AccurateSum (V4.length2 a) (coord a) (coord a) :=
  ⟨accurate4 a.x b.x a.y b.y a.z b.z a.w b.w, accurate4 a.x a.x a.y a.y a.z a.z a.w a.w⟩

/-- C81, `dot` and `length2` of `quat`. -/
theorem C81_dot_quat (a b : Quat F32) :
    AccurateSum (Quat.dot a b) (coord a) (coord b) ∧ AccurateSum (Quat.length2 a) (coord a) (coord a) :=
  ⟨accurate4 a.x b.x a.y b.y a.z b.z a.w b.w, accurate4 a.x a.x a.y a.y a.z a.z a.w a.w⟩

/-- C81, `cross`: component `i` is the accurate difference of two products. -/
theorem C81_cross (a b : V3 F32) (i : Fin 3) :
    AccurateSum (coord (V3.cross a b) i) ![coord a (i + 1), -coord a (i + 2)] ![coord b (i + 2), coord b (i + 1)] := by
  fin_cases i
  · exact accurate_cross a.y b.z a.z b.y
  · exact accurate_cross a.z b.x a.x b.z
  · exact accurate_cross a.x b.y a.y b.x

/-- C81, `mat2 * vec2`: component `r` is the accurate product of row `r` with the vector. -/
theorem C81_mat2_vec (m : M2 F32) (v : V2 F32) (r : Fin 2) :
    AccurateSum (coord (m * v) r) (fun c => entry m c r) (coord v) := by
  rw [← fn2 (f := fun c => entry m c r)]
  fin_cases r <;> exact accurate2 _ _ _ _

/-- C81, `vec2 * mat2`: component `c` is the accurate product of the vector with column `c`. -/
theorem C81_vec_mat2 (v : V2 F32) (m : M2 F32) (c : Fin 2) :
    AccurateSum (coord (v * m) c) (coord v) (entry m c) := by
  fin_cases c <;> exact accurate2 _ _ _ _

/-- C81, `mat2 * mat2`: entry (column `c`, row `r`) is the accurate product of row `r` with column `c`. -/
theorem C81_mat2_mul (a b : M2 F32) (c r : Fin 2) :
    AccurateSum (entry (a * b) c r) (fun k => entry a k r) (entry b c) := by
  rw [← fn2 (f := fun k => entry a k r)]
  fin_cases c <;> fin_cases r <;> exact accurate2 _ _ _ _

/-- C81, `mat3 * vec3`: component `r` is the accurate product of row `r` with the vector. -/
theorem C81_mat3_vec (m : M3 F32) (v : V3 F32) (r : Fin 3) :
    AccurateSum (coord (m * v) r) (fun c => entry m c r) (coord v) := by
  rw [← fn3 (f := fun c => entry m c r)]
  fin_cases r <;> exact accurate3 _ _ _ _ _ _

/-- C81, `vec3 * mat3`: component `c` is the accurate product of the vector with column `c`. -/
theorem C81_vec_mat3 (v : V3 F32) (m : M3 F32) (c : Fin 3) :
    AccurateSum (coord (v * m) c) (coord v) (entry m c) := by
  fin_cases c <;> exact (accurate3 _ _ _ _ _ _).swap

/-- C81, `mat3 * mat3`: entry (column `c`, row `r`) is the accurate product of row `r` with column `c`. -/
theorem C81_mat3_mul (a b : M3 F32) (c r : Fin 3) :
    AccurateSum (entry (a * b) c r) (fun k => entry a k r) (entry b c) := by
  rw [← fn3 (f := fun k => entry a k r)]
  fin_cases c <;> fin_cases r <;> exact accurate3 _ _ _ _ _ _

/-- C81, `mat4 * vec4`: component `r` is the accurate product of row `r` with the vector. -/
theorem C81_mat4_vec (m : M4 F32) (v : V4 F32) (r : Fin 4) :
    AccurateSum (coord (m * v) r) (fun c => entry m c r) (coord v) := by
  rw [← fn4 (f := fun c => entry m c r)]
  fin_cases r <;> exact accurate4' _ _ _ _ _ _ _ _

/-- C81, `vec4 * mat4`: component `c` is the accurate product of the vector with column `c`. -/
theorem C81_vec_mat4 (v : V4 F32) (m : M4 F32) (c : Fin 4) :
    AccurateSum (coord (v * m) c) (coord v) (entry m c) := by
  fin_cases c <;> exact (accurate4 _ _ _ _ _ _ _ _).swap

/-- C81, `mat4 * mat4`: entry (column `c`, row `r`) is the accurate product of row `r` with column `c`. -/
theorem C81_mat4_mul (a b : M4 F32) (c r : Fin 4) :
    AccurateSum (entry (a * b) c r) (fun k => entry a k r) (entry b c) := by
  rw [← fn4 (f := fun k => entry a k r)]
  fin_cases c <;> fin_cases r <;> exact accurate4 _ _ _ _ _ _ _ _

/-- Non-vacuity: a product of two vectors that is rounded (0.1 and 0.7 are not binary32 numbers, the exact result is
not one either), with finite terms below the bound. -/
example :
    let a : V3 F32 := ⟨lit 0.1, lit 3, lit (-7)⟩
    let b : V3 F32 := ⟨lit 0.7, lit 5, lit 0.1⟩
    (∀ i, (coord a i).IsFin = true ∧ (coord b i).IsFin = true) ∧
    ∑ i, |(coord a i).val * (coord b i).val| ≤ 2 ^ 126 ∧ (V3.dot a b).IsFin = true ∧
    (V3.dot a b).val ≠ ∑ i, (coord a i).val * (coord b i).val := by
  decide +kernel

end Zcm
