import Verif.Lemmas.F32NaN
import Verif.Lemmas.F32Det
import Verif.Props.C86
import Verif.Model.ComponentWise
import Verif.Model.MatrixTransform
import Verif.Spec.NaN

/-!
# C99  A NaN is not lost, and it is known where it can be

`HasNaN`, `AllNaN` (Spec/NaN) say that some, or every, component is NaN.
-/

namespace Zcm

open F32

/-- C99, `vec2` operators: a NaN in an operand's component is in the result's component. -/
theorem C99_vec2_operators (a b : V2 F32) (s : F32) (i : Fin 2) :
    (coord a i = .nan ∨ coord b i = .nan →
      coord (a + b) i = .nan ∧ coord (a - b) i = .nan ∧ coord (a * b) i = .nan ∧ coord (a / b) i = .nan) ∧
    (coord a i = .nan ∨ s = .nan →
      coord (a * s) i = .nan ∧ coord (s * a) i = .nan ∧ coord (a / s) i = .nan ∧ coord (s / a) i = .nan ∧
      coord (s - a) i = .nan) ∧
    (coord a i = .nan → coord (-a) i = .nan) := by
  refine ⟨?_, ?_, ?_⟩
  · rintro (h | h) <;> fin_cases i <;> simp_all
  · rintro (h | h) <;> fin_cases i <;> simp_all
  · intro h; fin_cases i <;> simp_all

/-- C99, `vec3` operators: a NaN in an operand's component is in the result's component. -/
theorem C99_vec3_operators (a b : V3 F32) (s : F32) (i : Fin 3) :
    (coord a i = .nan ∨ coord b i = .nan →
      coord (a + b) i = .nan ∧ coord (a - b) i = .nan ∧ coord (a * b) i = .nan ∧ coord (a / b) i = .nan) ∧
    (coord a i = .nan ∨ s = .nan →
      coord (a * s) i = .nan ∧ coord (s * a) i = .nan ∧ coord (a / s) i = .nan ∧ coord (s / a) i = .nan ∧
      coord (s - a) i = .nan) ∧
    (coord a i = .nan → coord (-a) i = .nan) := by
  refine ⟨?_, ?_, ?_⟩
  · rintro (h | h) <;> fin_cases i <;> simp_all
  · rintro (h | h) <;> fin_cases i <;> simp_all
  · intro h; fin_cases i <;> simp_all

/-- C99, `vec4` operators: a NaN in an operand's component is in the result's component. -/
theorem C99_vec4_operators (a b : V4 F32) (s : F32) (i : Fin 4) :
    (coord a i = .nan ∨ coord b i = .nan →
      coord (a + b) i = .nan ∧ coord (a - b) i = .nan ∧ coord (a * b) i = .nan ∧ coord (a / b) i = .nan) ∧
    (coord a i = .nan ∨ s = .nan →
      coord (a * s) i = .nan ∧ coord (s * a) i = .nan ∧ coord (a / s) i = .nan ∧ coord (s / a) i = .nan ∧
      coord (s - a) i = .nan) ∧
    (coord a i = .nan → coord (-a) i = .nan) := by
  refine ⟨?_, ?_, ?_⟩
  · rintro (h | h) <;> fin_cases i <;> simp_all
  · rintro (h | h) <;> fin_cases i <;> simp_all
  · intro h; fin_cases i <;> simp_all

/-- C99, `quat` operators. -/
theorem C99_quat_operators (a b : Quat F32) (s : F32) (i : Fin 4) :
    (coord a i = .nan ∨ coord b i = .nan → coord (a + b) i = .nan ∧ coord (a - b) i = .nan) ∧
    (coord a i = .nan ∨ s = .nan →
      coord (a * s) i = .nan ∧ coord (s * a) i = .nan ∧ coord (a / s) i = .nan ∧ coord (s / a) i = .nan) ∧
    (coord a i = .nan → coord (-a) i = .nan ∧ coord (Quat.conjugate a) i = .nan) := by
  refine ⟨?_, ?_, ?_⟩
  · rintro (h | h) <;> fin_cases i <;> simp_all
  · rintro (h | h) <;> fin_cases i <;> simp_all
  · intro h; fin_cases i <;> simp_all [Quat.conjugate]

/-- C99, `vec2`: dot product, distance, squared distance of a value with a NaN. -/
theorem C99_vec2_dot (a b : V2 F32) (h : HasNaN a ∨ HasNaN b) :
    V2.dot a b = .nan ∧ V2.distance a b = .nan ∧ V2.distance2 a b = .nan := by
  rcases h with ⟨i, h⟩ | ⟨i, h⟩ <;> fin_cases i <;>
    simp_all [V2.dot, V2.distance, V2.distance2, V2.length, V2.length2, F.sqrt]

/-- C99, `vec2`: length and normalize of a value with a NaN. -/
theorem C99_vec2_length (a : V2 F32) (h : HasNaN a) :
    V2.length a = .nan ∧ V2.length2 a = .nan ∧ AllNaN (V2.normalize a) ∧ V2.compAdd a = .nan ∧ V2.compMul a = .nan := by
  have hd : V2.dot a a = .nan := (C99_vec2_dot a a (.inl h)).1
  have hl : V2.length a = .nan := by
    obtain ⟨i, h⟩ := h
    fin_cases i <;> simp_all [V2.length, F.sqrt]
  refine ⟨hl, hd, ?_, ?_, ?_⟩
  · intro i; fin_cases i <;> simp [V2.normalize, hd, F.inversesqrt, F.sqrt]
  · obtain ⟨i, h⟩ := h; fin_cases i <;> simp_all [V2.compAdd]
  · obtain ⟨i, h⟩ := h; fin_cases i <;> simp_all [V2.compMul]

/-- C99, `vec3`: dot product, distance, squared distance of a value with a NaN. -/
theorem C99_vec3_dot (a b : V3 F32) (h : HasNaN a ∨ HasNaN b) :
    V3.dot a b = .nan ∧ V3.distance a b = .nan ∧ V3.distance2 a b = .nan := by
  rcases h with ⟨i, h⟩ | ⟨i, h⟩ <;> fin_cases i <;>
    simp_all [V3.dot, V3.distance, V3.distance2, V3.length, V3.length2, F.sqrt]

/-- C99, `vec3`: length and normalize of a value with a NaN. -/
theorem C99_vec3_length (a : V3 F32) (h : HasNaN a) :
    V3.length a = .nan ∧ V3.length2 a = .nan ∧ AllNaN (V3.normalize a) ∧ V3.compAdd a = .nan ∧ V3.compMul a = .nan := by
  have hd : V3.dot a a = .nan := (C99_vec3_dot a a (.inl h)).1
  have hl : V3.length a = .nan := by
    obtain ⟨i, h⟩ := h
    fin_cases i <;> simp_all [V3.length, F.sqrt]
  refine ⟨hl, hd, ?_, ?_, ?_⟩
  · intro i; fin_cases i <;> simp [V3.normalize, hd, F.inversesqrt, F.sqrt]
  · obtain ⟨i, h⟩ := h; fin_cases i <;> simp_all [V3.compAdd]
  · obtain ⟨i, h⟩ := h; fin_cases i <;> simp_all [V3.compMul]

/-- C99, `vec4`: dot product, distance, squared distance of a value with a NaN. -/
theorem C99_vec4_dot (a b : V4 F32) (h : HasNaN a ∨ HasNaN b) :
    V4.dot a b = .nan ∧ V4.distance a b = .nan ∧ V4.distance2 a b = .nan := by
  rcases h with ⟨i, h⟩ | ⟨i, h⟩ <;> fin_cases i <;>
    simp_all [V4.dot, V4.distance, V4.distance2, V4.length, V4.length2, F.sqrt]

/-- C99, `vec4`: length and normalize of a value with a NaN. -/
theorem C99_vec4_length (a : V4 F32) (h : HasNaN a) :
    V4.length a = .nan ∧ V4.length2 a = .nan ∧ AllNaN (V4.normalize a) ∧ V4.compAdd a = .nan ∧ V4.compMul a = .nan := by
  have hd : V4.dot a a = .nan := (C99_vec4_dot a a (.inl h)).1
  have hl : V4.length a = .nan := by
    obtain ⟨i, h⟩ := h
    fin_cases i <;> simp_all [V4.length, F.sqrt]
  refine ⟨hl, hd, ?_, ?_, ?_⟩
  · intro i; fin_cases i <;> simp [V4.normalize, hd, F.inversesqrt, F.sqrt]
  · obtain ⟨i, h⟩ := h; fin_cases i <;> simp_all [V4.compAdd]
  · obtain ⟨i, h⟩ := h; fin_cases i <;> simp_all [V4.compMul]

/-- C99, `quat`: dot product of a value with a NaN. -/
theorem C99_quat_dot (a b : Quat F32) (h : HasNaN a ∨ HasNaN b) :
    Quat.dot a b = .nan := by
  rcases h with ⟨i, h⟩ | ⟨i, h⟩ <;> fin_cases i <;>
    simp_all [Quat.dot]

/-- C99, `quat`: length and normalize of a value with a NaN. -/
theorem C99_quat_length (a : Quat F32) (h : HasNaN a) :
    Quat.length a = .nan ∧ Quat.length2 a = .nan ∧ AllNaN (Quat.normalize a) ∧ AllNaN (Quat.inverse a) := by
  have hd : Quat.dot a a = .nan := (C99_quat_dot a a (.inl h))
  have hl : Quat.length a = .nan := by
    obtain ⟨i, h⟩ := h
    fin_cases i <;> simp_all [Quat.length, F.sqrt]
  refine ⟨hl, hd, ?_, ?_⟩
  · intro i; fin_cases i <;> simp [Quat.normalize, hl]
  · intro i; fin_cases i <;> simp [Quat.inverse, hd]

/-- C99, `vec2`: reflect and refract poison every component. -/
theorem C99_vec2_reflect (I N : V2 F32) (eta : F32) :
    (HasNaN I ∨ HasNaN N → AllNaN (V2.reflect I N)) ∧
    (HasNaN I ∨ HasNaN N ∨ eta = .nan → AllNaN (V2.refract I N eta)) := by
  have hd : HasNaN I ∨ HasNaN N → V2.dot N I = .nan := fun h => (C99_vec2_dot N I h.symm).1
  refine ⟨fun h => ?_, fun h => ?_⟩
  · intro i; fin_cases i <;> simp [V2.reflect, hd h]
  · intro i
    rcases or_assoc.mpr h with h | h
    · fin_cases i <;> simp [V2.refract, hd h, F.sqrt]
    · fin_cases i <;> simp [V2.refract, h, F.sqrt]

/-- C99, `vec2`: faceforward does not report a NaN in the directions it compares; it then returns `-N`. -/
theorem C99_vec2_faceforward (N I Nref : V2 F32) (h : HasNaN I ∨ HasNaN Nref) : V2.faceforward N I Nref = -N := by
  have hd : V2.dot Nref I = .nan := (C99_vec2_dot Nref I h.symm).1
  simp [V2.faceforward, hd]

/-- C99, `vec3`: reflect and refract poison every component. -/
theorem C99_vec3_reflect (I N : V3 F32) (eta : F32) :
    (HasNaN I ∨ HasNaN N → AllNaN (V3.reflect I N)) ∧
    (HasNaN I ∨ HasNaN N ∨ eta = .nan → AllNaN (V3.refract I N eta)) := by
  have hd : HasNaN I ∨ HasNaN N → V3.dot N I = .nan := fun h => (C99_vec3_dot N I h.symm).1
  refine ⟨fun h => ?_, fun h => ?_⟩
  · intro i; fin_cases i <;> simp [V3.reflect, hd h]
  · intro i
    rcases or_assoc.mpr h with h | h
    · fin_cases i <;> simp [V3.refract, hd h, F.sqrt]
    · fin_cases i <;> simp [V3.refract, h, F.sqrt]

/-- C99, `vec3`: faceforward does not report a NaN in the directions it compares; it then returns `-N`. -/
theorem C99_vec3_faceforward (N I Nref : V3 F32) (h : HasNaN I ∨ HasNaN Nref) : V3.faceforward N I Nref = -N := by
  have hd : V3.dot Nref I = .nan := (C99_vec3_dot Nref I h.symm).1
  simp [V3.faceforward, hd]

/-- C99, `vec4`: reflect and refract poison every component. -/
theorem C99_vec4_reflect (I N : V4 F32) (eta : F32) :
    (HasNaN I ∨ HasNaN N → AllNaN (V4.reflect I N)) ∧
    (HasNaN I ∨ HasNaN N ∨ eta = .nan → AllNaN (V4.refract I N eta)) := by
  have hd : HasNaN I ∨ HasNaN N → V4.dot N I = .nan := fun h => (C99_vec4_dot N I h.symm).1
  refine ⟨fun h => ?_, fun h => ?_⟩
  · intro i; fin_cases i <;> simp [V4.reflect, hd h]
  · intro i
    rcases or_assoc.mpr h with h | h
    · fin_cases i <;> simp [V4.refract, hd h, F.sqrt]
    · fin_cases i <;> simp [V4.refract, h, F.sqrt]

/-- C99, `vec4`: faceforward does not report a NaN in the directions it compares; it then returns `-N`. -/
theorem C99_vec4_faceforward (N I Nref : V4 F32) (h : HasNaN I ∨ HasNaN Nref) : V4.faceforward N I Nref = -N := by
  have hd : V4.dot Nref I = .nan := (C99_vec4_dot Nref I h.symm).1
  simp [V4.faceforward, hd]

/-- C99, `cross`: a NaN component poisons the other two components. -/
theorem C99_cross (a b : V3 F32) (i j : Fin 3) (hij : i ≠ j) (h : coord a j = .nan ∨ coord b j = .nan) :
    coord (V3.cross a b) i = .nan := by
  rcases h with h | h <;> fin_cases i <;> fin_cases j <;> simp_all [V3.cross]

/-- C99, scalar functions that return NaN when an argument is NaN. -/
theorem C99_scalar (x y t : F32) :
    F.abs .nan = (.nan : F32) ∧ F.floor .nan = (.nan : F32) ∧ F.ceil .nan = (.nan : F32) ∧ F.trunc .nan = (.nan : F32) ∧
    F.round .nan = (.nan : F32) ∧ F.roundEven .nan = (.nan : F32) ∧ F.fract .nan = (.nan : F32) ∧
    F.sqrt .nan = (.nan : F32) ∧ F.inversesqrt .nan = (.nan : F32) ∧
    F.mod .nan y = .nan ∧ F.mod x .nan = .nan ∧
    F.fma .nan y t = .nan ∧ F.fma x .nan t = .nan ∧ F.fma x y .nan = .nan ∧
    F.mix .nan y t = .nan ∧ F.mix x .nan t = .nan ∧ F.mix x y .nan = .nan ∧
    F.smoothstep .nan y t = .nan ∧ F.smoothstep x .nan t = .nan ∧ F.smoothstep x y .nan = .nan := by
  have f1 : ∀ y t : F32, FloatOps.fma .nan y t = .nan := fun y t => by cases y <;> cases t <;> rfl
  have f2 : ∀ y t : F32, FloatOps.fma y .nan t = .nan := fun y t => by cases y <;> cases t <;> rfl
  have f3 : ∀ y t : F32, FloatOps.fma y t .nan = .nan := fun y t => by cases y <;> cases t <;> first | rfl | exact add_nan _
  refine ⟨rfl, rfl, rfl, rfl, rfl, ?_, ?_, rfl, ?_, ?_, ?_, f1 _ _, f2 _ _, f3 _ _, ?_, ?_, ?_, ?_, ?_, ?_⟩
  · have : FloatOps.nearbyint (.nan : F32) = .nan := rfl
    simp [F.roundEven, this]
  · simp [F.fract]
  · have : FloatOps.sqrt (.nan : F32) = .nan := rfl
    simp [F.inversesqrt, F.sqrt, this]
  · simp [F.mod]
  · simp [F.mod]
  · simp [F.mix]
  · simp [F.mix]
  · simp [F.mix]
  · simp [F.smoothstep, F.clamp, F.min, F.max]
  · simp [F.smoothstep, F.clamp, F.min, F.max]
  · simp [F.smoothstep, F.clamp, F.min, F.max]

/-- C99, scalar functions that do not report a NaN: `min` and `max` return their first argument, `clamp` ignores a NaN bound,
`step` returns 1, `sign` and `signNotZero` return -1. -/
theorem C99_swallowed (x y lo hi : F32) :
    F.min .nan y = .nan ∧ F.min x .nan = x ∧ F.max .nan y = .nan ∧ F.max x .nan = x ∧
    F.clamp .nan lo hi = .nan ∧ F.clamp x .nan hi = F.min x hi ∧ F.clamp x lo .nan = F.max x lo ∧
    F.step .nan y = lit 1 ∧ F.step x .nan = lit 1 ∧
    F.sign .nan = (-(lit 1) : F32) ∧ F.signNotZero .nan = (-(lit 1) : F32) := by
  simp [F.min, F.max, F.clamp, F.step, F.sign, F.signNotZero]

/-- C99, comparisons: nothing equals, or is ordered with, a NaN. -/
theorem C99_comparison (x : F32) :
    (x == (.nan : F32)) = false ∧ ((.nan : F32) == x) = false ∧ ¬ x < .nan ∧ ¬ (.nan : F32) < x ∧ ¬ x ≤ .nan ∧
    ¬ (.nan : F32) ≤ x := by
  simp

/-- C99, `vec2`: a value with a NaN differs from everything, itself included. -/
theorem C99_vec2_eq (a b : V2 F32) (h : HasNaN a ∨ HasNaN b) : V2.eq a b = false ∧ V2.ne a b = true := by
  rcases h with ⟨i, h⟩ | ⟨i, h⟩ <;> fin_cases i <;> simp_all [V2.eq, V2.ne]

/-- C99, `vec3`: a value with a NaN differs from everything, itself included. -/
theorem C99_vec3_eq (a b : V3 F32) (h : HasNaN a ∨ HasNaN b) : V3.eq a b = false ∧ V3.ne a b = true := by
  rcases h with ⟨i, h⟩ | ⟨i, h⟩ <;> fin_cases i <;> simp_all [V3.eq, V3.ne]

/-- C99, `vec4`: a value with a NaN differs from everything, itself included. -/
theorem C99_vec4_eq (a b : V4 F32) (h : HasNaN a ∨ HasNaN b) : V4.eq a b = false ∧ V4.ne a b = true := by
  rcases h with ⟨i, h⟩ | ⟨i, h⟩ <;> fin_cases i <;> simp_all [V4.eq, V4.ne]

/-- C99, `quat`: a value with a NaN differs from everything, itself included. -/
theorem C99_quat_eq (a b : Quat F32) (h : HasNaN a ∨ HasNaN b) : Quat.eq a b = false ∧ Quat.ne a b = true := by
  rcases h with ⟨i, h⟩ | ⟨i, h⟩ <;> fin_cases i <;> simp_all [Quat.eq, Quat.ne]

/-- C99, `mat2 * vec2`: a NaN in the vector poisons everything, a NaN in row `r` of the matrix poisons component `r`. -/
theorem C99_mat2_vec (m : M2 F32) (v : V2 F32) :
    (HasNaN v → AllNaN (m * v)) ∧ (∀ c r, entry m c r = .nan → coord (m * v) r = .nan) ∧
    (HasNaN v → AllNaN (v * m)) ∧ (∀ c r, entry m c r = .nan → coord (v * m) c = .nan) := by
  refine ⟨?_, ?_, ?_, ?_⟩
  · rintro ⟨j, h⟩ i; rw [M2.coord_mulV']; fin_cases j <;> simp_all
  · intro c r h; rw [M2.coord_mulV']; fin_cases c <;> simp_all
  · rintro ⟨j, h⟩ i; rw [M2.coord_vMul']; fin_cases j <;> simp_all
  · intro c r h; rw [M2.coord_vMul']; fin_cases r <;> simp_all

/-- C99, `mat2 * mat2`: a NaN in row `r` of the left factor poisons row `r`, one in column `c` of the right factor column `c`. -/
theorem C99_mat2_mul (a b : M2 F32) (c r k : Fin 2) (h : entry a k r = .nan ∨ entry b c k = .nan) :
    entry (a * b) c r = .nan := by
  rw [M2.entry_mul']; rcases h with h | h <;> fin_cases k <;> simp_all

/-- C99, `mat2`: determinant and inverse of a matrix with a NaN. -/
theorem C99_mat2_inverse (m : M2 F32) (h : HasNaNM m) :
    M2.determinant m = .nan ∧ AllNaNM (M2.inverse m) ∧ AllNaNM (M2.inverseTranspose m) := by
  obtain ⟨c, r, h⟩ := h
  have hd : M2.determinant m = .nan := by
    fin_cases c <;> fin_cases r <;> simp_all [M2.determinant]
  refine ⟨hd, fun c r => ?_, fun c r => ?_⟩
  · have e : entry (M2.inverse m) c r = entry (M2.adjugate m) c r * (lit 1 / M2.determinant m) := by
      fin_cases r <;> fin_cases c <;> rfl
    rw [e, hd, div_nan, mul_nan]
  · have e : entry (M2.inverseTranspose m) c r = entry (M2.adjugate m) c r / M2.determinant m := by
      fin_cases r <;> fin_cases c <;> rfl
    rw [e, hd, div_nan]

/-- C99, `mat3 * vec3`: a NaN in the vector poisons everything, a NaN in row `r` of the matrix poisons component `r`. -/
theorem C99_mat3_vec (m : M3 F32) (v : V3 F32) :
    (HasNaN v → AllNaN (m * v)) ∧ (∀ c r, entry m c r = .nan → coord (m * v) r = .nan) ∧
    (HasNaN v → AllNaN (v * m)) ∧ (∀ c r, entry m c r = .nan → coord (v * m) c = .nan) := by
  refine ⟨?_, ?_, ?_, ?_⟩
  · rintro ⟨j, h⟩ i; rw [M3.coord_mulV']; fin_cases j <;> simp_all
  · intro c r h; rw [M3.coord_mulV']; fin_cases c <;> simp_all
  · rintro ⟨j, h⟩ i; rw [M3.coord_vMul']; fin_cases j <;> simp_all
  · intro c r h; rw [M3.coord_vMul']; fin_cases r <;> simp_all

/-- C99, `mat3 * mat3`: a NaN in row `r` of the left factor poisons row `r`, one in column `c` of the right factor column `c`. -/
theorem C99_mat3_mul (a b : M3 F32) (c r k : Fin 3) (h : entry a k r = .nan ∨ entry b c k = .nan) :
    entry (a * b) c r = .nan := by
  rw [M3.entry_mul']; rcases h with h | h <;> fin_cases k <;> simp_all

/-- C99, `mat3`: determinant and inverse of a matrix with a NaN. -/
theorem C99_mat3_inverse (m : M3 F32) (h : HasNaNM m) :
    M3.determinant m = .nan ∧ AllNaNM (M3.inverse m) ∧ AllNaNM (M3.inverseTranspose m) := by
  obtain ⟨c, r, h⟩ := h
  have hd : M3.determinant m = .nan := by
    fin_cases c <;> fin_cases r <;> simp_all [M3.determinant]
  have hd' : m.c0.x * (m.c1.y * m.c2.z - m.c1.z * m.c2.y) - m.c0.y * (m.c1.x * m.c2.z - m.c1.z * m.c2.x) +
        m.c0.z * (m.c1.x * m.c2.y - m.c1.y * m.c2.x) = .nan := by
    fin_cases c <;> fin_cases r <;> simp_all
  refine ⟨hd, fun c r => ?_, fun c r => ?_⟩
  · have e : entry (M3.inverse m) c r = entry (M3.adjugate m) c r * (lit 1 / M3.determinant m) := by
      fin_cases r <;> fin_cases c <;> rfl
    rw [e, hd, div_nan, mul_nan]
  · have e : entry (M3.inverseTranspose m) c r = entry (M3.adjugate m) r c /
        (m.c0.x * (m.c1.y * m.c2.z - m.c1.z * m.c2.y) - m.c0.y * (m.c1.x * m.c2.z - m.c1.z * m.c2.x) +
          m.c0.z * (m.c1.x * m.c2.y - m.c1.y * m.c2.x)) := by
      fin_cases r <;> fin_cases c <;> rfl
    rw [e, hd', div_nan]

/-- C99, `mat4 * vec4`: a NaN in the vector poisons everything, a NaN in row `r` of the matrix poisons component `r`. -/
theorem C99_mat4_vec (m : M4 F32) (v : V4 F32) :
    (HasNaN v → AllNaN (m * v)) ∧ (∀ c r, entry m c r = .nan → coord (m * v) r = .nan) ∧
    (HasNaN v → AllNaN (v * m)) ∧ (∀ c r, entry m c r = .nan → coord (v * m) c = .nan) := by
  refine ⟨?_, ?_, ?_, ?_⟩
  · rintro ⟨j, h⟩ i; rw [M4.coord_mulV']; fin_cases j <;> simp_all
  · intro c r h; rw [M4.coord_mulV']; fin_cases c <;> simp_all
  · rintro ⟨j, h⟩ i; rw [M4.coord_vMul']; fin_cases j <;> simp_all
  · intro c r h; rw [M4.coord_vMul']; fin_cases r <;> simp_all

/-- C99, `mat4 * mat4`: a NaN in row `r` of the left factor poisons row `r`, one in column `c` of the right factor column `c`. -/
theorem C99_mat4_mul (a b : M4 F32) (c r k : Fin 4) (h : entry a k r = .nan ∨ entry b c k = .nan) :
    entry (a * b) c r = .nan := by
  rw [M4.entry_mul']; rcases h with h | h <;> fin_cases k <;> simp_all

/-- C99, `mat4`: determinant and inverse of a matrix with a NaN. -/
theorem C99_mat4_inverse (m : M4 F32) (h : HasNaNM m) :
    M4.determinant m = .nan ∧ AllNaNM (M4.inverse m) ∧ AllNaNM (M4.inverseTranspose m) := by
  obtain ⟨c, r, h⟩ := h
  have hd : M4.determinant m = .nan := by
    fin_cases c <;> fin_cases r <;> simp_all [M4.determinant]
  have hd' : (m.c0.x * entry (M4.adjugate m) 0 0 + m.c0.y * entry (M4.adjugate m) 1 0) +
        (m.c0.z * entry (M4.adjugate m) 2 0 + m.c0.w * entry (M4.adjugate m) 3 0) = .nan := by
    fin_cases c <;> fin_cases r <;> simp_all [M4.adjugate]
  refine ⟨hd, fun c r => ?_, fun c r => ?_⟩
  · have e : entry (M4.inverse m) c r = entry (M4.adjugate m) c r *
        (lit 1 / ((m.c0.x * entry (M4.adjugate m) 0 0 + m.c0.y * entry (M4.adjugate m) 1 0) +
          (m.c0.z * entry (M4.adjugate m) 2 0 + m.c0.w * entry (M4.adjugate m) 3 0))) := by
      fin_cases r <;> fin_cases c <;> rfl
    rw [e, hd', div_nan, mul_nan]
  · rw [inverseTranspose_entry4, hd, div_nan]

/-- C99, `quat * quat`, `quat * vec3`: one NaN in either factor poisons the whole product. -/
theorem C99_quat_mul (p q : Quat F32) (v : V3 F32) :
    (HasNaN p ∨ HasNaN q → AllNaN (p * q)) ∧ (HasNaN q ∨ HasNaN v → AllNaN (q * v)) ∧
    (HasNaN q ∨ HasNaN v → AllNaN (v * q)) := by
  have key : ∀ (q : Quat F32) (v : V3 F32), HasNaN q ∨ HasNaN v → AllNaN (q * v) := by
    intro q v h i
    have e : q * v = v + q.w * ((lit 2 : F32) * V3.cross ⟨q.x, q.y, q.z⟩ v) +
      V3.cross ⟨q.x, q.y, q.z⟩ ((lit 2 : F32) * V3.cross ⟨q.x, q.y, q.z⟩ v) := rfl
    rw [e]
    rcases h with ⟨j, h⟩ | ⟨j, h⟩ <;> fin_cases j <;> fin_cases i <;> simp_all [V3.cross]
  refine ⟨?_, key q v, ?_⟩
  · intro h i
    rw [Quat.mul_def']
    rcases h with ⟨j, h⟩ | ⟨j, h⟩ <;> fin_cases j <;> fin_cases i <;> simp_all
  · intro h
    refine key _ _ (h.imp_left fun h => ?_)
    exact ⟨0, (C99_quat_length q h).2.2.2 0⟩

/-- C99, `lerp(quat)`: a NaN parameter fails the assertion in a debug build and poisons the result in a release build. -/
theorem C99_lerp (x y : Quat F32) (t : F32) :
    Quat.lerp .debug x y .nan = .abort ∧
    ∃ q, Quat.lerp .release x y t = .ok q ∧ (t = .nan → AllNaN q) ∧
      ∀ i, coord x i = .nan ∨ coord y i = .nan → coord q i = .nan := by
  refine ⟨by simp [Quat.lerp, cassert], x * (lit 1 - t) + (y * t), rfl, ?_, ?_⟩
  · rintro rfl i; fin_cases i <;> simp
  · rintro i (h | h) <;> fin_cases i <;> simp_all

/-- C99, `mat3_cast`, `mat4_cast`, `quat_cast`. -/
theorem C99_casts (q : Quat F32) (m : M3 F32) :
    (HasNaN q → HasNaNM (Quat.mat3_cast q) ∧ HasNaNM (Quat.mat4_cast q)) ∧
    ((∃ i, entry m i i = .nan) → AllNaN (M3.quat_cast m)) := by
  refine ⟨?_, ?_⟩
  · intro h
    have h3 : entry (Quat.mat3_cast q) 0 1 = .nan := by
      obtain ⟨j, h⟩ := h
      fin_cases j <;> simp_all [Quat.mat3_cast]
    exact ⟨⟨0, 1, h3⟩, ⟨0, 1, h3⟩⟩
  · rintro ⟨j, h⟩ i
    fin_cases j <;> fin_cases i <;> simp_all [M3.quat_cast, F.sqrt]

theorem decompose_nan0 (m : M4 F32) (o : Quat F32)
    (h : ∀ i, coord (V3.divAssignS (⟨m.c0.x, m.c0.y, m.c0.z⟩ : V3 F32) (V3.length ⟨m.c0.x, m.c0.y, m.c0.z⟩)) i = .nan) :
    AllNaN (M4.decompose_orthogonal m o).2.1 ∧
    coord (M4.decompose_orthogonal m o).1 0 = V3.length ⟨m.c0.x, m.c0.y, m.c0.z⟩ := by
  have e0 := h 0
  have e1 := h 1
  have e2 := h 2
  simp only [coord_v3_0, coord_v3_1, coord_v3_2] at e0 e1 e2
  unfold M4.decompose_orthogonal
  simp only [V3.dot, V3.cross, e0, e1, e2, nan_mul, mul_nan, nan_add, add_nan, nan_sub, sub_nan, nan_lt, if_false, gt_iff_lt, lt_nan]
  refine ⟨fun i => ?_, rfl⟩
  split_ifs <;> fin_cases i <;> simp [M3.row, V3.idx, Next, Quat.setIdx, e0, e1, e2, F.sqrt]

theorem decompose_nan1 (m : M4 F32) (o : Quat F32)
    (h : ∀ i, coord (V3.divAssignS (⟨m.c1.x, m.c1.y, m.c1.z⟩ : V3 F32) (V3.length ⟨m.c1.x, m.c1.y, m.c1.z⟩)) i = .nan) :
    AllNaN (M4.decompose_orthogonal m o).2.1 ∧
    coord (M4.decompose_orthogonal m o).1 1 = V3.length ⟨m.c1.x, m.c1.y, m.c1.z⟩ := by
  have e0 := h 0
  have e1 := h 1
  have e2 := h 2
  simp only [coord_v3_0, coord_v3_1, coord_v3_2] at e0 e1 e2
  unfold M4.decompose_orthogonal
  simp only [V3.dot, V3.cross, e0, e1, e2, nan_mul, mul_nan, nan_add, add_nan, nan_sub, sub_nan, nan_lt, if_false, gt_iff_lt, lt_nan]
  refine ⟨fun i => ?_, rfl⟩
  split_ifs <;> fin_cases i <;> simp [M3.row, V3.idx, Next, Quat.setIdx, e0, e1, e2, F.sqrt]

theorem decompose_nan2 (m : M4 F32) (o : Quat F32)
    (h : ∀ i, coord (V3.divAssignS (⟨m.c2.x, m.c2.y, m.c2.z⟩ : V3 F32) (V3.length ⟨m.c2.x, m.c2.y, m.c2.z⟩)) i = .nan) :
    AllNaN (M4.decompose_orthogonal m o).2.1 ∧
    coord (M4.decompose_orthogonal m o).1 2 = V3.length ⟨m.c2.x, m.c2.y, m.c2.z⟩ := by
  have e0 := h 0
  have e1 := h 1
  have e2 := h 2
  simp only [coord_v3_0, coord_v3_1, coord_v3_2] at e0 e1 e2
  unfold M4.decompose_orthogonal
  simp only [V3.dot, V3.cross, e0, e1, e2, nan_mul, mul_nan, nan_add, add_nan, nan_sub, sub_nan, nan_lt, if_false, gt_iff_lt, lt_nan]
  refine ⟨fun i => ?_, rfl⟩
  split_ifs <;> fin_cases i <;> simp [M3.row, V3.idx, Next, Quat.setIdx, e0, e1, e2, F.sqrt]

theorem divAssign_nan (v : V3 F32) (h : HasNaN v) (i : Fin 3) : coord (V3.divAssignS v (V3.length v)) i = .nan := by
  have hl := (C99_vec3_length v h).1
  fin_cases i <;> simp [V3.divAssignS, hl]

theorem divAssign_zero (v : V3 F32) (h : ∀ i, (coord v i).IsFin = true ∧ (coord v i).val = 0) :
    (∀ i, coord (V3.divAssignS v (V3.length v)) i = .nan) ∧ (V3.length v == lit 0) = true := by
  obtain ⟨x, y, z⟩ := v
  obtain ⟨s0, h0⟩ := eq_zero_of_val (h 0).1 (h 0).2
  obtain ⟨s1, h1⟩ := eq_zero_of_val (h 1).1 (h 1).2
  obtain ⟨s2, h2⟩ := eq_zero_of_val (h 2).1 (h 2).2
  change x = _ at h0
  change y = _ at h1
  change z = _ at h2
  subst h0 h1 h2
  clear h
  revert s0 s1 s2
  decide +kernel

/-- C99, `decompose_orthogonal` of a matrix whose linear part has a column with a NaN, or a zero column: the whole orientation is
NaN (and so visible), in the second case the scale of that column is zero. -/
theorem C99_decompose (m : M4 F32) (o : Quat F32) (c : Fin 3) :
    ((∃ r : Fin 3, entry m c.castSucc r.castSucc = .nan) → AllNaN (M4.decompose_orthogonal m o).2.1) ∧
    ((∀ r : Fin 3, (entry m c.castSucc r.castSucc).IsFin = true ∧ (entry m c.castSucc r.castSucc).val = 0) →
      AllNaN (M4.decompose_orthogonal m o).2.1 ∧ (coord (M4.decompose_orthogonal m o).1 c == lit 0) = true) := by
  have nanCol : ∀ x y z : F32, (x = .nan ∨ y = .nan ∨ z = .nan) → HasNaN (⟨x, y, z⟩ : V3 F32) := by
    rintro x y z (h | h | h)
    exacts [⟨0, h⟩, ⟨1, h⟩, ⟨2, h⟩]
  have fromR : ∀ f : Fin 3 → F32, (∃ r, f r = .nan) → f 0 = .nan ∨ f 1 = .nan ∨ f 2 = .nan := by
    rintro f ⟨r, h⟩
    fin_cases r
    exacts [.inl h, .inr (.inl h), .inr (.inr h)]
  refine ⟨fun h => ?_, fun h => ?_⟩
  · have hc := fromR _ h
    fin_cases c
    · exact (decompose_nan0 m o fun i => divAssign_nan _ (nanCol _ _ _ hc) i).1
    · exact (decompose_nan1 m o fun i => divAssign_nan _ (nanCol _ _ _ hc) i).1
    · exact (decompose_nan2 m o fun i => divAssign_nan _ (nanCol _ _ _ hc) i).1
  · fin_cases c
    · have z := divAssign_zero ⟨m.c0.x, m.c0.y, m.c0.z⟩ (fun i => by fin_cases i; exacts [h 0, h 1, h 2])
      have d := decompose_nan0 m o z.1
      exact ⟨d.1, by rw [show ((⟨0, by decide⟩ : Fin 3)) = 0 from rfl, d.2]; exact z.2⟩
    · have z := divAssign_zero ⟨m.c1.x, m.c1.y, m.c1.z⟩ (fun i => by fin_cases i; exacts [h 0, h 1, h 2])
      have d := decompose_nan1 m o z.1
      exact ⟨d.1, by rw [show ((⟨1, by decide⟩ : Fin 3)) = 1 from rfl, d.2]; exact z.2⟩
    · have z := divAssign_zero ⟨m.c2.x, m.c2.y, m.c2.z⟩ (fun i => by fin_cases i; exacts [h 0, h 1, h 2])
      have d := decompose_nan2 m o z.1
      exact ⟨d.1, by rw [show ((⟨2, by decide⟩ : Fin 3)) = 2 from rfl, d.2]; exact z.2⟩

/-- C99, a matrix whose computed determinant is zero: no entry of the computed inverse is finite. -/
theorem C99_singular_mat2 (m : M2 F32) (h : (M2.determinant m).val = 0) (hf : (M2.determinant m).IsFin = true) (c r : Fin 2) :
    (entry (M2.inverse m) c r).IsFin = false := by
  have e : entry (M2.inverse m) c r = entry (M2.adjugate m) c r * (lit 1 / M2.determinant m) := by
    fin_cases r <;> fin_cases c <;> rfl
  rw [e]; exact mul_recip_zero hf h _

/-- C99, the same for `mat3`. -/
theorem C99_singular_mat3 (m : M3 F32) (h : (M3.determinant m).val = 0) (hf : (M3.determinant m).IsFin = true) (c r : Fin 3) :
    (entry (M3.inverse m) c r).IsFin = false := by
  have e : entry (M3.inverse m) c r = entry (M3.adjugate m) c r * (lit 1 / M3.determinant m) := by
    fin_cases r <;> fin_cases c <;> rfl
  rw [e]; exact mul_recip_zero hf h _

/-- C99, the same for `mat4`, for a singular matrix of integers of magnitude at most 28. -/
theorem C99_singular_mat4 (m : M4 F32) (N : Matrix (Fin 4) (Fin 4) ℤ) (h : IntMat (toMat m) N 28) (h0 : N.det = 0)
    (c r : Fin 4) : (entry (M4.inverse m) c r).IsFin = false := by
  have ha := C86_adjugate_mat4 m N h
  have e : entry (M4.inverse m) c r = entry (M4.adjugate m) c r *
      (lit 1 / ((m.c0.x * entry (M4.adjugate m) 0 0 + m.c0.y * entry (M4.adjugate m) 1 0) +
        (m.c0.z * entry (M4.adjugate m) 2 0 + m.c0.w * entry (M4.adjugate m) 3 0))) := by
    fin_cases r <;> fin_cases c <;> rfl
  have k := exactSum4' m.c0.x m.c0.y m.c0.z m.c0.w (entry (M4.adjugate m) 0 0) (entry (M4.adjugate m) 1 0)
    (entry (M4.adjugate m) 2 0) (entry (M4.adjugate m) 3 0) (fun k => N k 0) (fun k => N.adjugate 0 k)
    (fun i => by fin_cases i; exacts [(h 0 0).1, (h 1 0).1, (h 2 0).1, (h 3 0).1])
    (fun i => by fin_cases i; exacts [(ha 0 0).1, (ha 0 1).1, (ha 0 2).1, (ha 0 3).1]) ?_
  · have z : ∑ i, N i 0 * N.adjugate 0 i = 0 := by
      have t := congrFun (congrFun (Matrix.adjugate_mul N) 0) 0
      rw [Matrix.mul_apply, h0, zero_smul] at t
      simpa [mul_comm] using t
    rw [z] at k
    rw [e]; exact mul_recip_zero k.1 (by simpa using k.2) _
  · refine le_trans (Finset.sum_le_card_nsmul _ _ (28 * 131712) fun i _ => ?_) (by norm_num)
    rw [abs_mul]
    exact mul_le_mul (h i 0).2 (ha 0 i).2 (abs_nonneg _) (by norm_num)

/-- C99, `normalize(vec2)`: when the squared length underflows to zero no component is finite (for the zero vector all are
NaN); when it overflows, every component is zero. -/
theorem C99_vec2_normalize (v : V2 F32) (i : Fin 2) :
    ((V2.dot v v == lit 0) = true → (coord (V2.normalize v) i).IsFin = false) ∧
    ((∀ i, (coord v i).val = 0 ∧ (coord v i).IsFin = true) → coord (V2.normalize v) i = .nan) ∧
    ((∀ i, (coord v i).IsFin = true) → V2.dot v v = .inf false → (coord (V2.normalize v) i == lit 0) = true) := by
  refine ⟨fun h => ?_, fun h => ?_, fun h hd => ?_⟩
  · obtain ⟨s, hs⟩ := eq_zero_of_beq h
    have e : coord (V2.normalize v) i = coord v i * (lit 1 / FloatOps.sqrt (V2.dot v v)) := by fin_cases i <;> rfl
    rw [e, hs, inversesqrt_zero]
    exact mul_inf_not_fin _ _
  · obtain ⟨x, y⟩ := v
    obtain ⟨s0, h0⟩ := eq_zero_of_val (h 0).2 (h 0).1
    obtain ⟨s1, h1⟩ := eq_zero_of_val (h 1).2 (h 1).1
    change x = _ at h0
    change y = _ at h1
    subst h0 h1
    clear h
    revert s0 s1 i
    decide +kernel
  · have e : coord (V2.normalize v) i = coord v i * (lit 1 / FloatOps.sqrt (V2.dot v v)) := by fin_cases i <;> rfl
    rw [e, hd, inversesqrt_inf]
    exact mul_zero_beq (h i) _

/-- C99, `length(vec2)` is NaN only if a component is. -/
theorem C99_vec2_length_iff (v : V2 F32) :
    (V2.length v = .nan ↔ HasNaN v) ∧ (V2.length2 v = .nan ↔ HasNaN v) := by
  have key : ¬ HasNaN v → lit 0 ≤ V2.dot v v := by
    intro h
    have hn : ∀ i, coord v i ≠ .nan := fun i hi => h ⟨i, hi⟩
    exact nn_add (sq_nn (hn 0)) (sq_nn (hn 1))
  refine ⟨⟨fun h => ?_, fun h => (C99_vec2_length v h).1⟩, ⟨fun h => ?_, fun h => (C99_vec2_length v h).2.1⟩⟩
  · by_contra hc
    exact sqrt_ne_nan (key hc) h
  · by_contra hc
    exact (key hc).2.1 h

/-- C99, `normalize(vec3)`: when the squared length underflows to zero no component is finite (for the zero vector all are
NaN); when it overflows, every component is zero. -/
theorem C99_vec3_normalize (v : V3 F32) (i : Fin 3) :
    ((V3.dot v v == lit 0) = true → (coord (V3.normalize v) i).IsFin = false) ∧
    ((∀ i, (coord v i).val = 0 ∧ (coord v i).IsFin = true) → coord (V3.normalize v) i = .nan) ∧
    ((∀ i, (coord v i).IsFin = true) → V3.dot v v = .inf false → (coord (V3.normalize v) i == lit 0) = true) := by
  refine ⟨fun h => ?_, fun h => ?_, fun h hd => ?_⟩
  · obtain ⟨s, hs⟩ := eq_zero_of_beq h
    have e : coord (V3.normalize v) i = coord v i * (lit 1 / FloatOps.sqrt (V3.dot v v)) := by fin_cases i <;> rfl
    rw [e, hs, inversesqrt_zero]
    exact mul_inf_not_fin _ _
  · obtain ⟨x, y, z⟩ := v
    obtain ⟨s0, h0⟩ := eq_zero_of_val (h 0).2 (h 0).1
    obtain ⟨s1, h1⟩ := eq_zero_of_val (h 1).2 (h 1).1
    obtain ⟨s2, h2⟩ := eq_zero_of_val (h 2).2 (h 2).1
    change x = _ at h0
    change y = _ at h1
    change z = _ at h2
    subst h0 h1 h2
    clear h
    revert s0 s1 s2 i
    decide +kernel
  · have e : coord (V3.normalize v) i = coord v i * (lit 1 / FloatOps.sqrt (V3.dot v v)) := by fin_cases i <;> rfl
    rw [e, hd, inversesqrt_inf]
    exact mul_zero_beq (h i) _

/-- C99, `length(vec3)` is NaN only if a component is. -/
theorem C99_vec3_length_iff (v : V3 F32) :
    (V3.length v = .nan ↔ HasNaN v) ∧ (V3.length2 v = .nan ↔ HasNaN v) := by
  have key : ¬ HasNaN v → lit 0 ≤ V3.dot v v := by
    intro h
    have hn : ∀ i, coord v i ≠ .nan := fun i hi => h ⟨i, hi⟩
    exact nn_add (nn_add (sq_nn (hn 0)) (sq_nn (hn 1))) (sq_nn (hn 2))
  refine ⟨⟨fun h => ?_, fun h => (C99_vec3_length v h).1⟩, ⟨fun h => ?_, fun h => (C99_vec3_length v h).2.1⟩⟩
  · by_contra hc
    exact sqrt_ne_nan (key hc) h
  · by_contra hc
    exact (key hc).2.1 h

/-- C99, `normalize(vec4)`: when the squared length underflows to zero no component is finite (for the zero vector all are
NaN); when it overflows, every component is zero. -/
theorem C99_vec4_normalize (v : V4 F32) (i : Fin 4) :
    ((V4.dot v v == lit 0) = true → (coord (V4.normalize v) i).IsFin = false) ∧
    ((∀ i, (coord v i).val = 0 ∧ (coord v i).IsFin = true) → coord (V4.normalize v) i = .nan) ∧
    ((∀ i, (coord v i).IsFin = true) → V4.dot v v = .inf false → (coord (V4.normalize v) i == lit 0) = true) := by
  refine ⟨fun h => ?_, fun h => ?_, fun h hd => ?_⟩
  · obtain ⟨s, hs⟩ := eq_zero_of_beq h
    have e : coord (V4.normalize v) i = coord v i * (lit 1 / FloatOps.sqrt (V4.dot v v)) := by fin_cases i <;> rfl
    rw [e, hs, inversesqrt_zero]
    exact mul_inf_not_fin _ _
  · obtain ⟨x, y, z, w⟩ := v
    obtain ⟨s0, h0⟩ := eq_zero_of_val (h 0).2 (h 0).1
    obtain ⟨s1, h1⟩ := eq_zero_of_val (h 1).2 (h 1).1
    obtain ⟨s2, h2⟩ := eq_zero_of_val (h 2).2 (h 2).1
    obtain ⟨s3, h3⟩ := eq_zero_of_val (h 3).2 (h 3).1
    change x = _ at h0
    change y = _ at h1
    change z = _ at h2
    change w = _ at h3
    subst h0 h1 h2 h3
    clear h
    revert s0 s1 s2 s3 i
    decide +kernel
  · have e : coord (V4.normalize v) i = coord v i * (lit 1 / FloatOps.sqrt (V4.dot v v)) := by fin_cases i <;> rfl
    rw [e, hd, inversesqrt_inf]
    exact mul_zero_beq (h i) _

/-- C99, `length(vec4)` is NaN only if a component is. -/
theorem C99_vec4_length_iff (v : V4 F32) :
    (V4.length v = .nan ↔ HasNaN v) ∧ (V4.length2 v = .nan ↔ HasNaN v) := by
  have key : ¬ HasNaN v → lit 0 ≤ V4.dot v v := by
    intro h
    have hn : ∀ i, coord v i ≠ .nan := fun i hi => h ⟨i, hi⟩
    exact nn_add (nn_add (nn_add (sq_nn (hn 0)) (sq_nn (hn 1))) (sq_nn (hn 2))) (sq_nn (hn 3))
  refine ⟨⟨fun h => ?_, fun h => (C99_vec4_length v h).1⟩, ⟨fun h => ?_, fun h => (C99_vec4_length v h).2.1⟩⟩
  · by_contra hc
    exact sqrt_ne_nan (key hc) h
  · by_contra hc
    exact (key hc).2.1 h

/-! ### The hypotheses can be met -/

example : HasNaN (⟨lit 1, .nan, lit 2⟩ : V3 F32) ∧ ¬ AllNaN (⟨lit 1, .nan, lit 2⟩ : V3 F32) :=
  ⟨⟨1, rfl⟩, fun h => absurd (h 0) (by decide +kernel)⟩
/-- squared length underflows -/
example : (V2.dot (⟨lit (1 / 10 ^ 30), lit 0⟩ : V2 F32) ⟨lit (1 / 10 ^ 30), lit 0⟩ == lit 0) = true := by decide +kernel
/-- squared length overflows -/
example : V2.dot (⟨lit (10 ^ 30), lit 0⟩ : V2 F32) ⟨lit (10 ^ 30), lit 0⟩ = .inf false := by decide +kernel
/-- determinant zero -/
example : (M2.determinant (⟨⟨lit 1, lit 2⟩, ⟨lit 3, lit 6⟩⟩ : M2 F32)).val = 0 ∧
    (M2.determinant (⟨⟨lit 1, lit 2⟩, ⟨lit 3, lit 6⟩⟩ : M2 F32)).IsFin = true := by decide +kernel
example : IntMat (toMat (⟨⟨lit 1, lit 2, lit 3, lit 4⟩, ⟨lit 5, lit 6, lit 7, lit 8⟩, ⟨lit 9, lit 10, lit 11, lit 12⟩,
      ⟨lit 13, lit 14, lit 15, lit 16⟩⟩ : M4 F32)) !![1, 5, 9, 13; 2, 6, 10, 14; 3, 7, 11, 15; 4, 8, 12, 16] 28 ∧
    (!![1, 5, 9, 13; 2, 6, 10, 14; 3, 7, 11, 15; 4, 8, 12, 16] : Matrix (Fin 4) (Fin 4) ℤ).det = 0 := by
  refine ⟨?_, by decide +kernel⟩
  intro r c
  fin_cases r <;> fin_cases c <;> exact ⟨⟨by decide +kernel, by decide +kernel⟩, by decide⟩


end Zcm
