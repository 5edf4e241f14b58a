import Verif.Spec.Coord
import Verif.Lemmas.Ops

/-!
# C68: trigonometric and hyperbolic functions

Exact arithmetic for the relations; the vector overloads are componentwise in any arithmetic.
-/

namespace Zcm

open Real

/-- C68: `asin` and `acos` give the angle in the documented range with the given sine and cosine. -/
theorem C68_asin_acos (x : ℝ) (h0 : -1 ≤ x) (h1 : x ≤ 1) :
    F.sin (F.asin x) = x ∧ -(π / 2) ≤ F.asin x ∧ F.asin x ≤ π / 2 ∧
    F.cos (F.acos x) = x ∧ 0 ≤ F.acos x ∧ F.acos x ≤ π :=
  ⟨sin_arcsin h0 h1, neg_pi_div_two_le_arcsin x, arcsin_le_pi_div_two x, cos_arccos h0 h1,
    arccos_nonneg x, arccos_le_pi x⟩

/-- C68: on the range of `asin` and `acos` they undo `sin` and `cos`. -/
theorem C68_angle (x : ℝ) :
    (-(π / 2) ≤ x → x ≤ π / 2 → F.asin (F.sin x) = x) ∧
    (0 ≤ x → x ≤ π → F.acos (F.cos x) = x) ∧
    (-(π / 2) < x → x < π / 2 → F.atan (F.tan x) = x) :=
  ⟨fun h0 h1 => arcsin_sin h0 h1, fun h0 h1 => arccos_cos h0 h1, fun h0 h1 => arctan_tan h0 h1⟩

/-- C68: `atan` gives the angle strictly between -π/2 and π/2 with the given tangent. -/
theorem C68_atan (x : ℝ) : F.tan (F.atan x) = x ∧ -(π / 2) < F.atan x ∧ F.atan x < π / 2 :=
  ⟨tan_arctan x, neg_pi_div_two_lt_arctan x, arctan_lt_pi_div_two x⟩

/-- C68: `atan(y, x)` is the angle of the point (x, y): the point is its distance from the origin
times (cos, sin) of that angle, and the angle is in (-π, π]. -/
theorem C68_atan2 (y x : ℝ) :
    x = F.sqrt (x * x + y * y) * F.cos (F.atan2 y x) ∧
    y = F.sqrt (x * x + y * y) * F.sin (F.atan2 y x) ∧
    -π < F.atan2 y x ∧ F.atan2 y x ≤ π := by
  have hn : Real.sqrt (x * x + y * y) = ‖(⟨x, y⟩ : ℂ)‖ := by
    rw [Complex.norm_def, Complex.normSq_mk]
  refine ⟨?_, ?_, Complex.neg_pi_lt_arg _, Complex.arg_le_pi _⟩
  · show x = Real.sqrt (x * x + y * y) * Real.cos (Complex.arg ⟨x, y⟩)
    rw [hn, Complex.norm_mul_cos_arg]
  · show y = Real.sqrt (x * x + y * y) * Real.sin (Complex.arg ⟨x, y⟩)
    rw [hn, Complex.norm_mul_sin_arg]

/-- the argument order: the first argument is the ordinate -/
example : F.atan2 (1 : ℝ) 0 = π / 2 := by
  show Complex.arg ⟨0, 1⟩ = π / 2
  exact Complex.arg_I

/-- C68: the Pythagorean identities and the quotient. -/
theorem C68_pythagoras (x : ℝ) :
    F.cos x * F.cos x + F.sin x * F.sin x = 1 ∧ F.cosh x * F.cosh x - F.sinh x * F.sinh x = 1 ∧
    F.tan x = F.sin x / F.cos x ∧ F.tanh x = F.sinh x / F.cosh x := by
  refine ⟨?_, ?_, tan_eq_sin_div_cos x, tanh_eq_sinh_div_cosh x⟩
  · show Real.cos x * Real.cos x + Real.sin x * Real.sin x = 1
    linear_combination Real.cos_sq_add_sin_sq x
  · show Real.cosh x * Real.cosh x - Real.sinh x * Real.sinh x = 1
    linear_combination Real.cosh_sq_sub_sinh_sq x

/-- C68: addition formulas, which with the values at 0 and π/2 fix sine and cosine. -/
theorem C68_addition (x y : ℝ) :
    F.sin (x + y) = F.sin x * F.cos y + F.cos x * F.sin y ∧
    F.cos (x + y) = F.cos x * F.cos y - F.sin x * F.sin y ∧
    F.sin (0 : ℝ) = 0 ∧ F.cos (0 : ℝ) = 1 ∧ F.sin (π / 2) = 1 ∧ F.cos (π / 2) = 0 :=
  ⟨Real.sin_add x y, Real.cos_add x y, Real.sin_zero, Real.cos_zero, Real.sin_pi_div_two,
    Real.cos_pi_div_two⟩

/-- C68: the hyperbolic functions in terms of `exp`. -/
theorem C68_hyperbolic (x : ℝ) :
    F.sinh x = (F.exp x - F.exp (-x)) / 2 ∧ F.cosh x = (F.exp x + F.exp (-x)) / 2 :=
  ⟨Real.sinh_eq x, Real.cosh_eq x⟩

/-- C68: the inverse hyperbolic functions, in both directions. -/
theorem C68_hyperbolic_inverse (x : ℝ) :
    F.sinh (F.asinh x) = x ∧ F.asinh (F.sinh x) = x ∧
    (1 ≤ x → F.cosh (F.acosh x) = x ∧ 0 ≤ F.acosh x) ∧ (0 ≤ x → F.acosh (F.cosh x) = x) ∧
    (-1 < x → x < 1 → F.tanh (F.atanh x) = x) ∧ F.atanh (F.tanh x) = x :=
  ⟨Real.sinh_arsinh x, Real.arsinh_sinh x, fun h => ⟨Real.cosh_arcosh h, Real.arcosh_nonneg h⟩,
    fun h => Real.arcosh_cosh h, fun h0 h1 => Real.tanh_artanh ⟨h0, h1⟩, Real.artanh_tanh x⟩

example : F.cosh (F.acosh (2 : ℝ)) = 2 := ((C68_hyperbolic_inverse 2).2.2.1 (by norm_num)).1

variable {α : Type} [Add α] [Sub α] [Mul α] [Div α] [Neg α] [FloatOps α] [Libm α]
  [LT α] [DecidableLT α] [LE α] [DecidableLE α] [BEq α]

/-- C68: on `vec2` each function acts on every component separately. -/
theorem C68_vec2 (v : V2 α) (i : Fin 2) :
    coord (V2.cos v) i = F.cos (coord v i) ∧
    coord (V2.sin v) i = F.sin (coord v i) ∧
    coord (V2.acos v) i = F.acos (coord v i) ∧
    coord (V2.acosh v) i = F.acosh (coord v i) ∧
    coord (V2.asin v) i = F.asin (coord v i) ∧
    coord (V2.asinh v) i = F.asinh (coord v i) ∧
    coord (V2.atan v) i = F.atan (coord v i) ∧
    coord (V2.atanh v) i = F.atanh (coord v i) ∧
    coord (V2.cosh v) i = F.cosh (coord v i) ∧
    coord (V2.sinh v) i = F.sinh (coord v i) ∧
    coord (V2.tan v) i = F.tan (coord v i) ∧
    coord (V2.tanh v) i = F.tanh (coord v i) ∧
    coord (V2.degrees v) i = F.degrees (coord v i) ∧
    coord (V2.radians v) i = F.radians (coord v i) := by
  fin_cases i <;> exact ⟨rfl, rfl, rfl, rfl, rfl, rfl, rfl, rfl, rfl, rfl, rfl, rfl, rfl, rfl⟩

/-- C68: `atan(y, x)` on `vec2` acts on every pair of components separately. -/
theorem C68_vec2_atan2 (y x : V2 α) (i : Fin 2) :
    coord (V2.atan2 y x) i = F.atan2 (coord y i) (coord x i) := by
  fin_cases i <;> rfl

/-- C68: on `vec3` each function acts on every component separately. -/
theorem C68_vec3 (v : V3 α) (i : Fin 3) :
    coord (V3.cos v) i = F.cos (coord v i) ∧
    coord (V3.sin v) i = F.sin (coord v i) ∧
    coord (V3.acos v) i = F.acos (coord v i) ∧
    coord (V3.acosh v) i = F.acosh (coord v i) ∧
    coord (V3.asin v) i = F.asin (coord v i) ∧
    coord (V3.asinh v) i = F.asinh (coord v i) ∧
    coord (V3.atan v) i = F.atan (coord v i) ∧
    coord (V3.atanh v) i = F.atanh (coord v i) ∧
    coord (V3.cosh v) i = F.cosh (coord v i) ∧
    coord (V3.sinh v) i = F.sinh (coord v i) ∧
    coord (V3.tan v) i = F.tan (coord v i) ∧
    coord (V3.tanh v) i = F.tanh (coord v i) ∧
    coord (V3.degrees v) i = F.degrees (coord v i) ∧
    coord (V3.radians v) i = F.radians (coord v i) := by
  fin_cases i <;> exact ⟨rfl, rfl, rfl, rfl, rfl, rfl, rfl, rfl, rfl, rfl, rfl, rfl, rfl, rfl⟩

/-- C68: `atan(y, x)` on `vec3` acts on every pair of components separately. -/
theorem C68_vec3_atan2 (y x : V3 α) (i : Fin 3) :
    coord (V3.atan2 y x) i = F.atan2 (coord y i) (coord x i) := by
  fin_cases i <;> rfl

/-- C68: on `vec4` each function acts on every component separately. -/
theorem C68_vec4 (v : V4 α) (i : Fin 4) :
    coord (V4.cos v) i = F.cos (coord v i) ∧
    coord (V4.sin v) i = F.sin (coord v i) ∧
    coord (V4.acos v) i = F.acos (coord v i) ∧
    coord (V4.acosh v) i = F.acosh (coord v i) ∧
    coord (V4.asin v) i = F.asin (coord v i) ∧
    coord (V4.asinh v) i = F.asinh (coord v i) ∧
    coord (V4.atan v) i = F.atan (coord v i) ∧
    coord (V4.atanh v) i = F.atanh (coord v i) ∧
    coord (V4.cosh v) i = F.cosh (coord v i) ∧
    coord (V4.sinh v) i = F.sinh (coord v i) ∧
    coord (V4.tan v) i = F.tan (coord v i) ∧
    coord (V4.tanh v) i = F.tanh (coord v i) ∧
    coord (V4.degrees v) i = F.degrees (coord v i) ∧
    coord (V4.radians v) i = F.radians (coord v i) := by
  fin_cases i <;> exact ⟨rfl, rfl, rfl, rfl, rfl, rfl, rfl, rfl, rfl, rfl, rfl, rfl, rfl, rfl⟩

/-- C68: `atan(y, x)` on `vec4` acts on every pair of components separately. -/
theorem C68_vec4_atan2 (y x : V4 α) (i : Fin 4) :
    coord (V4.atan2 y x) i = F.atan2 (coord y i) (coord x i) := by
  fin_cases i <;> rfl

end Zcm
