import Verif.Spec.Coord
import Verif.Lemmas.Ops
import Mathlib.Analysis.Complex.ExponentialBounds

/-!
# C66: exponential functions

Exact arithmetic for the inverse relations; the vector and quaternion overloads are componentwise in any
arithmetic.
-/

namespace Zcm

/-- C66: `log` undoes `exp`, and `exp` undoes `log` on positive numbers. -/
theorem C66_exp_log (x : ℝ) : F.log (F.exp x) = x ∧ (0 < x → F.exp (F.log x) = x) :=
  ⟨Real.log_exp x, Real.exp_log⟩

example : F.exp (F.log (2 : ℝ)) = 2 := (C66_exp_log 2).2 two_pos

/-- C66: `log2 x` is the exponent to which 2 must be raised to give `x`. -/
theorem C66_log2 (x : ℝ) (h : 0 < x) : F.pow 2 (F.log2 x) = x :=
  Real.rpow_logb two_pos (by norm_num) h

example : F.log2 (8 : ℝ) = 3 := by
  have h : (8 : ℝ) = 2 ^ (3 : ℝ) := by norm_num
  show Real.logb 2 8 = 3
  rw [h, Real.logb_rpow two_pos (by norm_num)]

/-- C66: the square root is the non-negative number whose square is the argument. -/
theorem C66_sqrt (x : ℝ) (h : 0 ≤ x) : 0 ≤ F.sqrt x ∧ F.sqrt x * F.sqrt x = x :=
  ⟨Real.sqrt_nonneg x, Real.mul_self_sqrt h⟩

example : F.sqrt (9 : ℝ) = 3 := by
  show Real.sqrt 9 = 3
  rw [show (9 : ℝ) = 3 ^ 2 by norm_num, Real.sqrt_sq (by norm_num)]

/-- C66: the cube root is the number whose cube is the argument, for every argument. -/
theorem C66_cbrt (x : ℝ) : F.cbrt x * F.cbrt x * F.cbrt x = x := by
  have key : ∀ y : ℝ, 0 ≤ y → (y ^ ((1 : ℝ) / 3)) ^ 3 = y := fun y hy => by
    rw [← Real.rpow_natCast, ← Real.rpow_mul hy]
    norm_num
  show realCbrt x * realCbrt x * realCbrt x = x
  unfold realCbrt
  split_ifs with h
  · linear_combination key x h
  · linear_combination (-1) * key (-x) (by linarith)

/-- C66: `inversesqrt` is the reciprocal of the square root. -/
theorem C66_inversesqrt (x : ℝ) (h : 0 < x) : F.inversesqrt x * F.sqrt x = 1 := by
  rw [F.inversesqrt_real, F.sqrt_real]
  exact one_div_mul_cancel (Real.sqrt_pos.2 h).ne'

example : F.inversesqrt (4 : ℝ) * F.sqrt 4 = 1 := C66_inversesqrt 4 (by norm_num)

/-- C66: laws of exponents for a positive base. -/
theorem C66_pow (x a b : ℝ) (h : 0 < x) :
    F.pow x (a + b) = F.pow x a * F.pow x b ∧ F.pow x 0 = 1 ∧ F.pow x 1 = x ∧
    F.pow x (a * b) = F.pow (F.pow x a) b ∧ F.pow x a = F.exp (a * F.log x) := by
  refine ⟨Real.rpow_add h a b, Real.rpow_zero x, Real.rpow_one x, Real.rpow_mul h.le a b, ?_⟩
  show x ^ a = Real.exp (a * Real.log x)
  rw [Real.rpow_def_of_pos h, mul_comm]

/-- C66: `exp` of a sum, `log` of a product. -/
theorem C66_sum (x y : ℝ) : F.exp (x + y) = F.exp x * F.exp y ∧
    (0 < x → 0 < y → F.log (x * y) = F.log x + F.log y) :=
  ⟨Real.exp_add x y, fun hx hy => Real.log_mul hx.ne' hy.ne'⟩

/-- C66, defect: `exp2` raises e, not 2, to its argument. -/
theorem C66_exp2_false (x : ℝ) (h : x ≠ 0) :
    F.exp2 x ≠ F.pow 2 x ∧ F.log2 (F.exp2 x) ≠ x ∧ F.exp2 x = F.exp x := by
  have hl : Real.log 2 < 1 := by
    have := Real.log_two_lt_d9
    linarith
  have hp : 0 < Real.log 2 := Real.log_pos (by norm_num)
  have h2 : F.exp2 x = Real.exp x := rfl
  refine ⟨?_, ?_, rfl⟩
  · intro e
    have e' : Real.exp x = 2 ^ x := e
    have := congrArg Real.log e'
    rw [Real.log_exp, Real.log_rpow two_pos] at this
    have h0 : x * (1 - Real.log 2) = 0 := by linarith
    rcases mul_eq_zero.1 h0 with h0 | h0
    · exact h h0
    · linarith
  · intro e
    have e' : Real.log (Real.exp x) / Real.log 2 = x := e
    rw [Real.log_exp, div_eq_iff hp.ne'] at e'
    have h0 : x * (1 - Real.log 2) = 0 := by linarith
    rcases mul_eq_zero.1 h0 with h0 | h0
    · exact h h0
    · linarith

/-- C66, what is left of the claim about `exp2`: it is right at 0, and its inverse is `log`. -/
theorem C66_exp2_partial (x : ℝ) : F.exp2 (0 : ℝ) = F.pow 2 0 ∧ F.log (F.exp2 x) = x := by
  refine ⟨?_, Real.log_exp x⟩
  show Real.exp 0 = (2 : ℝ) ^ (0 : ℝ)
  simp

variable {α : Type} [Add α] [Sub α] [Mul α] [Div α] [Neg α] [FloatOps α] [Libm α]
  [LT α] [DecidableLT α] [LE α] [DecidableLE α] [BEq α]

/-- C66: on `vec2` each function acts on every component separately. -/
theorem C66_vec2 (v : V2 α) (i : Fin 2) :
    coord (V2.sqrt v) i = F.sqrt (coord v i) ∧
    coord (V2.log v) i = F.log (coord v i) ∧
    coord (V2.log2 v) i = F.log2 (coord v i) ∧
    coord (V2.inversesqrt v) i = F.inversesqrt (coord v i) ∧
    coord (V2.exp v) i = F.exp (coord v i) ∧
    coord (V2.exp2 v) i = F.exp2 (coord v i) ∧
    coord (V2.cbrt v) i = F.cbrt (coord v i) := by
  fin_cases i <;> exact ⟨rfl, rfl, rfl, rfl, rfl, rfl, rfl⟩

/-- C66: on `vec3` each function acts on every component separately. -/
theorem C66_vec3 (v : V3 α) (i : Fin 3) :
    coord (V3.sqrt v) i = F.sqrt (coord v i) ∧
    coord (V3.log v) i = F.log (coord v i) ∧
    coord (V3.log2 v) i = F.log2 (coord v i) ∧
    coord (V3.inversesqrt v) i = F.inversesqrt (coord v i) ∧
    coord (V3.exp v) i = F.exp (coord v i) ∧
    coord (V3.exp2 v) i = F.exp2 (coord v i) ∧
    coord (V3.cbrt v) i = F.cbrt (coord v i) := by
  fin_cases i <;> exact ⟨rfl, rfl, rfl, rfl, rfl, rfl, rfl⟩

/-- C66: on `vec4` each function acts on every component separately. -/
theorem C66_vec4 (v : V4 α) (i : Fin 4) :
    coord (V4.sqrt v) i = F.sqrt (coord v i) ∧
    coord (V4.log v) i = F.log (coord v i) ∧
    coord (V4.log2 v) i = F.log2 (coord v i) ∧
    coord (V4.inversesqrt v) i = F.inversesqrt (coord v i) ∧
    coord (V4.exp v) i = F.exp (coord v i) ∧
    coord (V4.exp2 v) i = F.exp2 (coord v i) ∧
    coord (V4.cbrt v) i = F.cbrt (coord v i) := by
  fin_cases i <;> exact ⟨rfl, rfl, rfl, rfl, rfl, rfl, rfl⟩

/-- C66: on `quat` each function acts on every component separately. -/
theorem C66_quat (v : Quat α) (i : Fin 4) :
    coord (Quat.sqrt v) i = F.sqrt (coord v i) ∧
    coord (Quat.log v) i = F.log (coord v i) ∧
    coord (Quat.log2 v) i = F.log2 (coord v i) ∧
    coord (Quat.inversesqrt v) i = F.inversesqrt (coord v i) ∧
    coord (Quat.exp v) i = F.exp (coord v i) ∧
    coord (Quat.exp2 v) i = F.exp2 (coord v i) ∧
    coord (Quat.cbrt v) i = F.cbrt (coord v i) := by
  fin_cases i <;> exact ⟨rfl, rfl, rfl, rfl, rfl, rfl, rfl⟩

/-- C66: `pow` on `vec2` acts on every component separately. -/
theorem C66_vec2_pow (x y : V2 α) (i : Fin 2) :
    coord (V2.pow x y) i = F.pow (coord x i) (coord y i) := by
  fin_cases i <;> rfl

/-- C66: `pow` on `vec3` acts on every component separately. -/
theorem C66_vec3_pow (x y : V3 α) (i : Fin 3) :
    coord (V3.pow x y) i = F.pow (coord x i) (coord y i) := by
  fin_cases i <;> rfl

/-- C66: `pow` on `vec4` acts on every component separately. -/
theorem C66_vec4_pow (x y : V4 α) (i : Fin 4) :
    coord (V4.pow x y) i = F.pow (coord x i) (coord y i) := by
  fin_cases i <;> rfl

/-- C66: `pow` of a quaternion raises every component to the same power. -/
theorem C66_quat_pow (x : Quat α) (y : α) (i : Fin 4) :
    coord (Quat.pow x y) i = F.pow (coord x i) y := by
  fin_cases i <;> rfl

end Zcm
