import Verif.Lemmas.F32
import Verif.Lemmas.Int
import Verif.Model.Common

/-!
# C19: abs, sign and signNotZero
-/

set_option linter.unusedSimpArgs false
set_option exponentiation.threshold 300

namespace Zcm

open F32

/-- C19, `float`: `abs`. -/
theorem C19_float_abs (x : F32) :
    (x ≠ .nan → (lit 0 : F32) ≤ F.abs x) ∧ (F.abs x = x ∨ F.abs x = -x) ∧
    ((F.abs x = .nan ↔ x = .nan)) ∧ (x.IsFin = true → (F.abs x).val = |x.val|) := by
  cases x with
  | nan => simp [F.abs, FloatOps.fabs, fabs, IsFin]
  | inf s => cases s <;> simp [F.abs, FloatOps.fabs, fabs, IsFin, le_iff, key_inf_false, key_inf_true, key_fin_false, key_fin_true, neg_inf]
  | fin s k h =>
    have hp : (0 : ℚ) < 2 ^ 149 := by positivity
    cases s <;> simp [F.abs, FloatOps.fabs, fabs, IsFin, le_iff, key_inf_false, key_inf_true, key_fin_false, key_fin_true, neg_fin, val, abs_div]

/-- C19, `float`: `sign` is -1, 0 or 1 according to the sign, and `sign(x)*abs(x) == x`. -/
theorem C19_float_sign (x : F32) (hx : x ≠ .nan) :
    F.sign x = (if x < lit 0 then -(lit 1) else if x > lit 0 then lit 1 else lit 0) ∧
    (F.sign x * F.abs x == x) = true := by
  have e : F.sign x = (if x < lit 0 then -(lit 1) else if x > lit 0 then lit 1 else lit 0) := by
    unfold F.sign
    simp only [beq_iff, lt_iff, gt_iff_lt, hx, ne_eq, not_false_eq_true, true_and, lit_zero_ne_nan,
      key_lit_zero]
    split_ifs <;> first | rfl | omega
  refine ⟨e, ?_⟩
  rw [e]
  cases x with
  | nan => exact absurd rfl hx
  | inf s =>
    cases s
    · simp [lt_iff, key_inf_false, key_inf_true, key_fin_false, key_fin_true, F.abs, FloatOps.fabs, fabs, beq_iff]
    · simp [lt_iff, key_inf_false, key_inf_true, key_fin_false, key_fin_true, F.abs, FloatOps.fabs, fabs, beq_iff, neg_mul']
  | fin s k h =>
    have ha : F.abs (fin s k h) = fin false k h := rfl
    rw [ha]
    rcases Nat.eq_zero_or_pos k with rfl | hk
    · have h0 : (fin s 0 h).key = 0 := by cases s <;> rfl
      simp only [lt_iff, key_lit_zero, h0, lt_irrefl, gt_iff_lt, and_false, if_false, beq_iff]
      refine ⟨?_, by simp, ?_⟩
      · rw [mul_fin isFin_lit_zero rfl]; simp
      · rw [mul_fin isFin_lit_zero rfl, key_round, val_lit_zero, zero_mul, uround_zero]; rfl
    · cases s
      · have h1 : ¬ (fin false k h) < lit 0 := by simp [lt_iff, key_inf_false, key_inf_true, key_fin_false, key_fin_true]
        have h2 : (fin false k h) > lit 0 := by simp [lt_iff, key_inf_false, key_inf_true, key_fin_false, key_fin_true]; omega
        simp [h1, h2, beq_iff]
      · have h1 : (fin true k h) < lit 0 := by simp [lt_iff, key_inf_false, key_inf_true, key_fin_false, key_fin_true]; omega
        simp [h1, beq_iff, neg_mul', key_inf_false, key_inf_true, key_fin_false, key_fin_true]

/-- C19, `float`: `sign(NaN)` is -1 (not 0 and not NaN). -/
theorem C19_float_sign_nan : F.sign (.nan : F32) = -(lit 1) ∧ F.signNotZero (.nan : F32) = -(lit 1) := by
  simp [F.sign, F.signNotZero]

/-- C19, `float`: `signNotZero` is +1 at both zeros, and `signNotZero(x)*abs(x) == x`. -/
theorem C19_float_signNotZero (x : F32) (hx : x ≠ .nan) :
    F.signNotZero x = (if x < lit 0 then -(lit 1) else lit 1) ∧
    (F.signNotZero x * F.abs x == x) = true := by
  have e : F.signNotZero x = (if x < lit 0 then -(lit 1) else lit 1) := by
    unfold F.signNotZero
    simp only [le_iff, lt_iff, ge_iff_le, hx, ne_eq, not_false_eq_true, true_and, lit_zero_ne_nan,
      key_lit_zero]
    split_ifs <;> first | rfl | omega
  refine ⟨e, ?_⟩
  rw [e]
  cases x with
  | nan => exact absurd rfl hx
  | inf s =>
    cases s
    · simp [lt_iff, key_inf_false, key_inf_true, key_fin_false, key_fin_true, F.abs, FloatOps.fabs, fabs, beq_iff]
    · simp [lt_iff, key_inf_false, key_inf_true, key_fin_false, key_fin_true, F.abs, FloatOps.fabs, fabs, beq_iff, neg_mul']
  | fin s k h =>
    have ha : F.abs (fin s k h) = fin false k h := rfl
    rw [ha]
    split_ifs with h1
    · cases s
      · simp [lt_iff, key_inf_false, key_inf_true, key_fin_false, key_fin_true] at h1; omega
      · simp [beq_iff, neg_mul', key_inf_false, key_inf_true, key_fin_false, key_fin_true]
    · cases s
      · simp [beq_iff]
      · simp [lt_iff, key_inf_false, key_inf_true, key_fin_false, key_fin_true] at h1
        simp [beq_iff, key_inf_false, key_inf_true, key_fin_false, key_fin_true, h1]

/-- C19, `int`: `abs` is the absolute value, undefined exactly for the most negative `int`. -/
theorem C19_int_abs (x : I32) : IsInt (I.abs x) (intAbs x.toInt) := by
  unfold I.abs intAbs
  have hr := x.toInt_range
  split_ifs with h
  · have := isInt_neg x
    unfold intNeg at this
    rwa [abs_of_neg h]
  · rw [abs_of_nonneg (not_lt.1 h)]
    unfold Zcm.fits
    rw [if_pos x.fits]
    exact ⟨x, rfl, rfl⟩

/-- C19, `int`: `sign` and `signNotZero`. -/
theorem C19_int_sign (x : I32) :
    (I.sign x).toInt = Int.sign x.toInt ∧
    (I.signNotZero x).toInt = (if 0 ≤ x.toInt then 1 else -1) ∧
    (I.sign x).toInt * |x.toInt| = x.toInt ∧ (I.signNotZero x).toInt * |x.toInt| = x.toInt := by
  have h0 : (I32.lit 0).toInt = 0 := rfl
  have h1 : (I32.lit 1).toInt = 1 := rfl
  have h2 : (I32.lit (-1)).toInt = -1 := rfl
  have hlt : ∀ a b : I32, a < b ↔ a.toInt < b.toInt := fun _ _ => Iff.rfl
  have hle : ∀ a b : I32, a ≤ b ↔ a.toInt ≤ b.toInt := fun _ _ => Iff.rfl
  have heq : (x == I32.lit 0) = true ↔ x.toInt = 0 := by
    rw [beq_iff_eq, ← I32.toInt_inj, h0]
  have e1 : (I.sign x).toInt = Int.sign x.toInt := by
    unfold I.sign
    simp only [heq, gt_iff_lt, hlt, h0]
    split_ifs with h3 h4
    · rw [h3]; rfl
    · rw [Int.sign_eq_one_of_pos h4]; rfl
    · rw [Int.sign_eq_neg_one_of_neg (by omega)]; rfl
  have e2 : (I.signNotZero x).toInt = (if 0 ≤ x.toInt then 1 else -1) := by
    unfold I.signNotZero
    simp only [ge_iff_le, hle, h0]
    split_ifs <;> rfl
  refine ⟨e1, e2, ?_, ?_⟩
  · rw [e1]; exact Int.sign_mul_abs _
  · rw [e2]; split_ifs with h
    · rw [abs_of_nonneg h, one_mul]
    · rw [abs_of_neg (not_le.1 h)]; omega

/-- Non-vacuity: -0 and an ordinary value. -/
example : F.sign (-(lit 0) : F32) = lit 0 ∧ F.signNotZero (-(lit 0) : F32) = lit 1 ∧
    F.sign (lit (-2.5) : F32) = -(lit 1) ∧ F.abs (lit (-2.5) : F32) = lit 2.5 ∧
    I.abs (I32.lit (-2147483648)) = .ub := by
  decide +kernel

end Zcm
