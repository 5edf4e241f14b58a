import Verif.Lemmas.F32Error
import Verif.Lemmas.F32Fract
import Verif.Model.Trig
import Mathlib.Analysis.Real.Pi.Bounds

/-!
# C67: degrees and radians

`C67_exact` is the code in exact arithmetic: the factors written in the source are π/180 and 180/π to
twelve digits.  `C67_float` and `C67_roundtrip` are the code in binary32 arithmetic.
-/

set_option exponentiation.threshold 300

namespace Zcm

open Real

/-- C67: the factors, in exact arithmetic. -/
theorem C67_exact (x : ℝ) :
    |F.radians x - x * (π / 180)| ≤ |x * (π / 180)| / 10 ^ 12 ∧
    |F.degrees x - x * (180 / π)| ≤ |x * (180 / π)| / 10 ^ 12 ∧
    |F.degrees (F.radians x) - x| ≤ |x| / 10 ^ 12 := by
  have h1 := Real.pi_gt_d20
  have h2 := Real.pi_lt_d20
  have hp : 0 < π := Real.pi_pos
  have e1 : F.radians x = x * 0.01745329251994 := by
    simp only [F.radians, applyOp1, radiansf, lit_real]; norm_num
  have e2 : ∀ y : ℝ, F.degrees y = y * 57.2957795130823 := fun y => by
    simp only [F.degrees, applyOp1, degreesf, lit_real]; norm_num
  have cast : ∀ a b : ℝ, 0 < b → |a - b| ≤ b / 10 ^ 12 → |x * a - x * b| ≤ |x * b| / 10 ^ 12 := by
    intro a b hb h
    rw [← mul_sub, abs_mul, abs_mul, abs_of_pos hb, mul_div_assoc]
    exact mul_le_mul_of_nonneg_left h (abs_nonneg x)
  refine ⟨?_, ?_, ?_⟩
  · rw [e1]
    apply cast _ _ (by positivity)
    rw [abs_le]
    constructor <;> norm_num at * <;> linarith
  · rw [e2]
    apply cast _ _ (by positivity)
    rw [abs_le]
    have h3 : 180 / π ≤ 57.29577951308233 := by
      rw [div_le_iff₀ hp]; norm_num at *; linarith
    have h4 : 57.29577951308232 ≤ 180 / π := by
      rw [le_div_iff₀ hp]; norm_num at *; linarith
    constructor <;> norm_num at * <;> linarith
  · rw [e2, e1]
    have := cast (0.01745329251994 * 57.2957795130823) 1 one_pos (by norm_num [abs_le])
    rwa [mul_one, ← mul_assoc] at this

/-- value of the factor in `radians`, rounded to binary32 -/
theorem val_radians_factor : (lit 0.01745329251994 : F32).val = 9370165 / 536870912 := by
  decide +kernel

/-- value of the factor in `degrees`, rounded to binary32 -/
theorem val_degrees_factor : (lit 57.2957795130823 : F32).val = 15019745 / 262144 := by
  decide +kernel

theorem isFin_radians_factor : (lit 0.01745329251994 : F32).IsFin = true := by decide +kernel
theorem isFin_degrees_factor : (lit 57.2957795130823 : F32).IsFin = true := by decide +kernel

/-- a product with a rounded factor, against the exact product with the exact factor -/
theorem factor_error {v p c d : ℝ} (hd : 0 < d) (hp : |p - v * c| ≤ |v * c| / 2 ^ 24 + 1 / 2 ^ 150)
    (hc : |c - d| ≤ d / 2 ^ 25) : |p - v * d| ≤ |v * d| / 2 ^ 23 + 1 / 2 ^ 150 := by
  rw [abs_le] at hc
  have hc0 : 0 < c := by nlinarith [hc.1]
  rw [abs_mul, abs_of_pos hc0] at hp
  rw [abs_mul, abs_of_pos hd]
  have h1 : |v * c - v * d| ≤ |v| * (d / 2 ^ 25) := by
    rw [← mul_sub, abs_mul]
    exact mul_le_mul_of_nonneg_left (abs_le.2 hc) (abs_nonneg v)
  have h2 : |v| * c ≤ |v| * (d + d / 2 ^ 25) :=
    mul_le_mul_of_nonneg_left (by linarith [hc.2]) (abs_nonneg v)
  have h3 : |p - v * d| ≤ |p - v * c| + |v * c - v * d| := abs_sub_le _ _ _
  have h4 : 0 ≤ |v| * d := by positivity
  generalize |v| * c = A at *
  have h5 : |v| * (d / 2 ^ 25) = |v| * d / 2 ^ 25 := by ring
  have h6 : |v| * (d + d / 2 ^ 25) = |v| * d + |v| * d / 2 ^ 25 := by ring
  rw [h5] at h1
  rw [h6] at h2
  generalize |v| * d = B at *
  norm_num at *
  linarith

/-- C67: in binary32 arithmetic `radians` and `degrees` of every finite float are the exact conversions
to within two units of relative error 2⁻²⁴ (plus half the smallest subnormal); `radians` never
overflows. -/
theorem C67_float (x : F32) (hx : x.IsFin = true) :
    (F.radians x).IsFin = true ∧
    |((F.radians x).val : ℝ) - x.val * (π / 180)| ≤ |x.val * (π / 180)| / 2 ^ 23 + 1 / 2 ^ 150 ∧
    ((F.degrees x).IsFin = true →
      |((F.degrees x).val : ℝ) - x.val * (180 / π)| ≤ |x.val * (180 / π)| / 2 ^ 23 + 1 / 2 ^ 150) := by
  have h1 := Real.pi_gt_d20
  have h2 := Real.pi_lt_d20
  have hp : 0 < π := Real.pi_pos
  have hfin : (F.radians x).IsFin = true := by
    show (x * (lit 0.01745329251994 : F32)).IsFin = true
    rw [F32.mul_fin hx isFin_radians_factor, val_radians_factor]
    rcases le_total 0 x.val with h | h
    · exact F32.isFin_round_of_between F32.isFin_lit_zero hx (by rw [F32.val_lit_zero]; positivity)
        (by linarith) _
    · exact F32.isFin_round_of_between hx F32.isFin_lit_zero (by linarith)
        (by rw [F32.val_lit_zero]; linarith) _
  refine ⟨hfin, ?_, fun hd => ?_⟩
  · have e : |(F.radians x).val - x.val * (lit 0.01745329251994 : F32).val| ≤ _ :=
      F32.mul_error hx isFin_radians_factor hfin
    rw [val_radians_factor] at e
    have e' : |((F.radians x).val : ℝ) - x.val * (9370165 / 536870912)| ≤
        |(x.val : ℝ) * (9370165 / 536870912)| / 2 ^ 24 + 1 / 2 ^ 150 := by
      have e2 := (Rat.cast_le (K := ℝ)).2 e
      push_cast at e2
      exact e2
    refine factor_error (by positivity) e' ?_
    rw [abs_le]
    constructor <;> norm_num at * <;> linarith
  · have e : |(F.degrees x).val - x.val * (lit 57.2957795130823 : F32).val| ≤ _ :=
      F32.mul_error hx isFin_degrees_factor hd
    rw [val_degrees_factor] at e
    have e' : |((F.degrees x).val : ℝ) - x.val * (15019745 / 262144)| ≤
        |(x.val : ℝ) * (15019745 / 262144)| / 2 ^ 24 + 1 / 2 ^ 150 := by
      have e2 := (Rat.cast_le (K := ℝ)).2 e
      push_cast at e2
      exact e2
    refine factor_error (by positivity) e' ?_
    rw [abs_le]
    have h3 : 180 / π ≤ 57.29577951308233 := by
      rw [div_le_iff₀ hp]; norm_num at *; linarith
    have h4 : 57.29577951308232 ≤ 180 / π := by
      rw [le_div_iff₀ hp]; norm_num at *; linarith
    constructor <;> norm_num at * <;> linarith

/-- 180 degrees are π radians, to float accuracy -/
example : |((F.radians (lit 180 : F32)).val : ℝ) - π| ≤ π / 2 ^ 23 + 1 / 2 ^ 150 := by
  have h := (C67_float (lit 180) (by decide +kernel)).2.1
  have hv : (lit 180 : F32).val = 180 := by decide +kernel
  rw [hv] at h
  push_cast at h
  rwa [mul_div_cancel₀ _ (by norm_num), abs_of_pos Real.pi_pos] at h

/-- C67: in binary32 arithmetic `degrees(radians(x))` returns `x` to within three units of relative error
2⁻²⁴, for every `x` that is zero or of magnitude at least 2⁻¹²⁰, unless it overflows. -/
theorem C67_roundtrip (x : F32) (hx : x.IsFin = true) (h0 : x.val = 0 ∨ 1 / 2 ^ 120 ≤ |x.val|)
    (hf : (F.degrees (F.radians x)).IsFin = true) :
    |(F.degrees (F.radians x)).val - x.val| ≤ 3 * |x.val| / 2 ^ 24 := by
  have hfin := (C67_float x hx).1
  rcases h0 with h0 | h0
  · have hz : (F.radians x).val = 0 := by
      have : (x * (lit 0.01745329251994 : F32)).val = 0 := by
        rw [F32.mul_fin hx isFin_radians_factor, h0, zero_mul, ← F32.key_eq_zero, F32.key_round,
          F32.uround_zero]
        rfl
      exact this
    have : (F.radians x * (lit 57.2957795130823 : F32)).val = 0 := by
      rw [F32.mul_fin hfin isFin_degrees_factor, hz, zero_mul, ← F32.key_eq_zero, F32.key_round,
        F32.uround_zero]
      rfl
    have e : (F.degrees (F.radians x)).val = 0 := this
    rw [e, h0]; norm_num
  · have e1 : |(F.radians x).val - x.val * (9370165 / 536870912)| ≤
        |x.val * (9370165 / 536870912)| / 2 ^ 24 := by
      rw [← val_radians_factor]
      refine F32.mul_error_rel hx isFin_radians_factor hfin ?_
      rw [val_radians_factor, abs_mul]
      rw [div_le_iff₀ (by positivity)] at h0 ⊢
      norm_num at h0 ⊢
      linarith
    rw [abs_mul, abs_of_pos (show (0 : ℚ) < 9370165 / 536870912 by norm_num)] at e1
    have e1a := (abs_sub_abs_le_abs_sub (x.val * (9370165 / 536870912)) (F.radians x).val)
    rw [abs_sub_comm, abs_mul, abs_of_pos (show (0 : ℚ) < 9370165 / 536870912 by norm_num)] at e1a
    have e1b := (abs_sub_abs_le_abs_sub (F.radians x).val (x.val * (9370165 / 536870912)))
    rw [abs_mul, abs_of_pos (show (0 : ℚ) < 9370165 / 536870912 by norm_num)] at e1b
    have e2 : |(F.degrees (F.radians x)).val - (F.radians x).val * (15019745 / 262144)| ≤
        |(F.radians x).val * (15019745 / 262144)| / 2 ^ 24 := by
      rw [← val_degrees_factor]
      refine F32.mul_error_rel hfin isFin_degrees_factor hf ?_
      rw [val_degrees_factor, abs_mul]
      rw [div_le_iff₀ (by positivity)] at h0 ⊢
      norm_num at h0 e1 e1a ⊢
      linarith
    rw [abs_mul, abs_of_pos (show (0 : ℚ) < 15019745 / 262144 by norm_num)] at e2
    have hxa := le_abs_self x.val
    have hxb := neg_abs_le x.val
    have h0' : 0 ≤ |x.val| := abs_nonneg _
    replace e1a := e1a.trans e1
    replace e1b := e1b.trans e1
    rw [abs_le] at e1 e2 ⊢
    generalize (F.degrees (F.radians x)).val = D at *
    generalize (F.radians x).val = R at *
    generalize |x.val| = A at *
    generalize |R| = B at *
    generalize x.val = X at *
    obtain ⟨e1l, e1r⟩ := e1
    obtain ⟨e2l, e2r⟩ := e2
    constructor <;> norm_num at * <;> linarith

example : |(F.degrees (F.radians (lit 90 : F32))).val - 90| ≤ 3 * 90 / 2 ^ 24 := by
  have hv : (lit 90 : F32).val = 90 := by decide +kernel
  have h := C67_roundtrip (lit 90) (by decide +kernel) (Or.inr (by rw [hv]; norm_num))
    (by decide +kernel)
  rwa [hv, abs_of_pos (show (0 : ℚ) < 90 by norm_num)] at h

end Zcm
