import Verif.Lemmas.F32

/-!
# Rounding error of one binary32 operation
-/

set_option exponentiation.threshold 300

namespace Zcm.F32

variable {K : Type*} [Field K] [LinearOrder K] [IsStrictOrderedRing K] [FloorRing K]

/-- Rounding error in units: relative `2⁻²⁴` for normal numbers. -/
theorem roundUnits_error_rel {q : K} (h : 2 ^ 23 ≤ q) : |q - roundUnits q| ≤ q / 2 ^ 24 := by
  have h0 : 0 ≤ q := le_trans (by positivity) h
  have h1 := roundUnits_error h0
  rcases Nat.eq_zero_or_pos (ulpExp ⌊q⌋.toNat) with he | he
  · rw [he] at h1
    refine h1.trans ?_
    rw [div_le_div_iff₀ (by positivity) (by positivity)]
    norm_num at h ⊢
    linarith
  · have h2 := pow_le_of_floor h0 he.ne'
    refine h1.trans ?_
    rw [div_le_div_iff₀ (by positivity) (by positivity)]
    rw [pow_add] at h2
    norm_num at h2 ⊢
    linarith

/-- Rounding error in units: at most half a unit more than that for subnormals. -/
theorem roundUnits_error_abs {q : K} (h0 : 0 ≤ q) : |q - roundUnits q| ≤ q / 2 ^ 24 + 1 / 2 := by
  have h1 := roundUnits_error h0
  rcases Nat.eq_zero_or_pos (ulpExp ⌊q⌋.toNat) with he | he
  · rw [he, pow_zero] at h1
    have : 0 ≤ q / 2 ^ 24 := by positivity
    linarith
  · have h2 := pow_le_of_floor h0 he.ne'
    have h3 : (2 : K) ^ ulpExp ⌊q⌋.toNat / 2 ≤ q / 2 ^ 24 := by
      rw [div_le_div_iff₀ (by positivity) (by positivity)]
      rw [pow_add] at h2
      norm_num at h2 ⊢
      linarith
    linarith

theorem uround_abs (x : ℚ) : |(uround x : ℚ) - x * 2 ^ 149| =
    |(|x| * 2 ^ 149) - roundUnits (|x| * 2 ^ 149)| := by
  unfold uround
  split_ifs with h
  · rw [abs_of_neg h, abs_sub_comm]
    rw [← abs_neg]
    congr 1
    push_cast
    ring
  · rw [abs_of_nonneg (not_lt.1 h), abs_sub_comm]
    push_cast
    rfl

theorem uround_of_fin {s : Bool} {x : ℚ} (h : (round s x).IsFin = true) :
    (round s x).key = uround x := by
  have h1 := key_bound_fin h
  rw [key_round] at h1 ⊢
  unfold cut at h1 ⊢
  omega

theorem val_round_sub {s : Bool} {x : ℚ} (h : (round s x).IsFin = true) :
    |(round s x).val - x| = |(uround x : ℚ) - x * 2 ^ 149| / 2 ^ 149 := by
  unfold val
  rw [uround_of_fin h, ← abs_of_pos (show (0 : ℚ) < 2 ^ 149 by positivity), ← abs_div,
    abs_of_pos (show (0 : ℚ) < 2 ^ 149 by positivity)]
  congr 1
  field_simp

/-- A finite rounded result is within relative `2⁻²⁴` of the exact one, plus `2⁻¹⁵⁰` when the
result is subnormal. -/
theorem round_error {s : Bool} {x : ℚ} (h : (round s x).IsFin = true) :
    |(round s x).val - x| ≤ |x| / 2 ^ 24 + 1 / 2 ^ 150 := by
  rw [val_round_sub h, uround_abs, div_le_iff₀ (by positivity)]
  refine (roundUnits_error_abs (units_nonneg x)).trans (le_of_eq ?_)
  norm_num
  ring

/-- In the normal range: relative `2⁻²⁴`. -/
theorem round_error_rel {s : Bool} {x : ℚ} (h : (round s x).IsFin = true) (hx : 1 / 2 ^ 126 ≤ |x|) :
    |(round s x).val - x| ≤ |x| / 2 ^ 24 := by
  rw [val_round_sub h, uround_abs, div_le_iff₀ (by positivity)]
  have h23 : (2 : ℚ) ^ 23 ≤ |x| * 2 ^ 149 := by
    rw [div_le_iff₀ (by positivity)] at hx
    norm_num at hx ⊢
    linarith
  refine (roundUnits_error_rel h23).trans (le_of_eq ?_)
  ring

/-- The largest finite binary32 number is `(2²⁴ - 1) · 2¹⁰⁴`; what is no larger does not overflow. -/
theorem isFin_round {s : Bool} {x : ℚ} (h : |x| ≤ (2 ^ 24 - 1) * 2 ^ 104) : (round s x).IsFin = true := by
  have hr : Rep ((2 ^ 24 - 1) * 2 ^ 253) := by decide +kernel
  have hv : (F32.fin false _ hr).val = (2 ^ 24 - 1) * 2 ^ 104 := by
    simp only [val, key_fin_false]
    norm_num
  rw [abs_le] at h
  refine isFin_round_of_between (a := -F32.fin false _ hr) (b := F32.fin false _ hr)
    (by simp) (by simp) ?_ ?_ s
  · rw [val_neg, hv]; exact h.1
  · rw [hv]; exact h.2

theorem add_error {a b : F32} (ha : a.IsFin = true) (hb : b.IsFin = true) (h : (a + b).IsFin = true) :
    |(a + b).val - (a.val + b.val)| ≤ |a.val + b.val| / 2 ^ 24 + 1 / 2 ^ 150 := by
  rw [add_fin ha hb] at h ⊢; exact round_error h

theorem sub_error {a b : F32} (ha : a.IsFin = true) (hb : b.IsFin = true) (h : (a - b).IsFin = true) :
    |(a - b).val - (a.val - b.val)| ≤ |a.val - b.val| / 2 ^ 24 + 1 / 2 ^ 150 := by
  rw [sub_fin ha hb] at h ⊢; exact round_error h

theorem mul_error {a b : F32} (ha : a.IsFin = true) (hb : b.IsFin = true) (h : (a * b).IsFin = true) :
    |(a * b).val - a.val * b.val| ≤ |a.val * b.val| / 2 ^ 24 + 1 / 2 ^ 150 := by
  rw [mul_fin ha hb] at h ⊢; exact round_error h

theorem mul_error_rel {a b : F32} (ha : a.IsFin = true) (hb : b.IsFin = true)
    (h : (a * b).IsFin = true) (hn : 1 / 2 ^ 126 ≤ |a.val * b.val|) :
    |(a * b).val - a.val * b.val| ≤ |a.val * b.val| / 2 ^ 24 := by
  rw [mul_fin ha hb] at h ⊢; exact round_error_rel h hn

end Zcm.F32
