import Verif.Lemmas.Euler
import Mathlib.Analysis.Real.Pi.Bounds
import Mathlib.NumberTheory.Real.GoldenRatio

/-!
# Rational bounds on the constants named in constants.hpp
-/

namespace Zcm

/-- Real.pi between two rational numbers -/
theorem bounds_pi : ((3.1415926532 : ℚ) : ℝ) < Real.pi ∧ Real.pi < ((3.1415926540 : ℚ) : ℝ) := by
  push_cast
  have p1 := Real.pi_gt_d20; have p2 := Real.pi_lt_d20
  constructor <;> norm_num at * <;> linarith

/-- 2 * Real.pi between two rational numbers -/
theorem bounds_two_pi : ((6.2831853068 : ℚ) : ℝ) < 2 * Real.pi ∧ 2 * Real.pi < ((6.2831853076 : ℚ) : ℝ) := by
  push_cast
  have p1 := Real.pi_gt_d20; have p2 := Real.pi_lt_d20
  constructor <;> norm_num at * <;> linarith

/-- √Real.pi between two rational numbers -/
theorem bounds_root_pi : ((1.7724538505 : ℚ) : ℝ) < √Real.pi ∧ √Real.pi < ((1.7724538513 : ℚ) : ℝ) := by
  push_cast
  have p1 := Real.pi_gt_d20; have p2 := Real.pi_lt_d20
  constructor
  · apply Real.lt_sqrt_of_sq_lt; norm_num at *; linarith
  · rw [Real.sqrt_lt' (by norm_num)]; norm_num at *; linarith

/-- Real.pi / 2 between two rational numbers -/
theorem bounds_half_pi : ((1.5707963264 : ℚ) : ℝ) < Real.pi / 2 ∧ Real.pi / 2 < ((1.5707963272 : ℚ) : ℝ) := by
  push_cast
  have p1 := Real.pi_gt_d20; have p2 := Real.pi_lt_d20
  constructor <;> norm_num at * <;> linarith

/-- 3 * Real.pi / 2 between two rational numbers -/
theorem bounds_three_over_two_pi : ((4.7123889800 : ℚ) : ℝ) < 3 * Real.pi / 2 ∧ 3 * Real.pi / 2 < ((4.7123889808 : ℚ) : ℝ) := by
  push_cast
  have p1 := Real.pi_gt_d20; have p2 := Real.pi_lt_d20
  constructor <;> norm_num at * <;> linarith

/-- Real.pi / 4 between two rational numbers -/
theorem bounds_quarter_pi : ((0.7853981630 : ℚ) : ℝ) < Real.pi / 4 ∧ Real.pi / 4 < ((0.7853981638 : ℚ) : ℝ) := by
  push_cast
  have p1 := Real.pi_gt_d20; have p2 := Real.pi_lt_d20
  constructor <;> norm_num at * <;> linarith

/-- 1 / Real.pi between two rational numbers -/
theorem bounds_one_over_pi : ((0.3183098858 : ℚ) : ℝ) < 1 / Real.pi ∧ 1 / Real.pi < ((0.3183098866 : ℚ) : ℝ) := by
  push_cast
  have p1 := Real.pi_gt_d20; have p2 := Real.pi_lt_d20
  constructor
  · rw [lt_div_iff₀ (by positivity)]; norm_num at *; linarith
  · rw [div_lt_iff₀ (by positivity)]; norm_num at *; linarith

/-- 1 / (2 * Real.pi) between two rational numbers -/
theorem bounds_one_over_two_pi : ((0.1591549427 : ℚ) : ℝ) < 1 / (2 * Real.pi) ∧ 1 / (2 * Real.pi) < ((0.1591549435 : ℚ) : ℝ) := by
  push_cast
  have p1 := Real.pi_gt_d20; have p2 := Real.pi_lt_d20
  constructor
  · rw [lt_div_iff₀ (by positivity)]; norm_num at *; linarith
  · rw [div_lt_iff₀ (by positivity)]; norm_num at *; linarith

/-- 2 / Real.pi between two rational numbers -/
theorem bounds_two_over_pi : ((0.6366197720 : ℚ) : ℝ) < 2 / Real.pi ∧ 2 / Real.pi < ((0.6366197728 : ℚ) : ℝ) := by
  push_cast
  have p1 := Real.pi_gt_d20; have p2 := Real.pi_lt_d20
  constructor
  · rw [lt_div_iff₀ (by positivity)]; norm_num at *; linarith
  · rw [div_lt_iff₀ (by positivity)]; norm_num at *; linarith

/-- 4 / Real.pi between two rational numbers -/
theorem bounds_four_over_pi : ((1.2732395443 : ℚ) : ℝ) < 4 / Real.pi ∧ 4 / Real.pi < ((1.2732395451 : ℚ) : ℝ) := by
  push_cast
  have p1 := Real.pi_gt_d20; have p2 := Real.pi_lt_d20
  constructor
  · rw [lt_div_iff₀ (by positivity)]; norm_num at *; linarith
  · rw [div_lt_iff₀ (by positivity)]; norm_num at *; linarith

/-- 2 / √Real.pi between two rational numbers -/
theorem bounds_two_over_root_pi : ((1.1283791667 : ℚ) : ℝ) < 2 / √Real.pi ∧ 2 / √Real.pi < ((1.1283791675 : ℚ) : ℝ) := by
  push_cast
  have p1 := Real.pi_gt_d20; have p2 := Real.pi_lt_d20
  have s1 : 1.7724538509 < √Real.pi := by apply Real.lt_sqrt_of_sq_lt; norm_num at *; linarith
  have s2 : √Real.pi < 1.7724538510 := by rw [Real.sqrt_lt' (by norm_num)]; norm_num at *; linarith
  constructor
  · rw [lt_div_iff₀ (by linarith)]; norm_num at *; linarith
  · rw [div_lt_iff₀ (by linarith)]; norm_num at *; linarith

/-- 1 / √2 between two rational numbers -/
theorem bounds_one_over_root_two : ((0.7071067808 : ℚ) : ℝ) < 1 / √2 ∧ 1 / √2 < ((0.7071067816 : ℚ) : ℝ) := by
  push_cast
  have s1 : 1.41421356237 < √2 := by apply Real.lt_sqrt_of_sq_lt; norm_num
  have s2 : √2 < 1.41421356238 := by rw [Real.sqrt_lt' (by norm_num)]; norm_num
  constructor
  · rw [lt_div_iff₀ (by linarith)]; norm_num at *; linarith
  · rw [div_lt_iff₀ (by linarith)]; norm_num at *; linarith

/-- √(Real.pi / 2) between two rational numbers -/
theorem bounds_root_half_pi : ((1.2533141369 : ℚ) : ℝ) < √(Real.pi / 2) ∧ √(Real.pi / 2) < ((1.2533141377 : ℚ) : ℝ) := by
  push_cast
  have p1 := Real.pi_gt_d20; have p2 := Real.pi_lt_d20
  constructor
  · apply Real.lt_sqrt_of_sq_lt; norm_num at *; linarith
  · rw [Real.sqrt_lt' (by norm_num)]; norm_num at *; linarith

/-- √(2 * Real.pi) between two rational numbers -/
theorem bounds_root_two_pi : ((2.5066282742 : ℚ) : ℝ) < √(2 * Real.pi) ∧ √(2 * Real.pi) < ((2.5066282750 : ℚ) : ℝ) := by
  push_cast
  have p1 := Real.pi_gt_d20; have p2 := Real.pi_lt_d20
  constructor
  · apply Real.lt_sqrt_of_sq_lt; norm_num at *; linarith
  · rw [Real.sqrt_lt' (by norm_num)]; norm_num at *; linarith

/-- √(Real.log 4) between two rational numbers -/
theorem bounds_root_ln_four : ((1.1774100215 : ℚ) : ℝ) < √(Real.log 4) ∧ √(Real.log 4) < ((1.1774100235 : ℚ) : ℝ) := by
  push_cast
  have l1 := Real.log_two_gt_d9; have l2 := Real.log_two_lt_d9
  have e : Real.log 4 = 2 * Real.log 2 := by
    rw [show (4 : ℝ) = 2 ^ 2 by norm_num, Real.log_pow]; norm_num
  rw [e]
  constructor
  · apply Real.lt_sqrt_of_sq_lt; norm_num at *; linarith
  · rw [Real.sqrt_lt' (by norm_num)]; norm_num at *; linarith

/-- Real.exp 1 between two rational numbers -/
theorem bounds_e : ((2.7182818281 : ℚ) : ℝ) < Real.exp 1 ∧ Real.exp 1 < ((2.7182818289 : ℚ) : ℝ) := by
  push_cast
  have p1 := Real.exp_one_gt_d9; have p2 := Real.exp_one_lt_d9
  constructor <;> norm_num at * <;> linarith

/-- Real.eulerMascheroniConstant between two rational numbers -/
theorem bounds_euler : ((0.5772156549 : ℚ) : ℝ) < Real.eulerMascheroniConstant ∧ Real.eulerMascheroniConstant < ((0.5772156749 : ℚ) : ℝ) := by
  push_cast
  have p := euler_bounds
  constructor <;> norm_num at * <;> linarith

/-- √2 between two rational numbers -/
theorem bounds_root_two : ((1.4142135620 : ℚ) : ℝ) < √2 ∧ √2 < ((1.4142135628 : ℚ) : ℝ) := by
  push_cast
  constructor
  · apply Real.lt_sqrt_of_sq_lt; norm_num
  · rw [Real.sqrt_lt' (by norm_num)]; norm_num

/-- √3 between two rational numbers -/
theorem bounds_root_three : ((1.7320508072 : ℚ) : ℝ) < √3 ∧ √3 < ((1.7320508080 : ℚ) : ℝ) := by
  push_cast
  constructor
  · apply Real.lt_sqrt_of_sq_lt; norm_num
  · rw [Real.sqrt_lt' (by norm_num)]; norm_num

/-- √5 between two rational numbers -/
theorem bounds_root_five : ((2.2360679771 : ℚ) : ℝ) < √5 ∧ √5 < ((2.2360679779 : ℚ) : ℝ) := by
  push_cast
  constructor
  · apply Real.lt_sqrt_of_sq_lt; norm_num
  · rw [Real.sqrt_lt' (by norm_num)]; norm_num

/-- Real.log 2 between two rational numbers -/
theorem bounds_ln_two : ((0.6931471802 : ℚ) : ℝ) < Real.log 2 ∧ Real.log 2 < ((0.6931471810 : ℚ) : ℝ) := by
  push_cast
  have l1 := Real.log_two_gt_d9; have l2 := Real.log_two_lt_d9
  constructor <;> norm_num at * <;> linarith

/-- Real.log 10 between two rational numbers -/
theorem bounds_ln_ten : ((2.3025850920 : ℚ) : ℝ) < Real.log 10 ∧ Real.log 10 < ((2.3025850940 : ℚ) : ℝ) := by
  push_cast
  have l1 := Real.log_two_gt_d9; have l2 := Real.log_two_lt_d9
  have k1 := Real.log_five_gt_d9; have k2 := Real.log_five_lt_d9
  rw [Real.log_ten_eq]
  constructor <;> norm_num at * <;> linarith

/-- 1 / 3 between two rational numbers -/
theorem bounds_third : ((0.3333333329 : ℚ) : ℝ) < 1 / 3 ∧ 1 / 3 < ((0.3333333337 : ℚ) : ℝ) := by
  push_cast
  constructor <;> norm_num

/-- 2 / 3 between two rational numbers -/
theorem bounds_two_thirds : ((0.6666666663 : ℚ) : ℝ) < 2 / 3 ∧ 2 / 3 < ((0.6666666671 : ℚ) : ℝ) := by
  push_cast
  constructor <;> norm_num

/-- Real.goldenRatio between two rational numbers -/
theorem bounds_golden_ratio : ((1.6180339883 : ℚ) : ℝ) < Real.goldenRatio ∧ Real.goldenRatio < ((1.6180339891 : ℚ) : ℝ) := by
  push_cast
  have s1 : 2.2360679774 < √5 := by apply Real.lt_sqrt_of_sq_lt; norm_num
  have s2 : √5 < 2.2360679775 := by rw [Real.sqrt_lt' (by norm_num)]; norm_num
  unfold Real.goldenRatio
  constructor <;> norm_num at * <;> linarith

/-- ln (ln 2) between two rational numbers -/
theorem bounds_ln_ln_two : ((0.3665129196 : ℚ) : ℝ) < -Real.log (Real.log 2) ∧
    -Real.log (Real.log 2) < ((0.3665129216 : ℚ) : ℝ) := by
  push_cast
  have l1 := Real.log_two_gt_d9
  have l2 := Real.log_two_lt_d9
  have key : ∀ y : ℝ, 0 < y → y < 1 → -Real.log y = Real.log (1 + (y / (1 - y))⁻¹) := fun y h0 h1 => by
    have : 1 - y ≠ 0 := by linarith
    rw [← Real.log_inv]
    congr 1
    field_simp
    ring
  have h1 : -Real.log 0.6931471808 ≤ -Real.log (Real.log 2) :=
    neg_le_neg (Real.log_le_log (by linarith) l2.le)
  have h2 : -Real.log (Real.log 2) ≤ -Real.log 0.6931471803 :=
    neg_le_neg (Real.log_le_log (by norm_num) l1.le)
  rw [key 0.6931471808 (by norm_num) (by norm_num)] at h1
  rw [key 0.6931471803 (by norm_num) (by norm_num)] at h2
  have b1 := log_ge (0.6931471808 / (1 - 0.6931471808)) (by norm_num) 6
  have b2 := log_le (0.6931471803 / (1 - 0.6931471803)) (by norm_num) 6
  simp only [Finset.sum_range_succ, Finset.sum_range_zero, logTerm] at b1 b2
  constructor
  · refine lt_of_lt_of_le (lt_of_lt_of_le ?_ b1) h1
    norm_num
  · refine lt_of_le_of_lt (h2.trans b2) ?_
    norm_num

end Zcm
