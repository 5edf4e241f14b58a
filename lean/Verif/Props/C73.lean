import Verif.Model.Constants
import Verif.Lemmas.Nearest
import Verif.Lemmas.ConstBounds

/-!
# C73: every function of constants.hpp returns the binary32 number nearest to the constant it names

`F32.IsNearest x r` (Spec/Nearest.lean): `x` is finite and every other finite binary32 number is strictly further
from the real number `r`. The names are the documentation comments of include/zcm/constants.hpp.
-/

namespace Zcm

open F32

set_option exponentiation.threshold 300

/-- C73: `pi()` is the float nearest to π. -/
theorem C73_pi : IsNearest (Const.pi : F32) (Real.pi) :=
  isNearest_of_bounds (lo := 3.1415926532) (hi := 3.1415926540) (by decide +kernel) (by norm_num)
    (by decide +kernel) (by decide +kernel) bounds_pi.1 bounds_pi.2

/-- C73: `two_pi()` is the float nearest to 2π. -/
theorem C73_two_pi : IsNearest (Const.two_pi : F32) (2 * Real.pi) :=
  isNearest_of_bounds (lo := 6.2831853068) (hi := 6.2831853076) (by decide +kernel) (by norm_num)
    (by decide +kernel) (by decide +kernel) bounds_two_pi.1 bounds_two_pi.2

/-- C73: `root_pi()` is the float nearest to √π. -/
theorem C73_root_pi : IsNearest (Const.root_pi : F32) (√Real.pi) :=
  isNearest_of_bounds (lo := 1.7724538505) (hi := 1.7724538513) (by decide +kernel) (by norm_num)
    (by decide +kernel) (by decide +kernel) bounds_root_pi.1 bounds_root_pi.2

/-- C73: `half_pi()` is the float nearest to π/2. -/
theorem C73_half_pi : IsNearest (Const.half_pi : F32) (Real.pi / 2) :=
  isNearest_of_bounds (lo := 1.5707963264) (hi := 1.5707963272) (by decide +kernel) (by norm_num)
    (by decide +kernel) (by decide +kernel) bounds_half_pi.1 bounds_half_pi.2

/-- C73: `three_over_two_pi()` is the float nearest to 3π/2. -/
theorem C73_three_over_two_pi : IsNearest (Const.three_over_two_pi : F32) (3 * Real.pi / 2) :=
  isNearest_of_bounds (lo := 4.7123889800) (hi := 4.7123889808) (by decide +kernel) (by norm_num)
    (by decide +kernel) (by decide +kernel) bounds_three_over_two_pi.1 bounds_three_over_two_pi.2

/-- C73: `quarter_pi()` is the float nearest to π/4. -/
theorem C73_quarter_pi : IsNearest (Const.quarter_pi : F32) (Real.pi / 4) :=
  isNearest_of_bounds (lo := 0.7853981630) (hi := 0.7853981638) (by decide +kernel) (by norm_num)
    (by decide +kernel) (by decide +kernel) bounds_quarter_pi.1 bounds_quarter_pi.2

/-- C73: `one_over_pi()` is the float nearest to 1/π. -/
theorem C73_one_over_pi : IsNearest (Const.one_over_pi : F32) (1 / Real.pi) :=
  isNearest_of_bounds (lo := 0.3183098858) (hi := 0.3183098866) (by decide +kernel) (by norm_num)
    (by decide +kernel) (by decide +kernel) bounds_one_over_pi.1 bounds_one_over_pi.2

/-- C73: `one_over_two_pi()` is the float nearest to 1/(2π). -/
theorem C73_one_over_two_pi : IsNearest (Const.one_over_two_pi : F32) (1 / (2 * Real.pi)) :=
  isNearest_of_bounds (lo := 0.1591549427) (hi := 0.1591549435) (by decide +kernel) (by norm_num)
    (by decide +kernel) (by decide +kernel) bounds_one_over_two_pi.1 bounds_one_over_two_pi.2

/-- C73: `two_over_pi()` is the float nearest to 2/π. -/
theorem C73_two_over_pi : IsNearest (Const.two_over_pi : F32) (2 / Real.pi) :=
  isNearest_of_bounds (lo := 0.6366197720) (hi := 0.6366197728) (by decide +kernel) (by norm_num)
    (by decide +kernel) (by decide +kernel) bounds_two_over_pi.1 bounds_two_over_pi.2

/-- C73: `four_over_pi()` is the float nearest to 4/π. -/
theorem C73_four_over_pi : IsNearest (Const.four_over_pi : F32) (4 / Real.pi) :=
  isNearest_of_bounds (lo := 1.2732395443) (hi := 1.2732395451) (by decide +kernel) (by norm_num)
    (by decide +kernel) (by decide +kernel) bounds_four_over_pi.1 bounds_four_over_pi.2

/-- C73: `two_over_root_pi()` is the float nearest to 2/√π. -/
theorem C73_two_over_root_pi : IsNearest (Const.two_over_root_pi : F32) (2 / √Real.pi) :=
  isNearest_of_bounds (lo := 1.1283791667) (hi := 1.1283791675) (by decide +kernel) (by norm_num)
    (by decide +kernel) (by decide +kernel) bounds_two_over_root_pi.1 bounds_two_over_root_pi.2

/-- C73: `one_over_root_two()` is the float nearest to 1/√2. -/
theorem C73_one_over_root_two : IsNearest (Const.one_over_root_two : F32) (1 / √2) :=
  isNearest_of_bounds (lo := 0.7071067808) (hi := 0.7071067816) (by decide +kernel) (by norm_num)
    (by decide +kernel) (by decide +kernel) bounds_one_over_root_two.1 bounds_one_over_root_two.2

/-- C73: `root_half_pi()` is the float nearest to √(π/2). -/
theorem C73_root_half_pi : IsNearest (Const.root_half_pi : F32) (√(Real.pi / 2)) :=
  isNearest_of_bounds (lo := 1.2533141369) (hi := 1.2533141377) (by decide +kernel) (by norm_num)
    (by decide +kernel) (by decide +kernel) bounds_root_half_pi.1 bounds_root_half_pi.2

/-- C73: `root_two_pi()` is the float nearest to √(2π). -/
theorem C73_root_two_pi : IsNearest (Const.root_two_pi : F32) (√(2 * Real.pi)) :=
  isNearest_of_bounds (lo := 2.5066282742) (hi := 2.5066282750) (by decide +kernel) (by norm_num)
    (by decide +kernel) (by decide +kernel) bounds_root_two_pi.1 bounds_root_two_pi.2

/-- C73: `root_ln_four()` is the float nearest to √(ln 4). -/
theorem C73_root_ln_four : IsNearest (Const.root_ln_four : F32) (√(Real.log 4)) :=
  isNearest_of_bounds (lo := 1.1774100215) (hi := 1.1774100235) (by decide +kernel) (by norm_num)
    (by decide +kernel) (by decide +kernel) bounds_root_ln_four.1 bounds_root_ln_four.2

/-- C73: `e()` is the float nearest to e. -/
theorem C73_e : IsNearest (Const.e : F32) (Real.exp 1) :=
  isNearest_of_bounds (lo := 2.7182818281) (hi := 2.7182818289) (by decide +kernel) (by norm_num)
    (by decide +kernel) (by decide +kernel) bounds_e.1 bounds_e.2

/-- C73: `euler()` is the float nearest to Euler's constant γ. -/
theorem C73_euler : IsNearest (Const.euler : F32) (Real.eulerMascheroniConstant) :=
  isNearest_of_bounds (lo := 0.5772156549) (hi := 0.5772156749) (by decide +kernel) (by norm_num)
    (by decide +kernel) (by decide +kernel) bounds_euler.1 bounds_euler.2

/-- C73: `root_two()` is the float nearest to √2. -/
theorem C73_root_two : IsNearest (Const.root_two : F32) (√2) :=
  isNearest_of_bounds (lo := 1.4142135620) (hi := 1.4142135628) (by decide +kernel) (by norm_num)
    (by decide +kernel) (by decide +kernel) bounds_root_two.1 bounds_root_two.2

/-- C73: `root_three()` is the float nearest to √3. -/
theorem C73_root_three : IsNearest (Const.root_three : F32) (√3) :=
  isNearest_of_bounds (lo := 1.7320508072) (hi := 1.7320508080) (by decide +kernel) (by norm_num)
    (by decide +kernel) (by decide +kernel) bounds_root_three.1 bounds_root_three.2

/-- C73: `root_five()` is the float nearest to √5. -/
theorem C73_root_five : IsNearest (Const.root_five : F32) (√5) :=
  isNearest_of_bounds (lo := 2.2360679771) (hi := 2.2360679779) (by decide +kernel) (by norm_num)
    (by decide +kernel) (by decide +kernel) bounds_root_five.1 bounds_root_five.2

/-- C73: `ln_two()` is the float nearest to ln 2. -/
theorem C73_ln_two : IsNearest (Const.ln_two : F32) (Real.log 2) :=
  isNearest_of_bounds (lo := 0.6931471802) (hi := 0.6931471810) (by decide +kernel) (by norm_num)
    (by decide +kernel) (by decide +kernel) bounds_ln_two.1 bounds_ln_two.2

/-- C73: `ln_ten()` is the float nearest to ln 10. -/
theorem C73_ln_ten : IsNearest (Const.ln_ten : F32) (Real.log 10) :=
  isNearest_of_bounds (lo := 2.3025850920) (hi := 2.3025850940) (by decide +kernel) (by norm_num)
    (by decide +kernel) (by decide +kernel) bounds_ln_ten.1 bounds_ln_ten.2

/-- C73: `third()` is the float nearest to 1/3. -/
theorem C73_third : IsNearest (Const.third : F32) (1 / 3) :=
  isNearest_of_bounds (lo := 0.3333333329) (hi := 0.3333333337) (by decide +kernel) (by norm_num)
    (by decide +kernel) (by decide +kernel) bounds_third.1 bounds_third.2

/-- C73: `two_thirds()` is the float nearest to 2/3. -/
theorem C73_two_thirds : IsNearest (Const.two_thirds : F32) (2 / 3) :=
  isNearest_of_bounds (lo := 0.6666666663) (hi := 0.6666666671) (by decide +kernel) (by norm_num)
    (by decide +kernel) (by decide +kernel) bounds_two_thirds.1 bounds_two_thirds.2

/-- C73: `golden_ratio()` is the float nearest to the golden ratio (1 + √5)/2. -/
theorem C73_golden_ratio : IsNearest (Const.golden_ratio : F32) (Real.goldenRatio) :=
  isNearest_of_bounds (lo := 1.6180339883) (hi := 1.6180339891) (by decide +kernel) (by norm_num)
    (by decide +kernel) (by decide +kernel) bounds_golden_ratio.1 bounds_golden_ratio.2

/-- C73: `ln_ln_two()` is the float nearest to ln (ln 2), which is negative. -/
theorem C73_ln_ln_two : IsNearest (Const.ln_ln_two : F32) (Real.log (Real.log 2)) := by
  have h : IsNearest (lit 0.3665129205816643 : F32) (-Real.log (Real.log 2)) :=
    isNearest_of_bounds (lo := 0.3665129196) (hi := 0.3665129216) (by decide +kernel) (by norm_num)
      (by decide +kernel) (by decide +kernel) bounds_ln_ln_two.1 bounds_ln_ln_two.2
  have h2 := h.neg
  rwa [neg_neg] at h2

/-- C73: `zero()` is 0 and `one()` is 1, exactly. -/
theorem C73_zero_one : (Const.zero : F32).val = 0 ∧ (Const.one : F32).val = 1 ∧
    IsNearest (Const.zero : F32) 0 ∧ IsNearest (Const.one : F32) 1 := by
  have z : (Const.zero : F32).val = 0 := by decide +kernel
  have o : (Const.one : F32).val = 1 := by decide +kernel
  refine ⟨z, o, ⟨by decide +kernel, fun y _ hne => ?_⟩, ⟨by decide +kernel, fun y _ hne => ?_⟩⟩
  · rw [z] at hne ⊢
    simpa using hne
  · rw [o] at hne ⊢
    have h : (y.val : ℝ) ≠ 1 := by exact_mod_cast hne
    simpa [sub_eq_zero] using h

/-- C73: `epsilon()` is the distance from 1 to the next larger float: 1 + epsilon is a float, and no float
lies strictly between. -/
theorem C73_epsilon : (Const.epsilon : F32).IsFin = true ∧ 0 < (Const.epsilon : F32).val ∧
    (∃ y : F32, y.IsFin = true ∧ y.val = 1 + (Const.epsilon : F32).val) ∧
    ∀ y : F32, y.IsFin = true → 1 < y.val → 1 + (Const.epsilon : F32).val ≤ y.val := by
  have e : (Const.epsilon : F32).val = 1 / 8388608 := by decide +kernel
  refine ⟨by decide +kernel, by rw [e]; norm_num, ⟨lit (8388609 / 8388608), by decide +kernel, ?_⟩, ?_⟩
  · rw [e]; decide +kernel
  · intro y hy h
    rw [e]
    have hk : (2 : ℤ) ^ 149 < y.key := by
      unfold val at h
      rw [lt_div_iff₀ (by positivity), one_mul] at h
      exact_mod_cast h
    have r := (rep_of_isFin hy).1
    have hn : 2 ^ (126 + 23) ≤ y.key.natAbs := by omega
    obtain ⟨m, hm⟩ := (pow_dvd_pow 2 (le_ulpExp_of_le hn)).trans r
    have hm' : y.key = 2 ^ 126 * m := by omega
    have : (2 : ℤ) ^ 23 < m := by omega
    have h3 : (2 : ℤ) ^ 149 + 2 ^ 126 ≤ y.key := by omega
    unfold val
    rw [le_div_iff₀ (by positivity)]
    have h4 : ((2 : ℚ) ^ 149 + 2 ^ 126) ≤ y.key := by exact_mod_cast h3
    norm_num at h4 ⊢
    linarith

end Zcm
