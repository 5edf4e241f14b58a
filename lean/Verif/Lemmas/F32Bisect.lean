import Verif.Lemmas.F32Adjacent
import Verif.Lemmas.F32Axis
import Verif.Lemmas.F32Proj
import Verif.Lemmas.F32Fract
import Verif.Spec.Bisect

/-!
# Halving an interval of binary32 numbers again and again
-/

set_option exponentiation.threshold 300

namespace Zcm.F32

/-- finite and below `2^127`, half the range, so that the sum of two such numbers is finite -/
def InHalf (x : F32) : Prop := x.IsFin = true ∧ |x.val| < 2 ^ 127

/-- the midpoint as a caller computes it -/
def mid (a b : F32) : F32 := (a + b) * lit 0.5

theorem add_in_half {a b : F32} (ha : InHalf a) (hb : InHalf b) : (a + b).IsFin = true := by
  obtain ⟨c, fc, ec⟩ := exists_twice ha.1 ha.2
  obtain ⟨d, fd, ed⟩ := exists_twice hb.1 hb.2
  rw [add_fin ha.1 hb.1]
  rcases le_total a.val b.val with h | h
  · exact isFin_round_of_between fc fd (by rw [ec]; linarith) (by rw [ed]; linarith) _
  · exact isFin_round_of_between fd fc (by rw [ed]; linarith) (by rw [ec]; linarith) _

theorem round_nearest' {s : Bool} {x : ℚ} (h : (round s x).IsFin = true) {y : F32} (hy : y.IsFin = true) :
    |(round s x).val - x| ≤ |y.val - x| := by
  have c := round_correct s x
  by_cases l : |(x : ℝ)| < (2 ^ 25 - 1) * 2 ^ 103
  · exact_mod_cast (c.1 l).1.2 y hy
  · exfalso
    rw [not_lt, le_abs'] at l
    rcases l with l | l
    · rw [c.2.2 l] at h; cases h
    · rw [c.2.1 l] at h; cases h

/-- The midpoint: either the sum is exact and tiny, or the halving is exact. -/
theorem mid_cases {a b : F32} (ha : InHalf a) (hb : InHalf b) :
    (mid a b).IsFin = true ∧
    ((|a.val + b.val| < 1 / 2 ^ 125 ∧ ∃ s, mid a b = round s ((a.val + b.val) / 2)) ∨
     (1 / 2 ^ 125 ≤ |a.val + b.val| ∧ (mid a b).val = (a + b).val / 2)) := by
  have f := add_in_half ha hb
  have hf := add_fin ha.1 hb.1
  by_cases c : |a.val + b.val| < 1 / 2 ^ 125
  · have e : a.val + b.val = ((a.key + b.key : ℤ) : ℚ) / 2 ^ 149 := by unfold val; push_cast; ring
    have small : |a.key + b.key| < 2 ^ 24 := by
      rw [e, abs_div, abs_of_pos (show (0 : ℚ) < 2 ^ 149 by positivity), div_lt_iff₀ (by positivity)] at c
      have : ((|a.key + b.key| : ℤ) : ℚ) < ((2 ^ 24 : ℤ) : ℚ) := by
        rw [Int.cast_abs]
        refine lt_of_lt_of_eq c (by norm_num)
      exact_mod_cast this
    have r : Rep (a.key + b.key).natAbs := by
      have : (a.key + b.key).natAbs < 2 ^ 24 := by
        have := _root_.abs_lt.1 small
        omega
      exact ⟨rep'_of_lt this, lt_trans this (by norm_num)⟩
    have ex : (a + b).val = a.val + b.val := by
      rw [hf, e]; exact (round_units_fin r _).2.2
    have m : mid a b = round ((a + b).sgn ^^ (lit 0.5 : F32).sgn) ((a.val + b.val) / 2) := by
      rw [mid, mul_fin f isFin_lit_half, val_lit_half, ex]; congr 1; ring
    refine ⟨?_, .inl ⟨c, _, m⟩⟩
    rw [m]
    refine isFin_round ?_
    rw [abs_div, abs_two]
    have : (1 : ℚ) / 2 ^ 125 ≤ (2 ^ 24 - 1) * 2 ^ 104 := by norm_num
    have := abs_nonneg (a.val + b.val)
    linarith
  · rw [not_lt] at c
    have big : 1 / 2 ^ 125 ≤ |(a + b).val| := by
      obtain ⟨u, fu, eu⟩ := exists_float (M := 1) (t := 125) (by norm_num) (by norm_num)
      rw [Int.cast_one] at eu
      rcases le_abs'.1 c with h | h
      · have k := key_le_iff.1 (key_round_le (a := -u) (x := a.val + b.val) (by rw [isFin_neg]; exact fu) (by rw [val_neg, eu]; linarith)
          (a.sgn && b.sgn))
        rw [hf, le_abs']
        left
        rw [val_neg, eu] at k
        convert k using 2
      · have k := key_le_iff.1 (le_key_round fu (x := a.val + b.val) (by rw [eu]; exact h) (a.sgn && b.sgn))
        rw [hf, le_abs']
        right
        rw [eu] at k
        convert k using 2
    have h := half_exact f big
    exact ⟨h.1, .inr ⟨c, h.2⟩⟩

/-- No number in the half range is nearer to the exact midpoint. -/
theorem mid_nearest {a b z : F32} (ha : InHalf a) (hb : InHalf b) (hz : InHalf z) :
    |(mid a b).val - (a.val + b.val) / 2| ≤ |z.val - (a.val + b.val) / 2| := by
  rcases (mid_cases ha hb).2 with ⟨c, s, e⟩ | ⟨c, e⟩
  · have f := (mid_cases ha hb).1
    rw [e] at f ⊢
    exact round_nearest' f hz.1
  · obtain ⟨d, fd, ed⟩ := exists_twice hz.1 hz.2
    rw [e, ← sub_div, abs_div, abs_two, div_le_iff₀ (by norm_num)]
    have e2 : |z.val - (a.val + b.val) / 2| * 2 = |d.val - (a.val + b.val)| := by
      rw [ed, ← abs_two (α := ℚ), ← abs_mul, abs_two]; congr 1; ring
    rw [e2]
    have f := add_in_half ha hb
    rw [add_fin ha.1 hb.1] at f ⊢
    exact round_nearest' f fd

theorem mid_between {a b : F32} (ha : InHalf a) (hb : InHalf b) :
    min a.val b.val ≤ (mid a b).val ∧ (mid a b).val ≤ max a.val b.val := by
  have h1 := mid_nearest ha hb ha
  have h2 := mid_nearest ha hb hb
  rw [show a.val - (a.val + b.val) / 2 = (a.val - b.val) / 2 by ring, _root_.abs_le] at h1
  rw [show b.val - (a.val + b.val) / 2 = (b.val - a.val) / 2 by ring, _root_.abs_le] at h2
  rcases le_total a.val b.val with h | h
  · rw [abs_of_nonneg (by linarith : 0 ≤ (b.val - a.val) / 2)] at h2
    rw [min_eq_left h, max_eq_right h]
    constructor <;> linarith [h2.1, h2.2]
  · rw [abs_of_nonneg (by linarith : 0 ≤ (a.val - b.val) / 2)] at h1
    rw [min_eq_right h, max_eq_left h]
    constructor <;> linarith [h1.1, h1.2]

theorem mid_in_half {a b : F32} (ha : InHalf a) (hb : InHalf b) : InHalf (mid a b) := by
  refine ⟨(mid_cases ha hb).1, ?_⟩
  have h := mid_between ha hb
  have a1 := _root_.abs_lt.1 ha.2
  have b1 := _root_.abs_lt.1 hb.2
  rw [_root_.abs_lt]
  exact ⟨lt_of_lt_of_le (lt_min a1.1 b1.1) h.1, lt_of_le_of_lt h.2 (max_lt a1.2 b1.2)⟩

/-- There is no finite number strictly between. -/
def Closed (a b : F32) : Prop := ∀ z : F32, z.IsFin = true → ¬(min a.val b.val < z.val ∧ z.val < max a.val b.val)

theorem mid_of_closed {a b : F32} (ha : InHalf a) (hb : InHalf b) (h : Closed a b) :
    (mid a b).val = a.val ∨ (mid a b).val = b.val := by
  have m := mid_between ha hb
  have n := h _ (mid_cases ha hb).1
  rcases le_total a.val b.val with l | l
  · rw [min_eq_left l, max_eq_right l] at m n
    by_contra c
    push Not at c
    exact n ⟨lt_of_le_of_ne m.1 c.1.symm, lt_of_le_of_ne m.2 c.2⟩
  · rw [min_eq_right l, max_eq_left l] at m n
    by_contra c
    push Not at c
    exact n ⟨lt_of_le_of_ne m.1 c.2.symm, lt_of_le_of_ne m.2 c.1⟩

theorem closed_of_mid {a b : F32} (ha : InHalf a) (hb : InHalf b) (h : (mid a b).val = a.val ∨ (mid a b).val = b.val) : Closed a b := by
  intro z fz hz
  have iz : InHalf z := by
    refine ⟨fz, ?_⟩
    have a1 := _root_.abs_lt.1 ha.2
    have b1 := _root_.abs_lt.1 hb.2
    rw [_root_.abs_lt]
    exact ⟨lt_trans (lt_min a1.1 b1.1) hz.1, lt_trans hz.2 (max_lt a1.2 b1.2)⟩
  have n := mid_nearest ha hb iz
  have e : |(mid a b).val - (a.val + b.val) / 2| = |a.val - b.val| / 2 := by
    rcases h with h | h
    · rw [h, ← abs_two (α := ℚ), ← abs_div, abs_two]; congr 1; ring
    · rw [h, abs_sub_comm a.val, ← abs_two (α := ℚ), ← abs_div, abs_two]; congr 1; ring
  rw [e] at n
  rcases le_total a.val b.val with l | l
  · rw [min_eq_left l, max_eq_right l] at hz
    rw [abs_of_nonpos (by linarith)] at n
    have : |z.val - (a.val + b.val) / 2| < (b.val - a.val) / 2 := by
      rw [_root_.abs_lt]; constructor <;> linarith
    linarith
  · rw [min_eq_right l, max_eq_left l] at hz
    rw [abs_of_nonneg (by linarith)] at n
    have : |z.val - (a.val + b.val) / 2| < (a.val - b.val) / 2 := by
      rw [_root_.abs_lt]; constructor <;> linarith
    linarith

/-- How far the computed midpoint is from the exact one. -/
theorem mid_error {a b : F32} (ha : InHalf a) (hb : InHalf b) {D : ℚ} (h1 : |(a.val + b.val) / 2| / 2 ^ 24 ≤ D) (h2 : 1 / 2 ^ 149 ≤ D) :
    |(mid a b).val - (a.val + b.val) / 2| ≤ D := by
  rcases (mid_cases ha hb).2 with ⟨c, s, e⟩ | ⟨c, e⟩
  · have f := (mid_cases ha hb).1
    rw [e] at f ⊢
    refine le_trans (round_error f) ?_
    rw [abs_div, abs_two]
    have : |a.val + b.val| / 2 / 2 ^ 24 ≤ 1 / 2 ^ 125 / 2 / 2 ^ 24 := by gcongr
    have : (1 : ℚ) / 2 ^ 125 / 2 / 2 ^ 24 + 1 / 2 ^ 150 = 1 / 2 ^ 149 := by norm_num
    linarith
  · have f := add_in_half ha hb
    rw [add_fin ha.1 hb.1] at f
    have r := round_error_rel f (le_trans (by norm_num) c)
    rw [e, add_fin ha.1 hb.1, ← sub_div, abs_div, abs_two]
    rw [abs_div, abs_two] at h1
    linarith

/-- While the interval is wide for the magnitude of its ends, each half has at most 9/16 of its width. -/
theorem mid_shrinks {a b : F32} (ha : InHalf a) (hb : InHalf b) (h1 : |a.val| ≤ 2 ^ 20 * |a.val - b.val|)
    (h2 : |b.val| ≤ 2 ^ 20 * |a.val - b.val|) (h3 : 1 / 2 ^ 145 ≤ |a.val - b.val|) :
    |a.val - (mid a b).val| ≤ 9 / 16 * |a.val - b.val| ∧ |(mid a b).val - b.val| ≤ 9 / 16 * |a.val - b.val| := by
  have e := mid_error ha hb (D := |a.val - b.val| / 16) (by
    rw [abs_div, abs_two]
    have := abs_add_le a.val b.val
    rw [div_div, div_le_iff₀ (by positivity)]
    norm_num at h1 h2 ⊢
    linarith) (by
    rw [le_div_iff₀ (by norm_num)]
    refine le_trans (by norm_num) h3)
  constructor
  · have k : a.val - (mid a b).val = (a.val - b.val) / 2 - ((mid a b).val - (a.val + b.val) / 2) := by ring
    rw [k]
    refine le_trans (abs_sub _ _) ?_
    rw [abs_div, abs_two]
    linarith
  · have k : (mid a b).val - b.val = (a.val - b.val) / 2 + ((mid a b).val - (a.val + b.val) / 2) := by ring
    rw [k]
    refine le_trans (abs_add_le _ _) ?_
    rw [abs_div, abs_two]
    linarith

/-- `k` halvings are enough, whichever halves are kept. -/
def Enough : ℕ → F32 → F32 → Prop
  | 0, a, b => Closed a b
  | k + 1, a, b => Enough k a (mid a b) ∧ Enough k (mid a b) b

theorem Closed.left {a b : F32} (ha : InHalf a) (hb : InHalf b) (h : Closed a b) : Closed a (mid a b) := by
  have m := mid_between ha hb
  intro z fz hz
  refine h z fz ⟨lt_of_le_of_lt ?_ hz.1, lt_of_lt_of_le hz.2 ?_⟩
  · exact le_min (min_le_left _ _) m.1
  · exact max_le (le_max_left _ _) m.2

theorem Closed.right {a b : F32} (ha : InHalf a) (hb : InHalf b) (h : Closed a b) : Closed (mid a b) b := by
  have m := mid_between ha hb
  intro z fz hz
  refine h z fz ⟨lt_of_le_of_lt ?_ hz.1, lt_of_lt_of_le hz.2 ?_⟩
  · exact le_min m.1 (min_le_right _ _)
  · exact max_le m.2 (le_max_right _ _)

theorem enough_of_closed {a b : F32} (ha : InHalf a) (hb : InHalf b) (h : Closed a b) (k : ℕ) : Enough k a b := by
  induction k generalizing a b with
  | zero => exact h
  | succ k ih => exact ⟨ih ha (mid_in_half ha hb) (h.left ha hb), ih (mid_in_half ha hb) hb (h.right ha hb)⟩

theorem Enough.mono {a b : F32} (ha : InHalf a) (hb : InHalf b) {k l : ℕ} (h : Enough k a b) (hl : k ≤ l) : Enough l a b := by
  induction k generalizing a b l with
  | zero => exact enough_of_closed ha hb h l
  | succ k ih =>
    obtain ⟨l, rfl⟩ : ∃ n, l = n + 1 := ⟨l - 1, by omega⟩
    exact ⟨ih ha (mid_in_half ha hb) h.1 (by omega), ih (mid_in_half ha hb) hb h.2 (by omega)⟩

/-- A stretch where all numbers are multiples of one step `g`. -/
theorem enough_of_step {a b : F32} (ha : InHalf a) (hb : InHalf b) (g : ℤ) (hg : 0 < g) (k : ℕ)
    (hm : ∀ z : F32, z.IsFin = true → min a.key b.key ≤ z.key → z.key ≤ max a.key b.key → g ∣ z.key)
    (hd : |a.key - b.key| ≤ k * g) : Enough k a b := by
  induction k generalizing a b with
  | zero =>
    have e : a.key = b.key := by
      rw [Nat.cast_zero, zero_mul] at hd
      have := abs_nonneg (a.key - b.key)
      have : |a.key - b.key| = 0 := by omega
      rw [_root_.abs_eq_zero] at this
      omega
    intro z _ hz
    rw [key_eq_iff.1 e, min_self, max_self] at hz
    exact absurd (lt_trans hz.1 hz.2) (lt_irrefl _)
  | succ k ih =>
    by_cases c : (mid a b).val = a.val ∨ (mid a b).val = b.val
    · exact enough_of_closed ha hb (closed_of_mid ha hb c) _
    push Not at c
    have mi := mid_in_half ha hb
    have m := mid_between ha hb
    rw [← key_eq_iff.ne, ← key_eq_iff.ne] at c
    have ka : g ∣ a.key := hm a ha.1 (min_le_left _ _) (le_max_left _ _)
    have kb : g ∣ b.key := hm b hb.1 (min_le_right _ _) (le_max_right _ _)
    have mk : min a.key b.key ≤ (mid a b).key ∧ (mid a b).key ≤ max a.key b.key := by
      rcases le_total a.val b.val with l | l
      · have l' := key_le_iff.2 l
        rw [min_eq_left l, max_eq_right l, ← key_le_iff, ← key_le_iff] at m
        rw [min_eq_left l', max_eq_right l']
        exact m
      · have l' := key_le_iff.2 l
        rw [min_eq_right l, max_eq_left l, ← key_le_iff, ← key_le_iff] at m
        rw [min_eq_right l', max_eq_left l']
        exact m
    have km : g ∣ (mid a b).key := hm _ mi.1 mk.1 mk.2
    generalize hM : mid a b = M at *
    obtain ⟨p, hp⟩ := ka
    obtain ⟨q, hq⟩ := kb
    obtain ⟨r, hr⟩ := km
    have pr : r ≠ p := by rintro rfl; exact c.1 (by rw [hr, hp])
    have qr : r ≠ q := by rintro rfl; exact c.2 (by rw [hr, hq])
    have hpq : |p - q| ≤ k + 1 := by
      rw [hp, hq, ← mul_sub, abs_mul, abs_of_pos hg, mul_comm] at hd
      have := le_of_mul_le_mul_right hd hg
      push_cast at this
      exact this
    have order : (p ≤ r ∧ r ≤ q) ∨ (q ≤ r ∧ r ≤ p) := by
      rcases le_total a.key b.key with l | l
      · rw [min_eq_left l, max_eq_right l, hp, hq, hr] at mk
        exact .inl ⟨le_of_mul_le_mul_left mk.1 hg, le_of_mul_le_mul_left mk.2 hg⟩
      · rw [min_eq_right l, max_eq_left l, hp, hq, hr] at mk
        exact .inr ⟨le_of_mul_le_mul_left mk.1 hg, le_of_mul_le_mul_left mk.2 hg⟩
    have d1 : |p - r| ≤ k := by rw [_root_.abs_le] at hpq ⊢; omega
    have d2 : |r - q| ≤ k := by rw [_root_.abs_le] at hpq ⊢; omega
    refine ⟨?_, ?_⟩
    · rw [hM]
      refine ih ha mi (fun z fz z1 z2 => hm z fz ?_ ?_) ?_
      · exact le_trans (le_min (min_le_left _ _) mk.1) z1
      · exact le_trans z2 (max_le (le_max_left _ _) mk.2)
      · rw [hp, hr, ← mul_sub, abs_mul, abs_of_pos hg, mul_comm]
        exact mul_le_mul_of_nonneg_right d1 hg.le
    · rw [hM]
      refine ih mi hb (fun z fz z1 z2 => hm z fz ?_ ?_) ?_
      · exact le_trans (le_min mk.1 (min_le_right _ _)) z1
      · exact le_trans z2 (max_le mk.2 (le_max_right _ _))
      · rw [hr, hq, ← mul_sub, abs_mul, abs_of_pos hg, mul_comm]
        exact mul_le_mul_of_nonneg_right d2 hg.le

theorem dvd_key_of_le {n : ℕ} {z : F32} (fz : z.IsFin = true) (h : n ≤ z.key.natAbs) : ((2 ^ ulpExp n : ℕ) : ℤ) ∣ z.key := by
  rw [Int.natCast_dvd]
  exact dvd_trans (pow_dvd_pow 2 (ulpExp_mono h)) (rep_of_isFin fz).1

/-- Two numbers close together for their magnitude: at most 32 steps apart. -/
theorem enough_of_close {a b : F32} (ha : InHalf a) (hb : InHalf b)
    (h : |a.key - b.key| < 32 ∨ 2 ^ 20 * |a.key - b.key| < |a.key| ∨ 2 ^ 20 * |a.key - b.key| < |b.key|) : Enough 32 a b := by
  by_cases c : |a.key - b.key| < 32
  · exact enough_of_step ha hb 1 one_pos 32 (fun z _ _ _ => one_dvd _) (by push_cast; omega)
  have h' := h.resolve_left c
  clear h
  -- the numbers have the same sign; `n` is the smaller magnitude
  have key : ∀ n : ℕ, (n = a.key.natAbs ∨ n = b.key.natAbs) → n ≤ a.key.natAbs → n ≤ b.key.natAbs →
      (∀ z : F32, min a.key b.key ≤ z.key → z.key ≤ max a.key b.key → n ≤ z.key.natAbs) → 
      2 ^ 20 * (a.key - b.key).natAbs < 2 * n → Enough 32 a b := by
    intro n _ _ _ hz hn
    refine enough_of_step ha hb ((2 ^ ulpExp n : ℕ) : ℤ) (by positivity) 32 (fun z fz z1 z2 => dvd_key_of_le fz (hz z z1 z2)) ?_
    have u := lt_ulp n
    rw [pow_add] at u
    have : 2 ^ 20 * (a.key - b.key).natAbs < 2 ^ 20 * (32 * 2 ^ ulpExp n) := by
      calc 2 ^ 20 * (a.key - b.key).natAbs < 2 * n := hn
        _ < 2 * (2 ^ ulpExp n * 2 ^ 24) := by linarith
        _ = 2 ^ 20 * (32 * 2 ^ ulpExp n) := by ring
    have := lt_of_mul_lt_mul_left this (by norm_num)
    rw [← Int.natCast_natAbs]
    exact_mod_cast this.le
  have a0 : |a.key| = a.key ∨ |a.key| = -a.key := abs_choice _
  have b0 : |b.key| = b.key ∨ |b.key| = -b.key := abs_choice _
  have d0 : |a.key - b.key| = a.key - b.key ∨ |a.key - b.key| = -(a.key - b.key) := abs_choice _
  have a1 := abs_nonneg a.key
  have b1 := abs_nonneg b.key
  have d1 := abs_nonneg (a.key - b.key)
  refine key (min a.key.natAbs b.key.natAbs) ?_ (min_le_left _ _) (min_le_right _ _) ?_ ?_
  · rcases min_choice a.key.natAbs b.key.natAbs with h | h
    · exact .inl h
    · exact .inr h
  · intro z z1 z2
    omega
  · omega

/-- Enough halvings for any interval. -/
theorem enough_of_width {a b : F32} (ha : InHalf a) (hb : InHalf b) (n : ℕ) (h : |a.val - b.val| < (16 / 9) ^ n / 2 ^ 149) :
    Enough (n + 32) a b := by
  have e : ∀ x y : F32, |x.val - y.val| = ((|x.key - y.key| : ℤ) : ℚ) / 2 ^ 149 := by
    intro x y
    rw [Int.cast_abs, ← abs_of_pos (show (0 : ℚ) < 2 ^ 149 by positivity), ← abs_div]
    congr 1
    unfold val; push_cast; ring
  have e1 : ∀ x : F32, |x.val| = ((|x.key| : ℤ) : ℚ) / 2 ^ 149 := by
    intro x
    rw [Int.cast_abs, ← abs_of_pos (show (0 : ℚ) < 2 ^ 149 by positivity), ← abs_div]
    rfl
  induction n generalizing a b with
  | zero =>
    refine Enough.mono ha hb (enough_of_close ha hb (.inl ?_)) (by omega)
    rw [e, pow_zero, div_lt_div_iff_of_pos_right (by positivity)] at h
    have : |a.key - b.key| < 1 := by exact_mod_cast h
    omega
  | succ n ih =>
    by_cases c : |a.key - b.key| < 32 ∨ 2 ^ 20 * |a.key - b.key| < |a.key| ∨ 2 ^ 20 * |a.key - b.key| < |b.key|
    · exact Enough.mono ha hb (enough_of_close ha hb c) (by omega)
    push Not at c
    have s := mid_shrinks ha hb
      (by
        rw [e, e1, ← mul_div_assoc, div_le_div_iff_of_pos_right (by positivity)]
        exact_mod_cast c.2.1)
      (by
        rw [e, e1, ← mul_div_assoc, div_le_div_iff_of_pos_right (by positivity)]
        exact_mod_cast c.2.2)
      (by
        rw [e, le_div_iff₀ (by positivity)]
        have : ((32 : ℤ) : ℚ) ≤ ((|a.key - b.key| : ℤ) : ℚ) := by exact_mod_cast c.1
        refine le_trans ?_ this
        norm_num)
    have w : 9 / 16 * |a.val - b.val| < (16 / 9) ^ n / 2 ^ 149 := by
      rw [pow_succ] at h
      have : 9 / 16 * ((16 / 9) ^ n * (16 / 9) / 2 ^ 149) = ((16 / 9) ^ n / 2 ^ 149 : ℚ) := by ring
      linarith
    have mi := mid_in_half ha hb
    rw [show n + 1 + 32 = (n + 32) + 1 by ring]
    exact ⟨ih ha mi (lt_of_le_of_lt s.1 w), ih mi hb (lt_of_le_of_lt s.2 w)⟩

set_option exponentiation.threshold 400 in
/-- 366 halvings are enough for any two numbers. -/
theorem enough_always {a b : F32} (ha : InHalf a) (hb : InHalf b) : Enough 366 a b := by
  refine enough_of_width ha hb 334 ?_
  have := abs_sub a.val b.val
  have := ha.2
  have := hb.2
  refine lt_trans (b := 2 ^ 128) (by linarith) ?_
  norm_num

/-! ### The loop, for points of any number of components -/

section Loop

variable {P : Type} {n : ℕ} (coord : P → Fin n → F32) (half : P → P → P) (same : P → P → Bool) (inside : P → Bool)

theorem round_ends (s : P × P) :
    (inside s.1 = false → inside (bisectRound half same inside s).1 = false) ∧
    (inside s.2 = true → inside (bisectRound half same inside s).2 = true) := by
  unfold bisectRound
  split
  · exact ⟨id, id⟩
  split
  · exact ⟨id, fun _ => by assumption⟩
  · rename_i h
    exact ⟨fun _ => by simpa using h, id⟩

theorem iterate_ends (a b : P) (h0 : inside a = false) (h1 : inside b = true) (k : ℕ) :
    inside ((bisectRound half same inside)^[k] (a, b)).1 = false ∧ inside ((bisectRound half same inside)^[k] (a, b)).2 = true := by
  induction k with
  | zero => exact ⟨h0, h1⟩
  | succ k ih =>
    rw [Function.iterate_succ_apply']
    have := round_ends half same inside ((bisectRound half same inside)^[k] (a, b))
    exact ⟨this.1 ih.1, this.2 ih.2⟩

variable (hmid : ∀ a b i, coord (half a b) i = mid (coord a i) (coord b i))
  (hsame : ∀ a b, same a b = true ↔ ∀ i, (coord a i == coord b i) = true)

/-- what is known of a state: its ends are in the half range -/
def PairInHalf (s : P × P) : Prop := ∀ i, InHalf (coord s.1 i) ∧ InHalf (coord s.2 i)

include hmid in
theorem pairInHalf_round {s : P × P} (h : PairInHalf coord s) : PairInHalf coord (bisectRound half same inside s) := by
  unfold bisectRound
  split
  · exact h
  split
  · intro i; refine ⟨(h i).1, ?_⟩
    show InHalf (coord (half s.1 s.2) i)
    rw [hmid]; exact mid_in_half (h i).1 (h i).2
  · intro i; refine ⟨?_, (h i).2⟩
    show InHalf (coord (half s.1 s.2) i)
    rw [hmid]; exact mid_in_half (h i).1 (h i).2

include hmid in
theorem pairInHalf_iterate {s : P × P} (h : PairInHalf coord s) (k : ℕ) : PairInHalf coord ((bisectRound half same inside)^[k] s) := by
  induction k with
  | zero => exact h
  | succ k ih => rw [Function.iterate_succ_apply']; exact pairInHalf_round coord half same inside hmid ih

include hmid in
/-- the interval of every component only shrinks -/
theorem iterate_between {s : P × P} (h : PairInHalf coord s) (k : ℕ) (i : Fin n) :
    let t := (bisectRound half same inside)^[k] s
    min (coord s.1 i).val (coord s.2 i).val ≤ min (coord t.1 i).val (coord t.2 i).val ∧
    max (coord t.1 i).val (coord t.2 i).val ≤ max (coord s.1 i).val (coord s.2 i).val := by
  induction k with
  | zero => exact ⟨le_refl _, le_refl _⟩
  | succ k ih =>
    have hk := pairInHalf_iterate coord half same inside hmid h k
    rw [Function.iterate_succ_apply']
    generalize (bisectRound half same inside)^[k] s = t at *
    have m := mid_between (hk i).1 (hk i).2
    unfold bisectRound
    split
    · exact ih
    split
    · show _ ≤ min (coord t.1 i).val (coord (half t.1 t.2) i).val ∧ max (coord t.1 i).val (coord (half t.1 t.2) i).val ≤ _
      rw [hmid]
      exact ⟨le_trans ih.1 (le_min (min_le_left _ _) m.1), le_trans (max_le (le_max_left _ _) m.2) ih.2⟩
    · show _ ≤ min (coord (half t.1 t.2) i).val (coord t.2 i).val ∧ max (coord (half t.1 t.2) i).val (coord t.2 i).val ≤ _
      rw [hmid]
      exact ⟨le_trans ih.1 (le_min m.1 (min_le_right _ _)), le_trans (max_le m.2 (le_max_right _ _)) ih.2⟩

include hsame in
theorem same_iff {a b : P} (ha : ∀ i, (coord a i).IsFin = true) (hb : ∀ i, (coord b i).IsFin = true) :
    same a b = true ↔ ∀ i, (coord a i).val = (coord b i).val := by
  rw [hsame]
  refine forall_congr' fun i => ?_
  rw [beq_iff, key_eq_iff]
  exact ⟨fun h => h.2.2, fun h => ⟨isFin_ne_nan (ha i), isFin_ne_nan (hb i), h⟩⟩

include hmid hsame in
theorem stops_closed {s : P × P} (h : PairInHalf coord s) (hs : bisectStops half same s = true) (i : Fin n) :
    Closed (coord s.1 i) (coord s.2 i) := by
  have fm : ∀ i, (coord (half s.1 s.2) i).IsFin = true := fun i => by rw [hmid]; exact (mid_in_half (h i).1 (h i).2).1
  rw [bisectStops, Bool.or_eq_true, same_iff coord same hsame fm (fun i => (h i).1.1),
    same_iff coord same hsame fm (fun i => (h i).2.1)] at hs
  refine closed_of_mid (h i).1 (h i).2 ?_
  rw [← hmid]
  rcases hs with e | e
  · exact .inl (e i)
  · exact .inr (e i)

include hmid in
theorem enough_iterate {s : P × P} (h : PairInHalf coord s) (i : Fin n) (k j : ℕ) (he : Enough (k + j) (coord s.1 i) (coord s.2 i)) :
    let t := (bisectRound half same inside)^[k] s
    Enough j (coord t.1 i) (coord t.2 i) ∨ bisectStops half same t = true := by
  induction k generalizing s with
  | zero => rw [zero_add] at he; exact .inl he
  | succ k ih =>
    rw [Function.iterate_succ_apply]
    by_cases c : bisectStops half same s = true
    · right
      have fix : ∀ m, (bisectRound half same inside)^[m] s = s := by
        intro m
        induction m with
        | zero => rfl
        | succ m hm =>
          rw [Function.iterate_succ_apply', hm]
          unfold bisectRound
          rw [if_pos c]
      rw [show bisectRound half same inside s = s from fix 1, fix]
      exact c
    have r := pairInHalf_round coord half same inside hmid h
    refine ih r ?_
    rw [show k + 1 + j = (k + j) + 1 by ring] at he
    unfold bisectRound
    rw [if_neg c]
    split
    · show Enough _ (coord s.1 i) (coord (half s.1 s.2) i)
      rw [hmid]; exact he.1
    · show Enough _ (coord (half s.1 s.2) i) (coord s.2 i)
      rw [hmid]; exact he.2

include hmid hsame in
/-- one more round when every component is closed -/
theorem closed_round {s : P × P} (h : PairInHalf coord s) (hc : ∀ i, Closed (coord s.1 i) (coord s.2 i)) :
    bisectStops half same (bisectRound half same inside s) = true := by
  have hr := pairInHalf_round coord half same inside hmid h
  have fm : ∀ i, (coord (half (bisectRound half same inside s).1 (bisectRound half same inside s).2) i).IsFin = true :=
    fun i => by rw [hmid]; exact (mid_in_half (hr i).1 (hr i).2).1
  have st := same_iff coord same hsame fm (fun i => (hr i).1.1)
  have st2 := same_iff coord same hsame fm (fun i => (hr i).2.1)
  have self : ∀ {x y : F32}, InHalf x → InHalf y → x.val = y.val → (mid x y).val = x.val := by
    intro x y hx hy e
    have m := mid_between hx hy
    rw [e, min_self, max_self] at m
    rw [e]; exact le_antisymm m.2 m.1
  have congr : ∀ {x y z : F32}, InHalf x → InHalf y → InHalf z → y.val = z.val → (mid x y).val = (mid x z).val ∧ (mid y x).val = (mid z x).val := by
    intro x y z hx hy hz e
    have r : ∀ {u v w t : F32}, InHalf u → InHalf v → InHalf w → InHalf t → u.val = w.val → v.val = t.val → (mid u v).val = (mid w t).val := by
      intro u v w t hu hv hw ht e1 e2
      have s1 : (u + v).val = (w + t).val := by
        rw [add_fin hu.1 hv.1, add_fin hw.1 ht.1, e1, e2, ← key_eq_iff, key_round, key_round]
      rw [mid, mid, mul_fin (add_in_half hu hv) isFin_lit_half, mul_fin (add_in_half hw ht) isFin_lit_half, s1, ← key_eq_iff,
        key_round, key_round]
    exact ⟨r hx hy hx hz rfl e, r hy hx hz hx e rfl⟩
  by_cases c : bisectStops half same s = true
  · have : bisectRound half same inside s = s := by unfold bisectRound; rw [if_pos c]
    rw [this]; exact c
  rw [bisectStops, Bool.or_eq_true, st, st2]
  unfold bisectRound at hr ⊢
  rw [if_neg c] at hr ⊢
  split at hr
  · rename_i g
    rw [if_pos g]
    right
    intro i
    show (coord (half s.1 (half s.1 s.2)) i).val = (coord (half s.1 s.2) i).val
    rw [hmid, hmid]
    have mi := mid_in_half (h i).1 (h i).2
    rcases mid_of_closed (h i).1 (h i).2 (hc i) with e | e
    · rw [self (h i).1 mi e.symm, e]
    · rw [(congr (h i).1 mi (h i).2 e).1]
  · rename_i g
    rw [if_neg g]
    left
    intro i
    show (coord (half (half s.1 s.2) s.2) i).val = (coord (half s.1 s.2) i).val
    rw [hmid, hmid]
    have mi := mid_in_half (h i).1 (h i).2
    rcases mid_of_closed (h i).1 (h i).2 (hc i) with e | e
    · rw [(congr (h i).2 mi (h i).1 e).2]
    · rw [self mi (h i).2 e]

include hmid hsame in
/-- The loop is left after at most 367 rounds. -/
theorem bisect_stops {s : P × P} (h : PairInHalf coord s) : bisectStops half same ((bisectRound half same inside)^[367] s) = true := by
  rw [Function.iterate_succ_apply' _ 366]
  by_cases c : bisectStops half same ((bisectRound half same inside)^[366] s) = true
  · have : bisectRound half same inside ((bisectRound half same inside)^[366] s) = (bisectRound half same inside)^[366] s := by
      generalize (bisectRound half same inside)^[366] s = t at *
      unfold bisectRound; rw [if_pos c]
    rw [this]; exact c
  · refine closed_round coord half same inside hmid hsame (pairInHalf_iterate coord half same inside hmid h 366) fun i => ?_
    exact (enough_iterate coord half same inside hmid h i 366 0 (enough_always (h i).1 (h i).2)).resolve_right c

end Loop

end Zcm.F32
