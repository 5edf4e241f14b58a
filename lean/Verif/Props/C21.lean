import Verif.Lemmas.F32Mix
import Verif.Lemmas.F32Correct

/-!
# C21: fract lies in [0,1)

True for real numbers, for non-negative floats and for floats up to -1/2; false for some negative floats, where the result
rounds up to 1.0.
-/

set_option exponentiation.threshold 300

namespace Zcm

open F32

/-- C21 in exact arithmetic. -/
theorem C21_real (x : ℝ) (n : ℤ) :
    0 ≤ F.fract x ∧ F.fract x < 1 ∧ (F.fract x = 0 ↔ ∃ m : ℤ, x = m) ∧
    F.fract (x + n) = F.fract x ∧ F.floor x + F.fract x = x := by
  have e : ∀ y : ℝ, F.fract y = Int.fract y := fun y => rfl
  refine ⟨?_, ?_, ?_, ?_, ?_⟩
  · rw [e]; exact Int.fract_nonneg x
  · rw [e]; exact Int.fract_lt_one x
  · rw [e, Int.fract_eq_iff]
    constructor
    · rintro ⟨-, -, z, hz⟩; exact ⟨z, by simpa using hz⟩
    · rintro ⟨m, rfl⟩; exact ⟨le_rfl, one_pos, m, by simp⟩
  · rw [e, e, Int.fract_add_intCast]
  · rw [e]; exact Int.floor_add_fract x

/-- The full claim for finite floats. -/
def FractFloatSpec (fract : F32 → F32) (dom : F32 → Prop) : Prop :=
  ∀ x : F32, x.IsFin = true → dom x →
    (lit 0 : F32) ≤ fract x ∧ fract x < lit 1 ∧ ((fract x == lit 0) = true ↔ ∃ m : ℤ, x.val = m) ∧
    (F.floor x + fract x == x) = true

/-- the fractional part is computed without rounding error at and above 0 and at and below -1/2 -/
theorem fract_exact_far {x : F32} (hx : x.IsFin = true) (h : 0 ≤ x.val ∨ x.val ≤ -1 / 2) :
    (F.fract x).IsFin = true ∧ (F.fract x).val = Int.fract x.val := by
  rcases h with h | h
  · exact fract_exact hx h
  · have l1 := Int.floor_le x.val
    have l2 := Int.lt_floor_add_one x.val
    have neg : (⌊x.val⌋ : ℚ) ≤ x.val := l1
    have far : -(⌊x.val⌋ : ℚ) ≤ 2 * -x.val := by
      rcases le_total (-1) x.val with h1 | h1
      · have : (-1 : ℤ) ≤ ⌊x.val⌋ := Int.le_floor.2 (by push_cast; exact h1)
        have : (-1 : ℚ) ≤ ⌊x.val⌋ := by exact_mod_cast this
        linarith
      · linarith
    have s := sterbenz hx (isFin_floor hx) (by rw [val_floor hx]; nlinarith)
      (by rw [val_floor hx, _root_.abs_of_nonpos (by linarith), _root_.abs_of_nonpos (by linarith)]; linarith)
      (by rw [val_floor hx, _root_.abs_of_nonpos (by linarith), _root_.abs_of_nonpos (by linarith)]; linarith)
    rw [val_floor hx] at s
    exact s

/-- C21 for every finite float that is at least 0 or at most -1/2; missing: the floats in between, for which it is false. -/
theorem C21_float_partial : FractFloatSpec F.fract (fun x => (lit 0 : F32) ≤ x ∨ x ≤ lit (-1 / 2)) := by
  intro x hx h0
  have hv : 0 ≤ x.val ∨ x.val ≤ -1 / 2 := by
    rcases h0 with h0 | h0
    · have := h0.2.2
      rw [key_lit_zero] at this
      exact Or.inl (key_nonneg.1 this)
    · have := h0.2.2
      rw [key_le_iff, show (lit (-1 / 2) : F32).val = -1 / 2 by decide +kernel] at this
      exact Or.inr this
  obtain ⟨h1, h2⟩ := fract_exact_far hx hv
  have hn := isFin_ne_nan h1
  refine ⟨⟨by simp, hn, ?_⟩, ⟨hn, by simp, ?_⟩, ?_, ?_⟩
  · rw [key_le_iff, h2, val_lit_zero]; exact Int.fract_nonneg _
  · rw [key_lt_iff, h2, val_lit_one]; exact Int.fract_lt_one _
  · rw [beq_iff, key_lit_zero, key_eq_zero, h2, Int.fract_eq_iff]
    constructor
    · rintro ⟨-, -, -, -, z, hz⟩; exact ⟨z, by simpa using hz⟩
    · rintro ⟨m, hm⟩; exact ⟨hn, by simp, le_rfl, one_pos, m, by rw [hm]; simp⟩
  · have e : F.floor x + F.fract x = round ((F.floor x).sgn && (F.fract x).sgn) x.val := by
      rw [add_fin (isFin_floor hx) h1, val_floor hx, h2, Int.floor_add_fract]
    rw [beq_iff, e]
    exact ⟨round_ne_nan _ _, isFin_ne_nan hx, key_round_val hx _⟩

/-- the floats between -1/2 and 0 -/
private theorem fract_small {x : F32} (hx : x.IsFin = true) (h0 : x.val < 0) (h1 : -1 / 2 ≤ x.val) :
    (F.floor x).val = -1 ∧ F.fract x = round false (1 + x.val) ∧ (F.fract x).IsFin = true ∧ 1 / 2 ≤ (F.fract x).val ∧
    (F.fract x).val ≤ 1 := by
  have fl : ⌊x.val⌋ = -1 := Int.floor_eq_iff.2 ⟨by push_cast; linarith, by push_cast; linarith⟩
  have e : F.fract x = round false (1 + x.val) := by
    rw [fract_eq_round hx, Int.fract, fl]
    congr 1
    push_cast
    ring
  have g1 := le_key_round isFin_lit_half (x := 1 + x.val) (by rw [val_lit_half]; linarith) false
  have g2 := key_round_le isFin_lit_one (x := 1 + x.val) (by rw [val_lit_one]; linarith) false
  have f := isFin_round_of_between isFin_lit_half isFin_lit_one (x := 1 + x.val) (by rw [val_lit_half]; linarith)
    (by rw [val_lit_one]; linarith) false
  rw [key_le_iff, ← e] at g1 g2
  rw [val_lit_half] at g1
  rw [val_lit_one] at g2
  rw [← e] at f
  exact ⟨by rw [val_floor hx, fl]; norm_num, e, f, g1, g2⟩

/-- C21 for all finite floats, as far as it is true: the result is in `[0, 1]`, it is 1 exactly for `-2^-25 <= x < 0`, it is 0
exactly for integers, and `floor(x) + fract(x)` differs from `x` by at most `2^-25`. -/
theorem C21_float_all (x : F32) (hx : x.IsFin = true) :
    (lit 0 : F32) ≤ F.fract x ∧ F.fract x ≤ lit 1 ∧
    ((F.fract x == lit 1) = true ↔ -1 / 2 ^ 25 ≤ x.val ∧ x.val < 0) ∧
    ((F.fract x == lit 0) = true ↔ ∃ m : ℤ, x.val = m) ∧
    (F.floor x + F.fract x).IsFin = true ∧ |(F.floor x + F.fract x).val - x.val| ≤ 1 / 2 ^ 25 := by
  by_cases hm : x.val < 0 ∧ -1 / 2 < x.val
  · obtain ⟨h0, h1⟩ := hm
    obtain ⟨fl, e, f, l, u⟩ := fract_small hx h0 h1.le
    have hn := isFin_ne_nan f
    have c := (round_correct false (1 + x.val)).1
    rw [← e] at c
    have small : |((1 + x.val : ℚ) : ℝ)| ≤ 1 := by
      have : |1 + x.val| ≤ 1 := _root_.abs_le.2 ⟨by linarith, by linarith⟩
      exact_mod_cast this
    have near := (c (lt_of_le_of_lt small (by norm_num))).1
    have err : |(F.fract x).val - (1 + x.val)| ≤ 1 / 2 ^ 25 := by
      have r := abs_sub_round ((1 + x.val) * 2 ^ 24)
      have k0 : 0 ≤ _root_.round ((1 + x.val) * 2 ^ 24) := by
        rw [round_eq, Int.floor_nonneg]
        linarith
      have k1 : _root_.round ((1 + x.val) * 2 ^ 24) ≤ 2 ^ 24 := by
        rw [round_eq]
        refine Int.floor_le_iff.2 ?_
        push_cast
        linarith
      generalize _root_.round ((1 + x.val) * 2 ^ 24) = k at *
      obtain ⟨g, -, v⟩ := round_units_fin (n := k * 2 ^ 125) ⟨by
        rw [Int.natAbs_mul]
        exact rep'_mul_pow (by omega), by
        rw [Int.natAbs_mul]
        have : k.natAbs ≤ 2 ^ 24 := by omega
        calc k.natAbs * (2 ^ 125 : ℤ).natAbs ≤ 2 ^ 24 * 2 ^ 125 := Nat.mul_le_mul this (by norm_num)
          _ < _ := by norm_num⟩ false
      have n := near.2 _ g
      have n' : |(F.fract x).val - (1 + x.val)| ≤ |(round false (((k * 2 ^ 125 : ℤ) : ℚ) / 2 ^ 149)).val - (1 + x.val)| := by
        exact_mod_cast n
      refine n'.trans ?_
      rw [v, abs_sub_comm]
      have e : 1 + x.val - ((k * 2 ^ 125 : ℤ) : ℚ) / 2 ^ 149 = ((1 + x.val) * 2 ^ 24 - k) / 2 ^ 24 := by
        push_cast
        ring
      rw [e, abs_div, abs_of_pos (by norm_num : (0 : ℚ) < 2 ^ 24), div_le_iff₀ (by norm_num)]
      refine r.trans (by norm_num)
    refine ⟨⟨by simp, hn, ?_⟩, ⟨hn, by simp, ?_⟩, ?_, ?_, ?_⟩
    · rw [key_le_iff, val_lit_zero]; linarith
    · rw [key_le_iff, val_lit_one]; exact u
    · rw [beq_iff, key_eq_iff, val_lit_one]
      constructor
      · rintro ⟨-, -, h⟩
        rw [h] at err
        exact ⟨by linarith [(_root_.abs_le.1 err).2], h0⟩
      · rintro ⟨h, -⟩
        refine ⟨hn, by simp, le_antisymm u ?_⟩
        have m := key_round_mono (x := 1 - 1 / 2 ^ 25) (y := 1 + x.val) (by linarith) false false
        rw [show (round false (1 - 1 / 2 ^ 25) : F32) = lit 1 by decide +kernel, ← e, key_le_iff, val_lit_one] at m
        exact m
    · rw [beq_iff, key_eq_iff, val_lit_zero]
      constructor
      · rintro ⟨-, -, h⟩; linarith
      · rintro ⟨m, h⟩
        rw [h] at h0 h1
        have a : m < 0 := by exact_mod_cast h0
        have b : (-1 : ℚ) < m := by linarith
        have b : -1 < m := by exact_mod_cast b
        omega
    · obtain ⟨sf, sv⟩ := sterbenz f isFin_lit_one (by rw [val_lit_one]; linarith)
        (by rw [val_lit_one, abs_of_pos (by linarith), abs_one]; linarith)
        (by rw [val_lit_one, abs_one, abs_of_pos (by linarith)]; linarith)
      rw [val_lit_one] at sv
      obtain ⟨g, v⟩ := round_eq_val sf (x := -1 + (F.fract x).val) (by rw [sv]; ring) ((F.floor x).sgn && (F.fract x).sgn)
      rw [add_fin (isFin_floor hx) f, fl]
      refine ⟨g, ?_⟩
      rw [v, show -1 + (F.fract x).val - x.val = (F.fract x).val - (1 + x.val) by ring]
      exact err
  · have hm : 0 ≤ x.val ∨ x.val ≤ -1 / 2 := by
      rwa [not_and_or, not_lt, not_lt] at hm
    obtain ⟨f, v⟩ := fract_exact_far hx hm
    have hn := isFin_ne_nan f
    have l := Int.fract_nonneg x.val
    have u := Int.fract_lt_one x.val
    refine ⟨⟨by simp, hn, ?_⟩, ⟨hn, by simp, ?_⟩, ?_, ?_, ?_⟩
    · rw [key_le_iff, v, val_lit_zero]; exact l
    · rw [key_le_iff, v, val_lit_one]; exact u.le
    · rw [beq_iff, key_eq_iff, v, val_lit_one]
      constructor
      · rintro ⟨-, -, h⟩; linarith
      · rintro ⟨h, h'⟩
        exfalso
        norm_num at h
        rcases hm with hm | hm <;> linarith
    · rw [beq_iff, key_eq_iff, v, val_lit_zero, Int.fract_eq_iff]
      constructor
      · rintro ⟨-, -, -, -, z, hz⟩; exact ⟨z, by simpa using hz⟩
      · rintro ⟨m, h⟩; exact ⟨hn, by simp, le_rfl, one_pos, m, by rw [h]; simp⟩
    · rw [add_fin (isFin_floor hx) f, val_floor hx, v, Int.floor_add_fract]
      obtain ⟨g, w⟩ := round_eq_val hx rfl ((F.floor x).sgn && (F.fract x).sgn)
      refine ⟨g, ?_⟩
      rw [w, sub_self, abs_zero]
      norm_num

/-- C21 fails on all finite floats: the float nearest to -10⁻²⁰ has fract exactly 1. -/
theorem C21_float_false : ¬ FractFloatSpec F.fract (fun _ => True) := by
  intro h
  obtain ⟨-, h1, -, -⟩ := h (lit (-1/10^20)) (by decide +kernel) trivial
  revert h1
  decide +kernel

/-- Non-vacuity of the real statement and of `C21_float_partial`. -/
example : F.fract (2.25 : ℝ) = 0.25 := by
  have : ⌊(2.25 : ℝ)⌋ = 2 := by rw [Int.floor_eq_iff]; norm_num
  show (2.25 : ℝ) - (⌊(2.25 : ℝ)⌋ : ℝ) = 0.25
  rw [this]; norm_num
example : (lit 0 : F32) ≤ lit 2.25 ∧ F.fract (lit 2.25 : F32) = lit 0.25 := by decide +kernel
example : (lit (-2.75) : F32) ≤ lit (-1 / 2) ∧ F.fract (lit (-2.75) : F32) = lit 0.25 := by decide +kernel

end Zcm
