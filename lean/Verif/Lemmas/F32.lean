import Verif.Lemmas.Round
import Mathlib.Tactic.NormNum

/-!
# Lemmas on binary32 values
-/

set_option exponentiation.threshold 300

namespace Zcm.F32

/-- Rounded position on the number line, before the overflow test. -/
def uround (x : ℚ) : ℤ :=
  if x < 0 then -(roundUnits (|x| * 2 ^ 149) : ℤ) else roundUnits (|x| * 2 ^ 149)

/-- Overflow: positions are cut off at ±2²⁷⁷. -/
def cut (n : ℤ) : ℤ := max (-(2 ^ 277)) (min n (2 ^ 277))

theorem key_inf_false : (F32.inf false).key = 2 ^ 277 := rfl
theorem key_inf_true : (F32.inf true).key = -2 ^ 277 := rfl
theorem key_fin_false (k h) : (F32.fin false k h).key = k := rfl
theorem key_fin_true (k h) : (F32.fin true k h).key = -k := rfl

theorem units_nonneg (x : ℚ) : 0 ≤ |x| * 2 ^ 149 := by positivity

@[simp] theorem round_ne_nan (s : Bool) (x : ℚ) : round s x ≠ .nan := by
  unfold round pack; split_ifs <;> simp

@[simp] theorem pack_ne_nan (s : Bool) (k : ℕ) : pack s k ≠ .nan := by
  unfold pack; split_ifs <;> simp

theorem key_pack {k : ℕ} (h : Rep' k) (s : Bool) :
    (pack s k).key = if s then -(min (k : ℤ) (2 ^ 277)) else min (k : ℤ) (2 ^ 277) := by
  unfold pack
  by_cases hk : Rep k
  · rw [dif_pos hk]
    have : (k : ℤ) ≤ 2 ^ 277 := by exact_mod_cast hk.2.le
    simp only [key, min_eq_left this]
  · rw [dif_neg hk]
    have h2 : ¬ k < 2 ^ 277 := fun h' => hk ⟨h, h'⟩
    have : (2 : ℤ) ^ 277 ≤ k := by exact_mod_cast not_lt.1 h2
    simp only [key, min_eq_right this]

theorem key_round (s : Bool) (x : ℚ) : (round s x).key = cut (uround x) := by
  unfold round
  rw [key_pack (roundUnits_rep' (units_nonneg x))]
  have h0 : (0 : ℤ) ≤ (roundUnits (|x| * 2 ^ 149) : ℤ) := Int.natCast_nonneg _
  unfold cut uround
  rcases lt_trichotomy x 0 with h | h | h
  · simp only [if_neg h.ne, h, decide_true, if_true]
    omega
  · subst h
    have : roundUnits (|(0:ℚ)| * 2 ^ 149) = 0 := by simp [roundUnits_zero]
    rw [this]
    cases s <;> simp
  · have h1 : ¬ x < 0 := not_lt.2 h.le
    simp only [if_neg h.ne', h1, decide_false, if_false, Bool.false_eq_true]
    omega

theorem sgn_pack (s : Bool) (k : ℕ) : (pack s k).sgn = s := by
  unfold pack; split_ifs <;> rfl

theorem sgn_round (s : Bool) (x : ℚ) : (round s x).sgn = if x = 0 then s else decide (x < 0) :=
  sgn_pack _ _

theorem uround_mono {x y : ℚ} (h : x ≤ y) : uround x ≤ uround y := by
  unfold uround
  split_ifs with h1 h2 h2
  · have : roundUnits (|y| * 2 ^ 149) ≤ roundUnits (|x| * 2 ^ 149) := by
      apply roundUnits_mono (units_nonneg y)
      rw [abs_of_neg h1, abs_of_neg h2]
      gcongr
    omega
  · omega
  · exact absurd (h.trans_lt h2) h1
  · have : roundUnits (|x| * 2 ^ 149) ≤ roundUnits (|y| * 2 ^ 149) := by
      apply roundUnits_mono (units_nonneg x)
      rw [abs_of_nonneg (not_lt.1 h1), abs_of_nonneg (not_lt.1 h2)]
      gcongr
    omega

theorem cut_mono {m n : ℤ} (h : m ≤ n) : cut m ≤ cut n := by unfold cut; omega

theorem cut_of {n : ℤ} (h1 : -(2 ^ 277) ≤ n) (h2 : n ≤ 2 ^ 277) : cut n = n := by unfold cut; omega

theorem key_round_mono {x y : ℚ} (h : x ≤ y) (s t : Bool) : (round s x).key ≤ (round t y).key := by
  rw [key_round, key_round]; exact cut_mono (uround_mono h)

theorem uround_of_rep {n : ℤ} (h : Rep' n.natAbs) : uround ((n : ℚ) / 2 ^ 149) = n := by
  unfold uround
  have hp : (0 : ℚ) < 2 ^ 149 := by positivity
  have e : |(n : ℚ) / 2 ^ 149| * 2 ^ 149 = ((n.natAbs : ℕ) : ℚ) := by
    rw [abs_div, abs_of_pos hp, div_mul_cancel₀ _ hp.ne', Nat.cast_natAbs, Int.cast_abs]
  rw [e, roundUnits_of_rep' h]
  by_cases hn : n < 0
  · rw [if_pos (div_neg_of_neg_of_pos (by exact_mod_cast hn) hp)]; omega
  · rw [if_neg (not_lt.2 (div_nonneg (by exact_mod_cast not_lt.1 hn) hp.le))]; omega

theorem uround_zero : uround 0 = 0 := by
  have := uround_of_rep (n := 0) (rep'_of_lt (by norm_num))
  simpa using this

/-! ### Finite values -/

theorem isFin_ne_nan {a : F32} (h : a.IsFin = true) : a ≠ .nan := by rintro rfl; cases h

theorem rep_of_isFin {a : F32} (h : a.IsFin = true) : Rep a.key.natAbs := by
  cases a with
  | nan => cases h
  | inf s => cases h
  | fin s k hk => cases s <;> simpa [key] using hk

theorem key_bound (a : F32) : -(2 ^ 277) ≤ a.key ∧ a.key ≤ 2 ^ 277 := by
  cases a with
  | nan => simp [key]
  | inf s => cases s <;> simp [key]
  | fin s k hk =>
    have : (k : ℤ) < 2 ^ 277 := by exact_mod_cast hk.2
    cases s <;> simp [key] <;> omega

theorem key_bound_fin {a : F32} (h : a.IsFin = true) : -(2 ^ 277) < a.key ∧ a.key < 2 ^ 277 := by
  have := (rep_of_isFin h).2
  have : (a.key.natAbs : ℤ) < 2 ^ 277 := by exact_mod_cast this
  omega

theorem isFin_iff {a : F32} (h : a ≠ .nan) : a.IsFin = true ↔ -(2 ^ 277) < a.key ∧ a.key < 2 ^ 277 := by
  refine ⟨key_bound_fin, fun h' => ?_⟩
  cases a with
  | nan => exact absurd rfl h
  | inf s => cases s <;> simp [key] at h'
  | fin s k hk => rfl

theorem sgn_of_key_neg {a : F32} (h : a.key < 0) : a.sgn = true := by
  cases a with
  | nan => simp [key] at h
  | inf s => cases s <;> simp_all [key, sgn]
  | fin s k hk => cases s <;> simp_all [key, sgn]; omega

theorem sgn_of_key_pos {a : F32} (h : 0 < a.key) : a.sgn = false := by
  cases a with
  | nan => simp [key] at h
  | inf s => cases s <;> simp_all [key, sgn]
  | fin s k hk => cases s <;> simp_all [key, sgn]; omega

/-- A non-NaN value is determined by its position and its sign bit. -/
theorem eq_of_key_sgn {a b : F32} (ha : a ≠ .nan) (hb : b ≠ .nan) (hk : a.key = b.key)
    (hs : a.sgn = b.sgn) : a = b := by
  have hiff : a.IsFin = b.IsFin := by
    rw [Bool.eq_iff_iff, isFin_iff ha, isFin_iff hb, hk]
  cases a with
  | nan => exact absurd rfl ha
  | inf s => cases b with
    | nan => exact absurd rfl hb
    | inf t => simpa [sgn] using hs
    | fin t l hl => cases hiff
  | fin s k hk' => cases b with
    | nan => exact absurd rfl hb
    | inf t => cases hiff
    | fin t l hl =>
      simp only [sgn] at hs; subst hs
      have : k = l := by cases s <;> simpa [key] using hk
      subst this; rfl

/-- … and by its position alone when that is not zero. -/
theorem eq_of_key {a b : F32} (ha : a ≠ .nan) (hb : b ≠ .nan) (hk : a.key = b.key)
    (h0 : a.key ≠ 0) : a = b := by
  apply eq_of_key_sgn ha hb hk
  rcases lt_or_gt_of_ne h0 with h | h
  · rw [sgn_of_key_neg h, sgn_of_key_neg (hk ▸ h)]
  · rw [sgn_of_key_pos h, sgn_of_key_pos (hk ▸ h)]

theorem key_eq_val (a : F32) : (a.key : ℚ) = a.val * 2 ^ 149 := by
  unfold val; field_simp

theorem key_le_iff {a b : F32} : a.key ≤ b.key ↔ a.val ≤ b.val := by
  unfold val
  rw [div_le_div_iff_of_pos_right (by positivity)]
  exact_mod_cast Iff.rfl

theorem key_lt_iff {a b : F32} : a.key < b.key ↔ a.val < b.val := by
  unfold val
  rw [div_lt_div_iff_of_pos_right (by positivity)]
  exact_mod_cast Iff.rfl

theorem key_eq_iff {a b : F32} : a.key = b.key ↔ a.val = b.val := by
  rw [le_antisymm_iff, le_antisymm_iff, key_le_iff, key_le_iff]

theorem key_eq_zero {a : F32} : a.key = 0 ↔ a.val = 0 := by
  unfold val
  rw [div_eq_zero_iff]
  constructor
  · intro h; left; exact_mod_cast h
  · rintro (h | h)
    · exact_mod_cast h
    · exact absurd h (by positivity)

theorem key_nonneg {a : F32} : 0 ≤ a.key ↔ 0 ≤ a.val := by
  unfold val
  rw [le_div_iff₀ (by positivity), zero_mul]
  exact_mod_cast Iff.rfl

theorem key_pos {a : F32} : 0 < a.key ↔ 0 < a.val := by
  unfold val
  rw [lt_div_iff₀ (by positivity), zero_mul]
  exact_mod_cast Iff.rfl

theorem key_neg' {a : F32} : a.key < 0 ↔ a.val < 0 := by
  rw [← not_le, key_nonneg, not_le]

/-- Rounding a finite value changes nothing. -/
theorem key_round_val {a : F32} (h : a.IsFin = true) (s : Bool) : (round s a.val).key = a.key := by
  rw [key_round]
  unfold val
  rw [uround_of_rep (rep_of_isFin h).1]
  exact cut_of (key_bound a).1 (key_bound a).2

theorem round_val {a : F32} (h : a.IsFin = true) : round a.sgn a.val = a := by
  apply eq_of_key_sgn (round_ne_nan _ _) (isFin_ne_nan h) (key_round_val h _)
  rw [sgn_round]
  split_ifs with h0
  · rfl
  · rcases lt_or_gt_of_ne h0 with h1 | h1
    · rw [decide_eq_true h1, sgn_of_key_neg (key_neg'.2 h1)]
    · rw [decide_eq_false (not_lt.2 h1.le), sgn_of_key_pos (key_pos.2 h1)]

theorem round_val' {a : F32} (h : a.IsFin = true) (h0 : a.val ≠ 0) (s : Bool) : round s a.val = a := by
  rw [← round_val h]
  have h1 := round_val h
  conv_rhs => rw [h1]
  apply eq_of_key_sgn (round_ne_nan _ _) (isFin_ne_nan h)
  · rw [h1]; exact key_round_val h _
  · rw [sgn_round, h1, if_neg h0]
    rcases lt_or_gt_of_ne h0 with h1 | h1
    · rw [decide_eq_true h1, sgn_of_key_neg (key_neg'.2 h1)]
    · rw [decide_eq_false (not_lt.2 h1.le), sgn_of_key_pos (key_pos.2 h1)]

theorem le_key_round {a : F32} (h : a.IsFin = true) {x : ℚ} (hx : a.val ≤ x) (s : Bool) :
    a.key ≤ (round s x).key := by
  rw [← key_round_val h s]; exact key_round_mono hx s s

theorem key_round_le {a : F32} (h : a.IsFin = true) {x : ℚ} (hx : x ≤ a.val) (s : Bool) :
    (round s x).key ≤ a.key := by
  rw [← key_round_val h s]; exact key_round_mono hx s s

theorem isFin_round_of_between {a b : F32} (ha : a.IsFin = true) (hb : b.IsFin = true) {x : ℚ}
    (h1 : a.val ≤ x) (h2 : x ≤ b.val) (s : Bool) : (round s x).IsFin = true := by
  rw [isFin_iff (round_ne_nan _ _)]
  have := le_key_round ha h1 s
  have := key_round_le hb h2 s
  have := key_bound_fin ha
  have := key_bound_fin hb
  omega

/-! ### Operations on finite values -/

@[simp] theorem sgn_fin (s k h) : (fin s k h).sgn = s := rfl
@[simp] theorem isFin_fin (s k h) : (fin s k h).IsFin = true := rfl

theorem exists_fin {a : F32} (h : a.IsFin = true) : ∃ s k hk, a = .fin s k hk := by
  cases a with
  | nan => cases h
  | inf s => cases h
  | fin s k hk => exact ⟨s, k, hk, rfl⟩

theorem neg_nan : -(.nan : F32) = .nan := rfl
theorem neg_inf (s) : -(.inf s : F32) = .inf (!s) := rfl
theorem neg_fin (s k h) : -(.fin s k h : F32) = .fin (!s) k h := rfl

theorem add_fin {a b : F32} (ha : a.IsFin = true) (hb : b.IsFin = true) :
    a + b = round (a.sgn && b.sgn) (a.val + b.val) := by
  obtain ⟨s, k, hk, rfl⟩ := exists_fin ha
  obtain ⟨t, l, hl, rfl⟩ := exists_fin hb
  rfl

theorem mul_fin {a b : F32} (ha : a.IsFin = true) (hb : b.IsFin = true) :
    a * b = round (a.sgn ^^ b.sgn) (a.val * b.val) := by
  obtain ⟨s, k, hk, rfl⟩ := exists_fin ha
  obtain ⟨t, l, hl, rfl⟩ := exists_fin hb
  rfl

@[simp] theorem neg_neg' (a : F32) : - -a = a := by
  cases a <;> simp [Neg.neg, neg]

@[simp] theorem key_neg (a : F32) : (-a).key = -a.key := by
  cases a with
  | nan => rfl
  | inf s => cases s <;> simp [neg_inf, key]
  | fin s k h => cases s <;> simp [neg_fin, key]

@[simp] theorem val_neg (a : F32) : (-a).val = -a.val := by
  unfold val; rw [key_neg]; push_cast; ring

@[simp] theorem isFin_neg (a : F32) : (-a).IsFin = a.IsFin := by cases a <;> rfl

theorem sgn_neg {a : F32} (h : a ≠ .nan) : (-a).sgn = !a.sgn := by
  cases a with
  | nan => exact absurd rfl h
  | inf s => rfl
  | fin s k h => rfl

@[simp] theorem neg_eq_nan {a : F32} : -a = .nan ↔ a = .nan := by
  cases a <;> simp [Neg.neg, neg]

theorem sub_eq (a b : F32) : a - b = a + -b := rfl

theorem sub_fin {a b : F32} (ha : a.IsFin = true) (hb : b.IsFin = true) :
    a - b = round (a.sgn && !b.sgn) (a.val - b.val) := by
  rw [sub_eq, add_fin ha (by simpa using hb), val_neg, sgn_neg (isFin_ne_nan hb), sub_eq_add_neg]

theorem div_fin {a b : F32} (ha : a.IsFin = true) (hb : b.IsFin = true) (h0 : b.val ≠ 0) :
    a / b = round (a.sgn ^^ b.sgn) (a.val / b.val) := by
  obtain ⟨s, k, hk, rfl⟩ := exists_fin ha
  obtain ⟨t, l, hl, rfl⟩ := exists_fin hb
  have : l ≠ 0 := by
    rintro rfl
    apply h0; cases t <;> simp [val, key]
  show (if l = 0 then _ else _) = _
  rw [if_neg this]; rfl

theorem fma_fin {a b c : F32} (ha : a.IsFin = true) (hb : b.IsFin = true) (hc : c.IsFin = true) :
    FloatOps.fma a b c = round ((a.sgn ^^ b.sgn) && c.sgn) (a.val * b.val + c.val) := by
  obtain ⟨s, k, hk, rfl⟩ := exists_fin ha
  obtain ⟨t, l, hl, rfl⟩ := exists_fin hb
  obtain ⟨u, m, hm, rfl⟩ := exists_fin hc
  rfl

@[simp] theorem nan_add (a : F32) : (.nan : F32) + a = .nan := by cases a <;> rfl
@[simp] theorem add_nan (a : F32) : a + (.nan : F32) = .nan := by cases a <;> rfl
@[simp] theorem nan_sub (a : F32) : (.nan : F32) - a = .nan := by cases a <;> rfl
@[simp] theorem sub_nan (a : F32) : a - (.nan : F32) = .nan := by cases a <;> rfl
@[simp] theorem nan_mul (a : F32) : (.nan : F32) * a = .nan := by cases a <;> rfl
@[simp] theorem mul_nan (a : F32) : a * (.nan : F32) = .nan := by cases a <;> rfl
@[simp] theorem nan_div (a : F32) : (.nan : F32) / a = .nan := by cases a <;> rfl
@[simp] theorem div_nan (a : F32) : a / (.nan : F32) = .nan := by cases a <;> rfl

/-- Commutativity, bit for bit. -/
theorem add_comm' (a b : F32) : a + b = b + a := by
  cases a with
  | nan => simp
  | inf s => cases b with
    | nan => simp
    | inf t => show (if s = t then _ else _) = (if t = s then _ else _)
               by_cases h : s = t
               · rw [if_pos h, if_pos h.symm, h]
               · rw [if_neg h, if_neg (Ne.symm h)]
    | fin t l g => rfl
  | fin s k h => cases b with
    | nan => simp
    | inf t => rfl
    | fin t l g => rw [add_fin rfl rfl, add_fin rfl rfl, Bool.and_comm, add_comm]

theorem mul_comm' (a b : F32) : a * b = b * a := by
  cases a with
  | nan => simp
  | inf s => cases b with
    | nan => simp
    | inf t => show F32.inf (s ^^ t) = F32.inf (t ^^ s)
               rw [Bool.xor_comm]
    | fin t l g => show (if l = 0 then F32.nan else .inf (s ^^ t)) = (if l = 0 then F32.nan else .inf (t ^^ s))
                   rw [Bool.xor_comm]
  | fin s k h => cases b with
    | nan => simp
    | inf t => show (if k = 0 then F32.nan else .inf (s ^^ t)) = (if k = 0 then F32.nan else .inf (t ^^ s))
               rw [Bool.xor_comm]
    | fin t l g => rw [mul_fin rfl rfl, mul_fin rfl rfl, Bool.xor_comm, mul_comm]

/-! ### Comparisons -/

theorem lt_iff {a b : F32} : a < b ↔ a ≠ .nan ∧ b ≠ .nan ∧ a.key < b.key := Iff.rfl
theorem le_iff {a b : F32} : a ≤ b ↔ a ≠ .nan ∧ b ≠ .nan ∧ a.key ≤ b.key := Iff.rfl
theorem beq_iff {a b : F32} : (a == b) = true ↔ a ≠ .nan ∧ b ≠ .nan ∧ a.key = b.key := by
  show F32.beq a b = true ↔ _
  simp [F32.beq]

@[simp] theorem nan_lt (a : F32) : ¬ (.nan : F32) < a := fun h => h.1 rfl
@[simp] theorem lt_nan (a : F32) : ¬ a < (.nan : F32) := fun h => h.2.1 rfl
@[simp] theorem nan_le (a : F32) : ¬ (.nan : F32) ≤ a := fun h => h.1 rfl
@[simp] theorem le_nan (a : F32) : ¬ a ≤ (.nan : F32) := fun h => h.2.1 rfl
@[simp] theorem nan_beq (a : F32) : ((.nan : F32) == a) = false := by
  rw [← Bool.not_eq_true, beq_iff]; simp
@[simp] theorem beq_nan (a : F32) : (a == (.nan : F32)) = false := by
  rw [← Bool.not_eq_true, beq_iff]; simp

/-! ### The literals 0, 1, -1 -/

theorem rep_one : Rep (2 ^ 149) := by decide +kernel

theorem lit_zero : (lit 0 : F32) = .fin false 0 rep_zero := by decide +kernel
theorem lit_one : (lit 1 : F32) = .fin false (2 ^ 149) rep_one := by decide +kernel

@[simp] theorem key_lit_zero : (lit 0 : F32).key = 0 := by rw [lit_zero]; rfl
@[simp] theorem val_lit_zero : (lit 0 : F32).val = 0 := by rw [lit_zero]; simp [val, key]
@[simp] theorem val_lit_one : (lit 1 : F32).val = 1 := by
  rw [lit_one]; simp only [val, key, Bool.false_eq_true, if_false]; norm_num
@[simp] theorem key_lit_one : (lit 1 : F32).key = 2 ^ 149 := by rw [lit_one]; simp [key]
@[simp] theorem isFin_lit_zero : (lit 0 : F32).IsFin = true := by rw [lit_zero]; rfl
@[simp] theorem isFin_lit_one : (lit 1 : F32).IsFin = true := by rw [lit_one]; rfl
@[simp] theorem sgn_lit_zero : (lit 0 : F32).sgn = false := by rw [lit_zero]; rfl
@[simp] theorem sgn_lit_one : (lit 1 : F32).sgn = false := by rw [lit_one]; rfl
@[simp] theorem lit_zero_ne_nan : (lit 0 : F32) ≠ .nan := round_ne_nan _ _
@[simp] theorem lit_one_ne_nan : (lit 1 : F32) ≠ .nan := round_ne_nan _ _
theorem lit_ne_nan (q : ℚ) : (lit q : F32) ≠ .nan := round_ne_nan _ _

/-- Multiplication by 1 is exact for every value, NaN and infinities included. -/
@[simp] theorem mul_one' (a : F32) : a * lit 1 = a := by
  cases a with
  | nan => simp
  | inf s =>
    rw [lit_one]
    show (if 2 ^ 149 = 0 then F32.nan else .inf (s ^^ false)) = _
    simp
  | fin s k h =>
    rw [mul_fin rfl isFin_lit_one, val_lit_one, sgn_lit_one, mul_one, Bool.xor_false]
    exact round_val rfl

@[simp] theorem one_mul' (a : F32) : lit 1 * a = a := by rw [mul_comm', mul_one']

theorem pack_neg (s : Bool) (k : ℕ) : pack (!s) k = -pack s k := by
  unfold pack; split_ifs <;> rfl

theorem round_neg (s : Bool) (x : ℚ) : round (!s) (-x) = -round s x := by
  unfold round
  rw [abs_neg, ← pack_neg]
  congr 1
  rcases lt_trichotomy x 0 with h | h | h
  · rw [if_neg (by linarith [h] : ¬ -x = 0), if_neg h.ne, decide_eq_true h,
      decide_eq_false (by linarith : ¬ -x < 0)]; rfl
  · subst h; simp
  · rw [if_neg (by linarith [h] : ¬ -x = 0), if_neg h.ne', decide_eq_false (by linarith : ¬ x < 0),
      decide_eq_true (by linarith : -x < 0)]; rfl

theorem mul_neg' (a b : F32) : a * -b = -(a * b) := by
  cases a with
  | nan => simp [Neg.neg, neg]
  | inf s => cases b with
    | nan => rfl
    | inf t => show F32.inf (s ^^ !t) = F32.inf (!(s ^^ t))
               simp
    | fin t l g => show (if l = 0 then F32.nan else .inf (s ^^ !t)) = F32.neg (if l = 0 then F32.nan else .inf (s ^^ t))
                   split_ifs <;> simp [neg]
  | fin s k h => cases b with
    | nan => rfl
    | inf t => show (if k = 0 then F32.nan else .inf (s ^^ !t)) = F32.neg (if k = 0 then F32.nan else .inf (s ^^ t))
               split_ifs <;> simp [neg]
    | fin t l g =>
      rw [mul_fin rfl rfl, mul_fin rfl rfl, val_neg, sgn_neg (by simp), mul_neg, Bool.xor_not, round_neg]

theorem neg_mul' (a b : F32) : -a * b = -(a * b) := by
  rw [mul_comm', mul_neg', mul_comm']

/-- `b - a` is `-(a - b)`, or both are the same NaN or zero. -/
theorem sub_swap (a b : F32) : b - a = -(a - b) ∨ b - a = a - b := by
  cases a with
  | nan => left; simp [sub_eq, neg_nan]
  | inf s => cases b with
    | nan => left; simp [sub_eq, neg_nan]
    | inf t => cases s <;> cases t <;> decide +kernel
    | fin t l g => left; cases s <;> cases t <;> rfl
  | fin s k h => cases b with
    | nan => left; simp [sub_eq, neg_nan]
    | inf t => left; cases s <;> cases t <;> rfl
    | fin t l g =>
      rw [sub_fin (a := .fin s k h) rfl rfl, sub_fin (a := .fin t l g) rfl rfl]
      by_cases h0 : (F32.fin s k h).val - (F32.fin t l g).val = 0
      · have e : (F32.fin t l g).val = (F32.fin s k h).val := by linarith
        rw [e, sub_self]
        cases s <;> cases t
        · right; rfl
        · left; rw [← round_neg, neg_zero]; rfl
        · left; rw [← round_neg, neg_zero]; rfl
        · right; rfl
      · left
        rw [← round_neg, neg_sub]
        unfold round
        rw [if_neg (fun h => h0 (by linarith)), if_neg (fun h => h0 (by linarith))]

/-- squares of differences do not depend on the order -/
theorem sub_sq_comm (a b : F32) : (a - b) * (a - b) = (b - a) * (b - a) := by
  rcases sub_swap a b with h | h <;> rw [h]
  rw [neg_mul', mul_neg', neg_neg']

theorem fabs_neg (a : F32) : FloatOps.fabs (-a) = FloatOps.fabs a := by
  cases a <;> rfl

theorem fabs_sub_comm (a b : F32) : FloatOps.fabs (a - b) = FloatOps.fabs (b - a) := by
  rcases sub_swap a b with h | h <;> rw [h]
  rw [fabs_neg]

end Zcm.F32
