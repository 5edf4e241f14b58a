import Verif.Lemmas.F32Exact
import Verif.Lemmas.F32Fract
import Verif.Lemmas.F32Unit
import Verif.Spec.Clip

/-!
# `mod` in binary32
-/

set_option exponentiation.threshold 300

namespace Zcm.F32

/-- Below `2^24` rounding does not pass an integer. -/
theorem round_between_ints {r : ℚ} (h : |r| ≤ 2 ^ 24) (s : Bool) :
    (round s r).IsFin = true ∧ (⌊r⌋ : ℚ) ≤ (round s r).val ∧ (round s r).val ≤ ⌈r⌉ := by
  have hb := _root_.abs_le.1 h
  have f1 : |⌊r⌋| ≤ 2 ^ 24 := by
    rw [_root_.abs_le]
    refine ⟨Int.le_floor.2 (by push_cast; exact hb.1), ?_⟩
    have : (⌊r⌋ : ℚ) ≤ 2 ^ 24 := (Int.floor_le r).trans hb.2
    exact_mod_cast this
  have f2 : |⌈r⌉| ≤ 2 ^ 24 := by
    rw [_root_.abs_le]
    refine ⟨?_, Int.ceil_le.2 (by push_cast; exact hb.2)⟩
    have : -(2 ^ 24 : ℚ) ≤ ⌈r⌉ := hb.1.trans (Int.le_ceil r)
    exact_mod_cast this
  obtain ⟨a1, a2⟩ := isInt_round f1 s
  obtain ⟨b1, b2⟩ := isInt_round f2 s
  refine ⟨isFin_round (h.trans (by norm_num)), ?_, ?_⟩
  · rw [← a2]
    exact key_le_iff.1 (key_round_mono (Int.floor_le r) s s)
  · rw [← b2]
    exact key_le_iff.1 (key_round_mono (Int.le_ceil r) s s)

/-- The integer multiple `mod` subtracts. -/
theorem floor_quotient {x y : F32} (hx : x.IsFin = true) (hy : y.IsFin = true) (h0 : y.val ≠ 0) (hq : |x.val| ≤ 2 ^ 24 * |y.val|) :
    ∃ n : ℤ, IsInt (F.floor (x / y)) n ∧
      (n = ⌊x.val / y.val⌋ ∨ n = ⌊x.val / y.val⌋ + 1 ∧ |x.val - n * y.val| ≤ |x.val| / 2 ^ 24 + |y.val| / 2 ^ 150) := by
  have y0 : 0 < |y.val| := abs_pos.2 h0
  have hr : |x.val / y.val| ≤ 2 ^ 24 := by rwa [abs_div, div_le_iff₀ y0]
  rw [div_fin hx hy h0]
  generalize (x.sgn ^^ y.sgn) = s
  obtain ⟨f, l, u⟩ := round_between_ints hr s
  have e := round_error f
  generalize hq : round s (x.val / y.val) = q at *
  refine ⟨⌊q.val⌋, ⟨isFin_floor f, val_floor f⟩, ?_⟩
  have n1 : ⌊x.val / y.val⌋ ≤ ⌊q.val⌋ := Int.le_floor.2 l
  have n2 : ⌊q.val⌋ ≤ ⌈x.val / y.val⌉ := by
    have : (⌊q.val⌋ : ℚ) ≤ ⌈x.val / y.val⌉ := (Int.floor_le _).trans u
    exact_mod_cast this
  have n3 := Int.ceil_le_floor_add_one (x.val / y.val)
  rcases n1.eq_or_lt with h | h
  · exact .inl h.symm
  right
  have n4 : ⌊q.val⌋ = ⌊x.val / y.val⌋ + 1 := by omega
  have n5 : ⌊q.val⌋ = ⌈x.val / y.val⌉ := by omega
  have v : q.val = (⌊q.val⌋ : ℚ) := le_antisymm (by rw [n5]; exact u) (Int.floor_le _)
  refine ⟨n4, ?_⟩
  rw [v] at e
  have k : x.val - (⌊q.val⌋ : ℚ) * y.val = -((⌊q.val⌋ : ℚ) - x.val / y.val) * y.val := by field_simp; ring
  rw [k, abs_mul, abs_neg]
  calc _ ≤ (|x.val / y.val| / 2 ^ 24 + 1 / 2 ^ 150) * |y.val| := by gcongr
    _ = _ := by rw [abs_div]; field_simp

theorem mod_near {x y : F32} (hx : x.IsFin = true) (hy : y.IsFin = true) (h0 : y.val ≠ 0) (hq : |x.val| ≤ 2 ^ 24 * |y.val|)
    (bx : |x.val| ≤ 2 ^ 126) (yb : |y.val| ≤ 2 ^ 125) :
    ∃ n : ℤ, (F.mod x y).IsFin = true ∧ |(F.mod x y).val - (x.val - n * y.val)| ≤ (|x.val| + 4 * |y.val|) / 2 ^ 24 + 1 / 2 ^ 148 ∧
      (n = ⌊x.val / y.val⌋ ∨ n = ⌊x.val / y.val⌋ + 1 ∧ |x.val - n * y.val| ≤ |x.val| / 2 ^ 24 + |y.val| / 2 ^ 150) := by
  obtain ⟨n, ⟨f, v⟩, hn⟩ := floor_quotient hx hy h0 hq
  have y0 : 0 < |y.val| := abs_pos.2 h0
  have x0 := abs_nonneg x.val
  -- how far `n y` is from `x`
  have hd : |x.val - n * y.val| ≤ |y.val| := by
    have e : x.val - n * y.val = (x.val / y.val - n) * y.val := by field_simp
    rw [e, abs_mul]
    refine mul_le_of_le_one_left y0.le ?_
    have a := Int.floor_le (x.val / y.val)
    have b := Int.lt_floor_add_one (x.val / y.val)
    rcases hn with rfl | ⟨rfl, -⟩
    · rw [_root_.abs_le]; constructor <;> linarith
    · push_cast; rw [_root_.abs_le]; constructor <;> linarith
  have hp : |(n : ℚ) * y.val| ≤ |x.val| + |y.val| := by
    have := abs_sub_abs_le_abs_sub ((n : ℚ) * y.val) x.val
    rw [abs_sub_comm] at this
    linarith
  refine ⟨n, ?_⟩
  unfold F.mod
  have pf : (y * F.floor (x / y)).IsFin = true := by
    rw [mul_fin hy f, v]
    apply isFin_round
    rw [mul_comm]
    norm_num at *
    linarith
  have pe : |(y * F.floor (x / y)).val - n * y.val| ≤ (|x.val| + |y.val|) / 2 ^ 24 + 1 / 2 ^ 150 := by
    have := mul_error hy f pf
    rw [v, mul_comm y.val] at this
    refine this.trans ?_
    gcongr
  generalize y * F.floor (x / y) = p at *
  have hs : |x.val - p.val| ≤ |y.val| + ((|x.val| + |y.val|) / 2 ^ 24 + 1 / 2 ^ 150) := by
    have := abs_sub_le x.val (n * y.val) p.val
    rw [abs_sub_comm (n * y.val)] at this
    linarith
  have sf : (x - p).IsFin = true := by
    rw [sub_fin hx pf]
    apply isFin_round
    norm_num at *
    linarith
  refine ⟨sf, ?_, hn⟩
  have se := sub_error hx pf sf
  have t := abs_sub_le (x - p).val (x.val - p.val) (x.val - n * y.val)
  rw [show x.val - p.val - (x.val - n * y.val) = -(p.val - n * y.val) by ring, abs_neg] at t
  have u : |x.val - p.val| / 2 ^ 24 ≤ 2.1 * |y.val| / 2 ^ 24 + 1 / 2 ^ 149 := by
    norm_num at hs hq ⊢
    linarith
  norm_num at se pe u t ⊢
  linarith

/-- `mod` leaves what is between 0 and `y` alone. -/
theorem mod_small {x y : F32} (hx : x.IsFin = true) (hy : y.IsFin = true) (h0 : 0 ≤ x.val) (h : x.val < y.val) :
    (F.mod x y == x) = true := by
  have y0 : 0 < y.val := lt_of_le_of_lt h0 h
  have g := gap24_of_lt hx hy h0 h
  have p : (lit (1 - 1 / 2 ^ 24) : F32).IsFin = true ∧ (lit (1 - 1 / 2 ^ 24) : F32).val = 1 - 1 / 2 ^ 24 := by decide +kernel
  have r0 : 0 ≤ x.val / y.val := by positivity
  have r1 : x.val / y.val ≤ 1 - 1 / 2 ^ 24 := by
    rw [div_le_iff₀ y0]
    norm_num at *
    linarith
  have q : (x / y).IsFin = true ∧ 0 ≤ (x / y).val ∧ (x / y).val ≤ 1 - 1 / 2 ^ 24 := by
    rw [div_fin hx hy y0.ne']
    refine ⟨isFin_round ?_, ?_, ?_⟩
    · rw [abs_of_nonneg r0]; norm_num at *; linarith
    · have := key_round_mono r0 false (x.sgn ^^ y.sgn)
      have z : (round false 0).val = 0 := val_lit_zero
      rw [← z]
      exact key_le_iff.1 this
    · rw [← p.2]
      exact key_le_iff.1 (key_round_le p.1 (by rw [p.2]; exact r1) _)
  have fl : ⌊(x / y).val⌋ = 0 := by
    rw [Int.floor_eq_iff]
    refine ⟨by exact_mod_cast q.2.1, ?_⟩
    have := q.2.2
    norm_num at *
    linarith
  have vf : (F.floor (x / y)).val = 0 := by rw [val_floor q.1, fl]; norm_num
  have ff := isFin_floor q.1
  unfold F.mod
  have vp : (y * F.floor (x / y)).IsFin = true ∧ (y * F.floor (x / y)).val = 0 := by
    rw [mul_fin hy ff, vf, mul_zero]
    generalize (y.sgn ^^ (F.floor (x / y)).sgn) = s
    cases s <;> decide +kernel
  generalize y * F.floor (x / y) = z at *
  have e : (x - z).IsFin = true ∧ (x - z).val = x.val := by
    rw [sub_fin hx vp.1, vp.2, sub_zero]
    exact round_eq_val hx rfl _
  rw [beq_iff]
  exact ⟨isFin_ne_nan e.1, isFin_ne_nan hx, key_eq_iff.2 e.2⟩

/-- `mod` of integers is exact. -/
theorem mod_int {x y : F32} {a b : ℤ} (hx : IsInt x a) (hy : IsInt y b) (ha : |a| ≤ 2 ^ 23) (hb : |b| ≤ 2 ^ 23) (h0 : b ≠ 0) :
    ∃ r, IsInt (F.mod x y) r ∧ b ∣ a - r ∧ (0 < b → 0 ≤ r ∧ r < b) ∧ (b < 0 → b < r ∧ r ≤ 0) := by
  obtain ⟨fx, vx⟩ := hx
  obtain ⟨fy, vy⟩ := hy
  have y0 : y.val ≠ 0 := by rw [vy]; exact_mod_cast h0
  have bz : (b : ℚ) ≠ 0 := by exact_mod_cast h0
  have b1 : (1 : ℚ) ≤ |(b : ℚ)| := by exact_mod_cast Int.one_le_abs h0
  have aq : |(a : ℚ)| ≤ 2 ^ 23 := by exact_mod_cast ha
  have bq : |(b : ℚ)| ≤ 2 ^ 23 := by exact_mod_cast hb
  obtain ⟨n, hi, hn⟩ := floor_quotient fx fy y0 (by rw [vx, vy]; norm_num at *; linarith)
  rw [vx, vy] at hn
  have hn' : n = ⌊(a : ℚ) / b⌋ := by
    rcases hn with h | ⟨h, h2⟩
    · exact h
    · exfalso
      have small : |(a : ℚ) - n * b| < 1 := by
        refine lt_of_le_of_lt h2 ?_
        norm_num at *
        linarith
      have z : a - n * b = 0 := by
        have : |a - n * b| < 1 := by exact_mod_cast small
        exact Int.abs_lt_one_iff.1 this
      have : (a : ℚ) / b = n := by
        have : (a : ℚ) = n * b := by exact_mod_cast sub_eq_zero.1 z
        rw [this]
        field_simp
      rw [this, Int.floor_intCast] at h
      omega
  have l := Int.floor_le ((a : ℚ) / b)
  have u := Int.lt_floor_add_one ((a : ℚ) / b)
  rw [← hn'] at l u
  have pos : 0 < b → 0 ≤ a - b * n ∧ a - b * n < b := by
    intro h
    have hq : (0 : ℚ) < b := by exact_mod_cast h
    rw [le_div_iff₀ hq] at l
    rw [div_lt_iff₀ hq] at u
    have l' : n * b ≤ a := by exact_mod_cast l
    have u' : a < (n + 1) * b := by exact_mod_cast u
    constructor <;> linarith
  have neg : b < 0 → b < a - b * n ∧ a - b * n ≤ 0 := by
    intro h
    have hq : (b : ℚ) < 0 := by exact_mod_cast h
    rw [le_div_iff_of_neg hq] at l
    rw [div_lt_iff_of_neg hq] at u
    have l' : a ≤ n * b := by exact_mod_cast l
    have u' : (n + 1) * b < a := by exact_mod_cast u
    constructor <;> linarith
  have r1 : |a - b * n| ≤ |b| := by
    rcases lt_or_gt_of_ne h0 with h | h
    · obtain ⟨p, q⟩ := neg h
      rw [abs_of_nonpos q, abs_of_neg h]; omega
    · obtain ⟨p, q⟩ := pos h
      rw [abs_of_nonneg p, abs_of_pos h]; omega
  have pb : |b * n| ≤ 2 ^ 24 := by
    have e : b * n = a - (a - b * n) := by ring
    rw [e]
    exact (abs_sub _ _).trans (by omega)
  refine ⟨a - b * n, ?_, ⟨n, by ring⟩, pos, neg⟩
  unfold F.mod
  have p : IsInt (y * F.floor (x / y)) (b * n) := by
    rw [IsInt, mul_fin fy hi.1, vy, hi.2, ← Int.cast_mul]
    exact isInt_round pb _
  rw [IsInt, sub_fin fx p.1, vx, p.2, ← Int.cast_sub]
  exact isInt_round (by omega) _

end Zcm.F32
