import Verif.Lemmas.Rounding
import Verif.Model.Common

/-!
# Fractional part and halving in binary32
-/

set_option exponentiation.threshold 300

namespace Zcm.F32

/-- Exact rounding of a representable number of units. -/
theorem round_units_fin {n : ℤ} (h : Rep n.natAbs) (s : Bool) :
    (round s ((n : ℚ) / 2 ^ 149)).IsFin = true ∧ (round s ((n : ℚ) / 2 ^ 149)).key = n ∧
    (round s ((n : ℚ) / 2 ^ 149)).val = (n : ℚ) / 2 ^ 149 := by
  have h1 : (n.natAbs : ℤ) < 2 ^ 277 := by exact_mod_cast h.2
  have hk : (round s ((n : ℚ) / 2 ^ 149)).key = n := by
    rw [key_round, uround_of_rep h.1]
    exact cut_of (by omega) (by omega)
  refine ⟨?_, hk, ?_⟩
  · rw [isFin_iff (round_ne_nan _ _), hk]; omega
  · show ((round s ((n : ℚ) / 2 ^ 149)).key : ℚ) / 2 ^ 149 = _
    rw [hk]

/-- Exact rounding of a rational that is the value of a finite number. -/
theorem round_eq_val {a : F32} (h : a.IsFin = true) {x : ℚ} (hx : x = a.val) (s : Bool) :
    (round s x).IsFin = true ∧ (round s x).val = x := by
  subst hx
  have := round_units_fin (n := a.key) (rep_of_isFin h) s
  exact ⟨this.1, this.2.2⟩

theorem isFin_floor {a : F32} (h : a.IsFin = true) : (F.floor a).IsFin = true :=
  (integral_fin floor_between h).1

theorem val_floor {a : F32} (h : a.IsFin = true) : (F.floor a).val = ⌊a.val⌋ :=
  (integral_fin floor_between h).2.1

theorem sgn_floor {a : F32} (h : a.IsFin = true) : (F.floor a).sgn = a.sgn := by
  have h1 := (integral_fin floor_between h).2.2
  have e : (F.floor a).sgn = _ := h1
  rw [e]
  split_ifs with h0
  · rfl
  · rcases lt_or_gt_of_ne h0 with h2 | h2
    · rw [decide_eq_true h2]
      have : a.val < 0 := by
        by_contra hc
        exact absurd (Int.floor_nonneg.2 (not_lt.1 hc)) (not_le.2 h2)
      exact (sgn_of_key_neg (key_neg'.2 this)).symm
    · rw [decide_eq_false (not_lt.2 h2.le)]
      have : 0 < a.val := lt_of_lt_of_le (by exact_mod_cast h2) (Int.floor_le a.val)
      exact (sgn_of_key_pos (key_pos.2 this)).symm

/-- `fract` is the correctly rounded fractional part. -/
theorem fract_eq_round {a : F32} (h : a.IsFin = true) : F.fract a = round false (Int.fract a.val) := by
  unfold F.fract
  rw [sub_fin h (isFin_floor h), val_floor h, sgn_floor h, Bool.and_not_self]
  rfl

theorem mod_rep {k : ℕ} (h : Rep k) : Rep (k % 2 ^ 149) := by
  have hle : k % 2 ^ 149 ≤ k := Nat.mod_le _ _
  refine ⟨?_, lt_of_le_of_lt hle h.2⟩
  rcases le_total (ulpExp k) 149 with he | he
  · have h1 : 2 ^ ulpExp k ∣ k % 2 ^ 149 := (Nat.dvd_mod_iff (pow_dvd_pow 2 he)).2 h.1
    exact (pow_dvd_pow 2 (ulpExp_mono hle)).trans h1
  · have h1 : k % 2 ^ 149 = 0 := Nat.mod_eq_zero_of_dvd ((pow_dvd_pow 2 he).trans h.1)
    rw [h1]; exact dvd_zero _

/-- `fract` is exact for non-negative arguments. -/
theorem fract_exact {a : F32} (h : a.IsFin = true) (h0 : 0 ≤ a.val) :
    (F.fract a).IsFin = true ∧ (F.fract a).val = Int.fract a.val := by
  have hk : 0 ≤ a.key := key_nonneg.2 h0
  obtain ⟨n, hn⟩ : ∃ n : ℕ, a.key = n := ⟨a.key.toNat, by omega⟩
  have hrep := rep_of_isFin h
  rw [hn, Int.natAbs_natCast] at hrep
  have e : Int.fract a.val = (((n % 2 ^ 149 : ℕ) : ℤ) : ℚ) / 2 ^ 149 := by
    have hv : a.val = (n : ℚ) / ((2 ^ 149 : ℕ) : ℚ) := by unfold val; rw [hn]; push_cast; rfl
    have hfl : ⌊a.val⌋ = ((n / 2 ^ 149 : ℕ) : ℤ) := by
      rw [hv, Rat.floor_natCast_div_natCast, Int.natCast_div]
    unfold Int.fract
    rw [hfl, hv]
    have h3 : (n : ℚ) = ((2 ^ 149 * (n / 2 ^ 149) + n % 2 ^ 149 : ℕ) : ℚ) := by
      rw [Nat.div_add_mod]
    rw [eq_div_iff (by positivity), sub_mul, div_mul_eq_mul_div, eq_comm]
    generalize n / 2 ^ 149 = q at *
    generalize n % 2 ^ 149 = r at *
    rw [h3]; push_cast; field_simp; ring
  rw [fract_eq_round h, e]
  have := round_units_fin (n := ((n % 2 ^ 149 : ℕ) : ℤ)) (by rw [Int.natAbs_natCast]; exact mod_rep hrep) false
  exact ⟨this.1, this.2.2⟩

/-! ### Halving and doubling -/

theorem val_lit_half : (lit 0.5 : F32).val = 1 / 2 := by decide +kernel
theorem isFin_lit_half : (lit 0.5 : F32).IsFin = true := by decide +kernel
theorem val_lit_two : (lit 2 : F32).val = 2 := by decide +kernel
theorem isFin_lit_two : (lit 2 : F32).IsFin = true := by decide +kernel

theorem rep_half {k : ℕ} (h : Rep k) (he : k % 2 = 0) : Rep (k / 2) := by
  have hle : k / 2 ≤ k := Nat.div_le_self _ _
  refine ⟨?_, lt_of_le_of_lt hle h.2⟩
  have h2 : k = 2 * (k / 2) := by omega
  rcases Nat.eq_zero_or_pos (ulpExp (k / 2)) with h0 | h0
  · rw [h0]; exact one_dvd _
  · have h1 := ulp_le (n := k / 2) (by omega)
    have h3 : 2 ^ (ulpExp (k / 2) + 1 + 23) ≤ k := by
      rw [show ulpExp (k / 2) + 1 + 23 = (ulpExp (k / 2) + 23) + 1 by omega, pow_succ]; omega
    have h4 : ulpExp (k / 2) + 1 ≤ ulpExp k := le_ulpExp_of_le h3
    have h5 : 2 ^ (ulpExp (k / 2) + 1) ∣ k := (pow_dvd_pow 2 h4).trans h.1
    rw [pow_succ, mul_comm] at h5
    generalize k / 2 = m at *
    rw [h2] at h5
    exact Nat.dvd_of_mul_dvd_mul_left (k := 2) (by norm_num) h5

/-- Halving is exact unless the number of units is odd, and then the number is tiny. -/
theorem half_cases {a : F32} (h : a.IsFin = true) :
    (a * lit 0.5).IsFin = true ∧
    ((a * lit 0.5).val = a.val / 2 ∨ (|a.val / 2| < 1 / 4 ∧ |(a * lit 0.5).val| < 1 / 4)) := by
  have e : a * lit 0.5 = round (a.sgn ^^ (lit 0.5 : F32).sgn) (a.val / 2) := by
    rw [mul_fin h isFin_lit_half, val_lit_half]; ring_nf
  generalize (a.sgn ^^ (lit 0.5 : F32).sgn) = s at e
  rw [e]
  have hrep := rep_of_isFin h
  rcases Nat.mod_two_eq_zero_or_one a.key.natAbs with h2 | h2
  · have hh := rep_half hrep h2
    have h3 : (a.key / 2).natAbs = a.key.natAbs / 2 := by omega
    rw [← h3] at hh
    have h4 := round_units_fin hh s
    have h5 : a.val / 2 = ((a.key / 2 : ℤ) : ℚ) / 2 ^ 149 := by
      unfold val
      have : a.key = 2 * (a.key / 2) := by omega
      generalize a.key / 2 = n at *
      rw [this]; push_cast; ring
    rw [← h5] at h4
    exact ⟨h4.1, Or.inl h4.2.2⟩
  · have h0 : ulpExp a.key.natAbs = 0 := by
      by_contra hc
      have h3 : 2 ∣ a.key.natAbs := (dvd_pow_self 2 hc).trans hrep.1
      omega
    have h3 := lt_ulp a.key.natAbs
    rw [h0] at h3
    have h4 : -(2 ^ 24) < a.key ∧ a.key < 2 ^ 24 := by
      have : (a.key.natAbs : ℤ) < 2 ^ 24 := by exact_mod_cast (by simpa using h3)
      omega
    have h5 : (-(2 ^ 24) : ℚ) < a.key ∧ (a.key : ℚ) < 2 ^ 24 := by exact_mod_cast h4
    have h6 : |a.val / 2| ≤ 1 / 8 := by
      unfold val
      rw [abs_le]
      constructor
      · rw [le_div_iff₀ (by positivity), le_div_iff₀ (by positivity)]; norm_num; linarith [h5.1]
      · rw [div_le_iff₀ (by positivity), div_le_iff₀ (by positivity)]; norm_num; linarith [h5.2]
    have f8 : (lit (1/8) : F32).IsFin = true := by decide +kernel
    have v8 : (lit (1/8) : F32).val = 1/8 := by decide +kernel
    rw [abs_le] at h6
    have g1 := le_key_round (a := -(lit (1/8) : F32)) (by simpa using f8)
      (x := a.val / 2) (by rw [val_neg, v8]; exact h6.1) s
    have g2 := key_round_le (a := (lit (1/8) : F32)) f8 (x := a.val / 2) (by rw [v8]; exact h6.2) s
    refine ⟨?_, Or.inr ⟨by rw [abs_lt]; constructor <;> linarith [h6.1, h6.2], ?_⟩⟩
    · exact isFin_round_of_between (a := -(lit (1/8) : F32)) (b := (lit (1/8) : F32)) (by simpa using f8) f8
        (by rw [val_neg, v8]; exact h6.1) (by rw [v8]; exact h6.2) s
    · rw [key_le_iff, val_neg, v8] at g1
      rw [key_le_iff, v8] at g2
      rw [abs_lt]; constructor <;> linarith

theorem rhe_small {x : ℚ} (h : |x| < 1 / 4) : roundHalfEven x = 0 := by
  have h1 := rhe_abs_sub_le x
  rw [abs_lt] at h
  rw [abs_le] at h1
  have h2 : (roundHalfEven x : ℚ) < 1 := by linarith [h.2]
  have h3 : (-1 : ℚ) < roundHalfEven x := by linarith [h.1]
  have h4 : roundHalfEven x < 1 := by exact_mod_cast h2
  have h5 : -1 < roundHalfEven x := by exact_mod_cast h3
  omega

/-- What `roundEven` computes on finite floats: twice the rounded half. -/
theorem roundEven_val {a : F32} (h : a.IsFin = true) :
    (F.roundEven a).IsFin = true ∧ (F.roundEven a).val = 2 * (roundHalfEven (a.val / 2) : ℤ) := by
  obtain ⟨hf, hv⟩ := half_cases h
  have hrhe : roundHalfEven (a * lit 0.5).val = roundHalfEven (a.val / 2) := by
    rcases hv with hv | ⟨h1, h2⟩
    · rw [hv]
    · rw [rhe_small h1, rhe_small h2]
  obtain ⟨g1, g2, -⟩ := integral_fin rhe_between hf
  rw [hrhe] at g2
  unfold F.roundEven
  show (integral roundHalfEven (a * lit 0.5) * lit 2).IsFin = true ∧
    (integral roundHalfEven (a * lit 0.5) * lit 2).val = _
  rw [mul_fin g1 isFin_lit_two, val_lit_two, g2]
  generalize ((integral roundHalfEven (a * lit 0.5)).sgn ^^ (lit 2 : F32).sgn) = s
  rw [mul_comm]
  by_cases hb : (roundHalfEven (a.val / 2)).natAbs ≤ 2 ^ 23
  · have hr : Rep (2 * roundHalfEven (a.val / 2) * 2 ^ 149).natAbs :=
      ⟨rep_natAbs_mul (by omega), by omega⟩
    have := round_units_fin hr s
    have e : ((2 * roundHalfEven (a.val / 2) * 2 ^ 149 : ℤ) : ℚ) / 2 ^ 149 =
        2 * (roundHalfEven (a.val / 2) : ℤ) := by
      rw [Int.cast_mul, Int.cast_pow, Int.cast_ofNat, mul_div_cancel_right₀ _ (by positivity)]
      push_cast; rfl
    rw [e] at this
    exact ⟨this.1, this.2.2⟩
  · -- then `a` is an even integer
    have h3 := rhe_abs_sub_le (a.val / 2)
    rw [abs_le] at h3
    have hbig : 2 ^ 173 ≤ a.key.natAbs := by
      by_contra hc
      have h4 : -(2 ^ 173) < a.key ∧ a.key < 2 ^ 173 := by
        have : (a.key.natAbs : ℤ) < 2 ^ 173 := by exact_mod_cast not_le.1 hc
        omega
      have h5 : (-(2 ^ 173) : ℚ) ≤ a.key ∧ (a.key : ℚ) ≤ 2 ^ 173 :=
        ⟨by exact_mod_cast h4.1.le, by exact_mod_cast h4.2.le⟩
      have h6 : -(2 ^ 23) ≤ a.val / 2 ∧ a.val / 2 ≤ 2 ^ 23 := by
        unfold val
        constructor
        · rw [le_div_iff₀ (by positivity), le_div_iff₀ (by positivity)]; norm_num at h5 ⊢; linarith [h5.1]
        · rw [div_le_iff₀ (by positivity), div_le_iff₀ (by positivity)]; norm_num at h5 ⊢; linarith [h5.2]
      have h7 : -(2 ^ 23) ≤ roundHalfEven (a.val / 2) := le_rhe (by push_cast; exact h6.1)
      have h8 : roundHalfEven (a.val / 2) ≤ 2 ^ 23 := rhe_le (by push_cast; exact h6.2)
      omega
    have h4 : 150 ≤ ulpExp a.key.natAbs := le_ulpExp_of_le hbig
    have h5 : 2 ^ 150 ∣ a.key.natAbs := (pow_dvd_pow 2 h4).trans (rep_of_isFin h).1
    have h6 : (2 : ℤ) ^ 150 ∣ a.key := by
      rw [← Int.natAbs_dvd_natAbs]
      have : ((2 : ℤ) ^ 150).natAbs = 2 ^ 150 := by norm_num
      rwa [this]
    obtain ⟨n, hn⟩ := h6
    have h7 : a.val / 2 = n := by
      unfold val; rw [hn]; push_cast; rw [div_div, div_eq_iff (by positivity)]; norm_num; ring
    rw [h7, rhe_int]
    have h8 : (2 : ℚ) * n = a.val := by rw [← h7]; ring
    exact round_eq_val h h8 s

end Zcm.F32
