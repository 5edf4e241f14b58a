import Verif.Lemmas.F32
import Mathlib.Tactic.NormNum

/-!
# Rounding binary32 values to integers is exact
-/

set_option exponentiation.threshold 300

namespace Zcm.F32

theorem rep_natAbs_mul {n : ℤ} (h : n.natAbs ≤ 2 ^ 24) : Rep' (n * 2 ^ 149).natAbs := by
  rw [Int.natAbs_mul]
  have : ((2 : ℤ) ^ 149).natAbs = 2 ^ 149 := by norm_num
  rw [this]
  exact rep'_mul_pow h

/-- Finite values of magnitude at least 2²³ are integers. -/
theorem exists_int_of_big {a : F32} (h : a.IsFin = true) (hb : 2 ^ 172 ≤ a.key.natAbs) :
    ∃ n : ℤ, a.val = n := by
  have h1 := (rep_of_isFin h).1
  have h2 : 149 ≤ ulpExp a.key.natAbs := le_ulpExp_of_le hb
  have h3 : 2 ^ 149 ∣ a.key.natAbs := (pow_dvd_pow 2 h2).trans h1
  have h4 : (2 : ℤ) ^ 149 ∣ a.key := by
    rw [← Int.natAbs_dvd_natAbs]
    have : ((2 : ℤ) ^ 149).natAbs = 2 ^ 149 := by norm_num
    rwa [this]
  obtain ⟨n, hn⟩ := h4
  refine ⟨n, ?_⟩
  unfold val
  rw [hn]; push_cast; field_simp; norm_num; ring

theorem abs_val_lt {a : F32} (hb : a.key.natAbs < 2 ^ 172) : -(2 ^ 23) < a.val ∧ a.val < 2 ^ 23 := by
  unfold val
  have h1 : -(2 ^ 172) < a.key ∧ a.key < 2 ^ 172 := by
    have : (a.key.natAbs : ℤ) < 2 ^ 172 := by exact_mod_cast hb
    omega
  have h2 : (-(2 ^ 172) : ℚ) < a.key := by exact_mod_cast h1.1
  have h3 : (a.key : ℚ) < 2 ^ 172 := by exact_mod_cast h1.2
  constructor
  · rw [lt_div_iff₀ (by positivity)]; norm_num at h2 ⊢; linarith
  · rw [div_lt_iff₀ (by positivity)]; norm_num at h3 ⊢; linarith

theorem integral_eq (f : ℚ → ℤ) {a : F32} (h : a.IsFin = true) :
    integral f a = round a.sgn (f a.val) := by
  obtain ⟨s, k, hk, rfl⟩ := exists_fin h
  rfl

/-- A rounding function that lies between floor and ceiling commutes with the rounding to binary32. -/
theorem integral_fin {f : ℚ → ℤ} (hf : ∀ x : ℚ, ⌊x⌋ ≤ f x ∧ f x ≤ ⌈x⌉) {a : F32} (h : a.IsFin = true) :
    (integral f a).IsFin = true ∧ (integral f a).val = f a.val ∧
    (integral f a).sgn = (if f a.val = 0 then a.sgn else decide (f a.val < 0)) := by
  have e := integral_eq f h
  have key : (integral f a).key = f a.val * 2 ^ 149 ∧ (f a.val * 2 ^ 149).natAbs < 2 ^ 277 := by
    rw [e]
    rcases lt_or_ge a.key.natAbs (2 ^ 172) with hb | hb
    · have h1 := abs_val_lt hb
      have h2 := hf a.val
      have h3 : -(2 ^ 23) ≤ ⌊a.val⌋ := by
        rw [Int.le_floor]; push_cast; linarith [h1.1]
      have h4 : ⌈a.val⌉ ≤ 2 ^ 23 := by
        rw [Int.ceil_le]; push_cast; linarith [h1.2]
      have h5 : (f a.val).natAbs ≤ 2 ^ 24 := by omega
      have h6 : ((f a.val : ℤ) : ℚ) = ((f a.val * 2 ^ 149 : ℤ) : ℚ) / 2 ^ 149 := by
        push_cast; field_simp; norm_num
      have h7 : (f a.val * 2 ^ 149).natAbs < 2 ^ 277 := by omega
      rw [h6, key_round, uround_of_rep (rep_natAbs_mul h5)]
      exact ⟨cut_of (by omega) (by omega), h7⟩
    · obtain ⟨n, hn⟩ := exists_int_of_big h hb
      have h2 := hf a.val
      rw [hn] at h2
      simp only [Int.floor_intCast, Int.ceil_intCast] at h2
      have h3 : f a.val = n := by rw [hn]; omega
      rw [h3, ← hn]
      have h4 : n * 2 ^ 149 = a.key := by
        have := key_eq_val a
        rw [hn] at this; exact_mod_cast this.symm
      rw [h4]
      exact ⟨key_round_val h _, (rep_of_isFin h).2⟩
  have hne : integral f a ≠ .nan := by rw [e]; exact round_ne_nan _ _
  have hfin : (integral f a).IsFin = true := by
    rw [isFin_iff hne, key.1]; omega
  refine ⟨hfin, ?_, ?_⟩
  · show ((integral f a).key : ℚ) / 2 ^ 149 = f a.val
    rw [key.1, Int.cast_mul, Int.cast_pow, Int.cast_ofNat, mul_div_cancel_right₀ _ (by positivity)]
  · rw [e, sgn_round]
    by_cases h0 : f a.val = 0
    · simp [h0]
    · rw [if_neg h0, if_neg (by exact_mod_cast h0)]
      congr 1
      simp

theorem floor_between (x : ℚ) : ⌊x⌋ ≤ ⌊x⌋ ∧ ⌊x⌋ ≤ ⌈x⌉ := ⟨le_rfl, Int.floor_le_ceil x⟩
theorem ceil_between (x : ℚ) : ⌊x⌋ ≤ ⌈x⌉ ∧ ⌈x⌉ ≤ ⌈x⌉ := ⟨Int.floor_le_ceil x, le_rfl⟩
theorem towardZero_between (x : ℚ) : ⌊x⌋ ≤ towardZero x ∧ towardZero x ≤ ⌈x⌉ := by
  unfold towardZero
  split_ifs
  · exact floor_between x
  · exact ceil_between x
theorem halfAway_between (x : ℚ) : ⌊x⌋ ≤ halfAway x ∧ halfAway x ≤ ⌈x⌉ := by
  unfold halfAway
  by_cases hi : ∃ n : ℤ, x = n
  · obtain ⟨n, rfl⟩ := hi
    have h1 : ⌊(n : ℚ) + 1 / 2⌋ = n := by rw [Int.floor_eq_iff]; constructor <;> linarith
    have h2 : ⌈(n : ℚ) - 1 / 2⌉ = n := by rw [Int.ceil_eq_iff]; constructor <;> linarith
    rw [h1, h2]; simp
  · have h3 : ⌈x⌉ = ⌊x⌋ + 1 := by
      rw [Int.ceil_eq_iff]; push_cast
      refine ⟨?_, (Int.lt_floor_add_one x).le⟩
      have : (⌊x⌋ : ℚ) ≠ x := fun h => hi ⟨_, h.symm⟩
      have := lt_of_le_of_ne (Int.floor_le x) this
      linarith
    rw [h3]
    have h4 := Int.floor_le x
    have h5 := Int.lt_floor_add_one x
    split_ifs
    · constructor
      · rw [Int.le_floor]; linarith
      · rw [← Int.lt_add_one_iff, Int.floor_lt]; push_cast; linarith
    · constructor
      · rw [← Int.sub_one_lt_iff, Int.lt_ceil]; push_cast; linarith
      · rw [Int.ceil_le]; push_cast; linarith
theorem rhe_between (x : ℚ) : ⌊x⌋ ≤ roundHalfEven x ∧ roundHalfEven x ≤ ⌈x⌉ :=
  ⟨le_rhe (Int.floor_le x), rhe_le (Int.le_ceil x)⟩

end Zcm.F32
