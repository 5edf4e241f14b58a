import Verif.Lemmas.Nearest
import Verif.Lemmas.F32Error
import Mathlib.Analysis.Real.Sqrt

/-!
# The square root of binary32 is correctly rounded
-/

set_option exponentiation.threshold 300

namespace Zcm.F32

/-- rounding to an integer of a number strictly between `r` and `r + 1`, scaled by `2h` -/
theorem rhe_sticky {r h : ℕ} (hh : 0 < h) {q : ℚ} (h1 : (r : ℚ) < q) (h2 : q < r + 1) :
    roundHalfEven (q / (2 * h : ℕ)) = if r % (2 * h) < h then ((r / (2 * h) : ℕ) : ℤ) else ((r / (2 * h) : ℕ) : ℤ) + 1 := by
  have hp : (0 : ℚ) < (2 * h : ℕ) := by exact_mod_cast (by omega : 0 < 2 * h)
  have hd : (r : ℚ) = (2 * h : ℕ) * (r / (2 * h) : ℕ) + (r % (2 * h) : ℕ) := by exact_mod_cast (Nat.div_add_mod r (2 * h)).symm
  have ht := Nat.mod_lt r (by omega : 0 < 2 * h)
  generalize r / (2 * h) = m at *
  generalize r % (2 * h) = t at *
  have ht' : (t : ℚ) + 1 ≤ (2 * h : ℕ) := by exact_mod_cast ht
  have hq : q / (2 * h : ℕ) = m + (q - (2 * h : ℕ) * m) / (2 * h : ℕ) := by field_simp; ring
  have hf : ⌊q / (2 * h : ℕ)⌋ = m := by
    rw [Int.floor_eq_iff]
    constructor
    · rw [le_div_iff₀ hp]; push_cast at *; nlinarith
    · rw [div_lt_iff₀ hp]; push_cast at *; nlinarith
  have hs : q / (2 * h : ℕ) - (m : ℤ) = (q - (2 * h : ℕ) * m) / (2 * h : ℕ) := by rw [hq]; push_cast; ring
  unfold roundHalfEven
  rw [hf, hs]
  by_cases c : t < h
  · have c' : (t : ℚ) + 1 ≤ h := by exact_mod_cast c
    rw [if_pos c, if_pos]
    rw [div_lt_iff₀ hp]; push_cast at *; linarith
  · have c' : (h : ℚ) ≤ t := by exact_mod_cast not_lt.1 c
    rw [if_neg c, if_neg, if_pos]
    · rw [lt_div_iff₀ hp]; push_cast at *; linarith
    · rw [not_lt, le_div_iff₀ hp]; push_cast at *; linarith

/-- all numbers strictly between `r` and `r + 1` units round alike, when the last place is above a unit -/
theorem roundUnits_sticky {r : ℕ} (he : ulpExp r ≠ 0) {q p : ℚ} (h1 : (r : ℚ) < q) (h2 : q < r + 1)
    (h3 : (r : ℚ) < p) (h4 : p < r + 1) : roundUnits q = roundUnits p := by
  have fl : ∀ x : ℚ, (r : ℚ) < x → x < r + 1 → ⌊x⌋.toNat = r := fun x a b => by
    have : ⌊x⌋ = r := by rw [Int.floor_eq_iff]; push_cast; exact ⟨a.le, b⟩
    rw [this]; rfl
  obtain ⟨e, he⟩ := Nat.exists_eq_succ_of_ne_zero he
  unfold roundUnits
  rw [fl q h1 h2, fl p h3 h4, he]
  have c : (2 : ℚ) ^ (e + 1) = (2 * 2 ^ e : ℕ) := by push_cast; ring
  rw [Nat.succ_eq_add_one, c, rhe_sticky (by positivity) h1 h2, rhe_sticky (by positivity) h3 h4]

/-- The square root of a positive finite float. -/
theorem sqrt_nearest {a : F32} (ha : a.IsFin = true) (hp : 0 < a.val) :
    IsNearest (F32.sqrt a) (Real.sqrt a.val) := by
  obtain ⟨s, k, hk, rfl⟩ := exists_fin ha
  have hs : s = false := by
    have := sgn_of_key_pos (key_pos.2 hp)
    exact this
  subst hs
  have hv : (F32.fin false k hk).val = k / 2 ^ 149 := by simp [val, key]
  have hk0 : 0 < k := by
    rw [hv] at hp
    by_contra h
    have : k = 0 := by omega
    subst this
    simp at hp
  have hkb : k < 2 ^ 277 := hk.2
  set N := k * 2 ^ 149 with hN
  set r := Nat.sqrt N with hr
  have r1 : r * r ≤ N := Nat.sqrt_le N
  have r2 : N < (r + 1) * (r + 1) := Nat.lt_succ_sqrt N
  have rlo : 2 ^ 74 ≤ r := by
    rw [hr, Nat.le_sqrt]
    calc 2 ^ 74 * 2 ^ 74 ≤ 1 * 2 ^ 149 := by norm_num
      _ ≤ N := Nat.mul_le_mul_right _ hk0
  have rhi : r < 2 ^ 213 := by
    rw [hr, Nat.sqrt_lt]
    calc N < 2 ^ 277 * 2 ^ 149 := Nat.mul_lt_mul_of_pos_right hkb (by positivity)
      _ = 2 ^ 213 * 2 ^ 213 := by norm_num
  have he : ulpExp r ≠ 0 := by
    have : 51 ≤ ulpExp r := le_ulpExp_of_le rlo
    omega
  have hx : F32.sqrt (.fin false k hk) =
      pack false (roundUnits ((r : ℚ) + if r * r = N then 0 else 1 / 2)) := by
    simp [F32.sqrt, hk0.ne', hr, hN]
  -- the real root, in units
  have hroot : Real.sqrt ((F32.fin false k hk).val : ℝ) = Real.sqrt (N : ℝ) / 2 ^ 149 := by
    rw [hv]
    have : ((k / 2 ^ 149 : ℚ) : ℝ) = (N : ℝ) / (2 ^ 149) ^ 2 := by
      rw [hN, sq, Nat.cast_mul, show ((2 ^ 149 : ℕ) : ℝ) = 2 ^ 149 by norm_num, Rat.cast_div, Rat.cast_pow, Rat.cast_natCast,
        Rat.cast_ofNat]
      exact (mul_div_mul_right (k : ℝ) (2 ^ 149) (by positivity : (2 ^ 149 : ℝ) ≠ 0)).symm
    rw [this, Real.sqrt_div (by positivity), Real.sqrt_sq (by positivity)]
  have pack_round : ∀ q : ℚ, 0 ≤ q → pack false (roundUnits q) = round false (q / 2 ^ 149) := by
    intro q hq
    unfold round
    rw [abs_of_nonneg (by positivity), div_mul_cancel₀ _ (by positivity)]
    have : ¬ q / 2 ^ 149 < 0 := not_lt.2 (by positivity)
    simp [this]
  have bound : ∀ q : ℚ, 0 ≤ q → q ≤ 2 ^ 213 → (pack false (roundUnits q)).IsFin = true := by
    intro q hq hq2
    have : roundUnits q ≤ 2 ^ 213 := by
      refine roundUnits_le ?_ hq (by exact_mod_cast hq2)
      have := rep'_mul_pow (m := 1) (e := 213) (by norm_num)
      rwa [one_mul] at this
    unfold pack
    rw [dif_pos ((roundUnits_rep hq).2 (lt_of_le_of_lt this (by norm_num)))]
    rfl
  rw [hx, hroot]
  have p149 : (0 : ℝ) < 2 ^ 149 := by positivity
  by_cases hsq : r * r = N
  · -- exact root
    rw [if_pos hsq, add_zero]
    have e : Real.sqrt (N : ℝ) = r := by
      rw [← hsq]; push_cast; exact Real.sqrt_mul_self (by positivity)
    have hrep : Rep' r := by
      obtain ⟨m, hm, hm24⟩ := Rep'.exists_mul (k := k) hk.1
      obtain ⟨u, o, hu, ho⟩ : ∃ u o, r = 2 ^ u * o ∧ ¬ 2 ∣ o := by
        obtain ⟨u, o, h, h'⟩ := Nat.exists_eq_pow_mul_and_not_dvd (n := r) (by omega) 2 (by norm_num)
        exact ⟨u, o, h', h⟩
      obtain ⟨u', o', hu', ho'⟩ : ∃ u o, m = 2 ^ u * o ∧ ¬ 2 ∣ o := by
        obtain ⟨u, o, h, h'⟩ := Nat.exists_eq_pow_mul_and_not_dvd (n := m) (by rintro rfl; omega) 2 (by norm_num)
        exact ⟨u, o, h', h⟩
      have h1 : 2 ^ (2 * u) * (o * o) = 2 ^ (u' + ulpExp k + 149) * o' := by
        have : N = 2 ^ (u' + ulpExp k + 149) * o' := by
          rw [hN]; conv_lhs => rw [hm]
          rw [hu']; ring
        rw [← this, ← hsq, hu]; ring
      have odd : ¬ 2 ∣ o * o := fun h => by rcases (Nat.Prime.dvd_mul Nat.prime_two).1 h with h | h <;> exact ho h
      have oo : o * o = o' := by
        rcases lt_trichotomy (2 * u) (u' + ulpExp k + 149) with h | h | h
        · exfalso
          obtain ⟨d, hd⟩ := Nat.exists_eq_add_of_lt h
          rw [hd, show 2 * u + d + 1 = 2 * u + (d + 1) by ring, pow_add, mul_assoc] at h1
          have := Nat.eq_of_mul_eq_mul_left (by positivity) h1
          exact odd ⟨2 ^ d * o', by rw [this]; ring⟩
        · rw [h] at h1
          exact Nat.eq_of_mul_eq_mul_left (by positivity) h1
        · exfalso
          obtain ⟨d, hd⟩ := Nat.exists_eq_add_of_lt h
          rw [hd, show u' + ulpExp k + 149 + d + 1 = u' + ulpExp k + 149 + (d + 1) by ring, pow_add, mul_assoc] at h1
          have := Nat.eq_of_mul_eq_mul_left (by positivity) h1
          exact ho' ⟨2 ^ d * (o * o), by rw [← this]; ring⟩
      have ol : o ≤ 2 ^ 24 := by
        have : o' ≤ m := by rw [hu']; exact Nat.le_mul_of_pos_left _ (by positivity)
        nlinarith
      rw [hu, mul_comm]
      exact rep'_mul_pow ol
    have hval : (pack false (roundUnits (r : ℚ))).val = r / 2 ^ 149 := by
      rw [roundUnits_of_rep' hrep]
      unfold pack
      rw [dif_pos ⟨hrep, by omega⟩]
      simp [val, key]
    refine ⟨bound _ (by positivity) (by exact_mod_cast rhi.le), fun y hy hne => ?_⟩
    rw [hval, e]
    rw [hval] at hne
    push_cast
    rw [sub_self, abs_zero, abs_pos, sub_ne_zero]
    intro h
    apply hne
    have : ((y.val : ℚ) : ℝ) = ((r / 2 ^ 149 : ℚ) : ℝ) := by push_cast; exact h
    exact_mod_cast this
  · rw [if_neg hsq]
    have s1 : (r : ℝ) < Real.sqrt N := by
      rw [Real.lt_sqrt (by positivity)]
      exact_mod_cast (by rw [sq]; omega : r ^ 2 < N)
    have s2 : Real.sqrt N < (r : ℝ) + 1 := by
      rw [Real.sqrt_lt' (by positivity)]
      exact_mod_cast (by rw [sq]; exact r2 : N < (r + 1) ^ 2)
    obtain ⟨lo, l1, l2⟩ := exists_rat_btwn s1
    obtain ⟨hi, g1, g2⟩ := exists_rat_btwn s2
    have l1' : (r : ℚ) < lo := by exact_mod_cast l1
    have g2' : hi < (r : ℚ) + 1 := by exact_mod_cast g2
    have lh : lo < hi := by exact_mod_cast l2.trans g1
    have r0 : (0 : ℚ) ≤ r := by positivity
    have hb : (r : ℚ) + 1 ≤ 2 ^ 213 := by exact_mod_cast rhi
    refine isNearest_of_bounds (lo := lo / 2 ^ 149) (hi := hi / 2 ^ 149)
      (bound _ (by positivity) (by linarith)) (div_nonneg (by linarith) (by positivity)) ?_ ?_ ?_ ?_
    · rw [← pack_round _ (by linarith), roundUnits_sticky he l1' (lh.trans g2') (by linarith : (r : ℚ) < r + 1 / 2) (by linarith)]
    · rw [← pack_round _ (by linarith), roundUnits_sticky he (l1'.trans lh) g2' (by linarith : (r : ℚ) < r + 1 / 2) (by linarith)]
    · push_cast; exact div_lt_div_of_pos_right l2 p149
    · push_cast; exact div_lt_div_of_pos_right g1 p149

end Zcm.F32
