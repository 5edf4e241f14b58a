import Verif.Lemmas.F32Sqrt
import Verif.Lemmas.F32Bits
import Verif.Lemmas.F32Fract

/-!
# Every operation of the binary32 model is correctly rounded
-/

set_option exponentiation.threshold 300

namespace Zcm.F32

theorem bits_neg_parity {x : F32} (h : x.IsFin = true) : (-x).bits.toNat % 2 = x.bits.toNat % 2 := by
  obtain ⟨s, k, hk, rfl⟩ := exists_fin h
  rw [neg_fin, bits_toNat_fin, bits_toNat_fin]
  cases s <;> simp <;> omega

theorem CorrectlyRounded.neg {x : F32} {r : ℝ} (h : CorrectlyRounded x r) : CorrectlyRounded (-x) (-r) := by
  obtain ⟨h1, h2, h3⟩ := h
  refine ⟨fun hr => ?_, fun hr => ?_, fun hr => ?_⟩
  · rw [abs_neg] at hr
    obtain ⟨n, t⟩ := h1 hr
    refine ⟨n.neg, fun y hy hne he => ?_⟩
    rw [bits_neg_parity n.1]
    refine t (-y) (by simpa using hy) (fun e => hne (by rw [val_neg] at e ⊢; linarith)) ?_
    rw [val_neg] at he ⊢
    push_cast at he ⊢
    rw [show -(y.val : ℝ) - r = -(y.val - -r) by ring, abs_neg, he,
      show -(x.val : ℝ) - -r = -(x.val - r) by ring, abs_neg]
  · rw [h3 (by linarith)]; rfl
  · rw [h2 (by linarith)]; rfl

theorem val_pack {k : ℕ} (h : Rep k) : (pack false k).val = k / 2 ^ 149 := by
  unfold pack
  rw [dif_pos h]
  simp [val, key]

theorem roundUnits_threshold : roundUnits (((2 ^ 25 - 1) * 2 ^ 252 : ℕ) : ℝ) = 2 ^ 277 := by
  have h : (((2 ^ 25 - 1) * 2 ^ 252 : ℕ) : ℝ) = (((2 ^ 25 - 1) * 2 ^ 252 : ℕ) : ℚ) := by norm_cast
  rw [h, roundUnits_ratCast]
  decide +kernel

theorem lt_of_lt_threshold {q : ℝ} (h0 : 0 ≤ q) (h : q < (2 ^ 25 - 1) * 2 ^ 252) : roundUnits q < 2 ^ 277 := by
  by_contra hc
  rw [not_lt] at hc
  have rep : Rep' ((2 ^ 24 - 1) * 2 ^ 253) := rep'_mul_pow (by norm_num)
  have hc' : (2 ^ 277 : ℝ) ≤ roundUnits q := by exact_mod_cast hc
  have n := roundUnits_nearest h0 rep
  have c : (((2 ^ 24 - 1) * 2 ^ 253 : ℕ) : ℝ) = (2 ^ 24 - 1) * 2 ^ 253 := by push_cast; norm_num
  rw [c] at n
  rcases le_or_gt q ((2 ^ 24 - 1) * 2 ^ 253) with g | g
  · have := roundUnits_le rep h0 (by rw [c]; exact g)
    omega
  · have b : ((2:ℝ) ^ 25 - 1) * 2 ^ 252 ≤ 2 ^ 277 := by norm_num
    have n1 : q - (roundUnits q : ℝ) ≤ 0 := by linarith
    have n2 : 0 ≤ q - ((2:ℝ) ^ 24 - 1) * 2 ^ 253 := by linarith
    rw [abs_of_nonpos n1, abs_of_nonneg n2] at n
    have : ((2:ℝ) ^ 24 - 1) * 2 ^ 253 + 2 ^ 277 = 2 * ((2 ^ 25 - 1) * 2 ^ 252) := by norm_num
    linarith

theorem even_of_dvd {k : ℕ} (h : 2 ^ (ulpExp k + 1) ∣ k) : k / 2 ^ ulpExp k % 2 = 0 := by
  obtain ⟨j, hj⟩ := h
  have : k / 2 ^ ulpExp k = 2 * j := by
    refine Nat.div_eq_of_eq_mul_right (by positivity) ?_
    rw [← mul_assoc, ← pow_succ]
    exact hj
  omega

theorem correct_pack {r : ℝ} (h0 : 0 ≤ r) : CorrectlyRounded (pack false (roundUnits (r * 2 ^ 149))) r := by
  have p149 : (0 : ℝ) < 2 ^ 149 := by positivity
  have q0 : 0 ≤ r * 2 ^ 149 := by positivity
  have e : ∀ z : ℝ, |z / 2 ^ 149 - r| = |r * 2 ^ 149 - z| / 2 ^ 149 := fun z => by
    rw [abs_sub_comm, ← abs_of_pos p149, ← abs_div, abs_of_pos p149]
    congr 1
    field_simp
  have thr : ((2:ℝ) ^ 25 - 1) * 2 ^ 103 * 2 ^ 149 = (2 ^ 25 - 1) * 2 ^ 252 := by norm_num
  refine ⟨fun hr => ?_, fun hr => ?_, fun hr => ?_⟩
  · rw [abs_of_nonneg h0] at hr
    have lt := lt_of_lt_threshold q0 (by
      rw [← thr]; exact mul_lt_mul_of_pos_right hr p149)
    have rep : Rep (roundUnits (r * 2 ^ 149)) := (roundUnits_rep q0).2 lt
    have hv : ((pack false (roundUnits (r * 2 ^ 149))).val : ℝ) = (roundUnits (r * 2 ^ 149) : ℝ) / 2 ^ 149 := by
      rw [val_pack rep, Rat.cast_div, Rat.cast_natCast, Rat.cast_pow, Rat.cast_ofNat]
    have hfin : (pack false (roundUnits (r * 2 ^ 149))).IsFin = true := by unfold pack; rw [dif_pos rep]; rfl
    have near : ∀ k : ℕ, Rep' k → |((pack false (roundUnits (r * 2 ^ 149))).val : ℝ) - r| ≤ |(k : ℝ) / 2 ^ 149 - r| := by
      intro k hk
      rw [hv, e, e]
      exact div_le_div_of_nonneg_right (roundUnits_nearest q0 hk) p149.le
    have yk : ∀ y : F32, 0 ≤ y.key → (y.val : ℝ) = (y.key.natAbs : ℝ) / 2 ^ 149 := by
      intro y hk
      unfold val
      push_cast
      rw [Nat.cast_natAbs, abs_of_nonneg hk]
    have neg0 : ∀ y : F32, y.key < 0 → |((0 : ℕ) : ℝ) / 2 ^ 149 - r| < |(y.val : ℝ) - r| := by
      intro y hk
      have : (y.val : ℝ) < 0 := by exact_mod_cast key_neg'.1 hk
      rw [abs_sub_comm, abs_sub_comm _ r, abs_of_nonneg (by simpa using h0), abs_of_nonneg (by linarith)]
      simp only [Nat.cast_zero, zero_div]
      linarith
    have n0 := near 0 (rep'_of_lt (by norm_num))
    refine ⟨⟨hfin, fun y hy => ?_⟩, fun y hy hne he => ?_⟩
    · rcases le_or_gt 0 y.key with hk | hk
      · rw [yk y hk]
        exact near _ (rep_of_isFin hy).1
      · exact n0.trans (neg0 y hk).le
    · rcases le_or_gt 0 y.key with hk | hk
      · have t := roundUnits_tie q0 (rep_of_isFin hy).1 (fun h => hne (by
          have : (y.val : ℝ) = ((pack false (roundUnits (r * 2 ^ 149))).val : ℝ) := by rw [yk y hk, hv, h]
          exact_mod_cast this)) (by
            rw [yk y hk, hv, e, e] at he
            exact (div_left_inj' p149.ne').1 he)
        unfold pack
        rw [dif_pos rep, bits_toNat_fin]
        have := even_of_dvd t
        simp only [Bool.false_eq_true, if_false]
        unfold mag
        omega
      · exact absurd he (ne_of_gt (lt_of_le_of_lt n0 (neg0 y hk)))
  · have ge : 2 ^ 277 ≤ roundUnits (r * 2 ^ 149) := by
      rw [← roundUnits_threshold]
      refine roundUnits_mono (by positivity) ?_
      push_cast
      have := mul_le_mul_of_nonneg_right hr p149.le
      rw [thr] at this
      norm_num at this ⊢
      exact this
    unfold pack
    rw [dif_neg (fun h => by have := h.2; omega)]
  · exfalso
    have : (0:ℝ) < (2 ^ 25 - 1) * 2 ^ 103 := by norm_num
    linarith

/-- Rounding a rational is correct. -/
theorem round_correct (s : Bool) (x : ℚ) : CorrectlyRounded (round s x) x := by
  have pos : ∀ (t : Bool) (x : ℚ), 0 < x → CorrectlyRounded (round t x) x := by
    intro t x hx
    have := correct_pack (r := (x : ℝ)) (by exact_mod_cast hx.le)
    rw [show ((x : ℝ) * 2 ^ 149) = ((x * 2 ^ 149 : ℚ) : ℝ) by push_cast; rfl, roundUnits_ratCast] at this
    unfold round
    rw [abs_of_pos hx, if_neg hx.ne', decide_eq_false (not_lt.2 hx.le)]
    exact this
  rcases lt_trichotomy x 0 with h | h | h
  · have := (pos (!s) (-x) (by linarith)).neg
    rw [round_neg, neg_neg'] at this
    push_cast at this
    rwa [neg_neg] at this
  · subst h
    have z := correct_pack (r := 0) le_rfl
    have e : round false 0 = pack false (roundUnits ((0:ℝ) * 2 ^ 149)) := by
      rw [zero_mul, roundUnits_zero]
      unfold round
      simp [roundUnits_zero]
    rw [← e] at z
    cases s
    · exact_mod_cast z
    · have := z.neg
      rw [← round_neg] at this
      simpa using this
  · exact pos s x h

theorem add_correct {a b : F32} (ha : a.IsFin = true) (hb : b.IsFin = true) :
    CorrectlyRounded (a + b) (a.val + b.val) := by
  rw [add_fin ha hb]; exact_mod_cast round_correct _ (a.val + b.val)

theorem sub_correct {a b : F32} (ha : a.IsFin = true) (hb : b.IsFin = true) :
    CorrectlyRounded (a - b) (a.val - b.val) := by
  rw [sub_fin ha hb]; exact_mod_cast round_correct _ (a.val - b.val)

theorem mul_correct {a b : F32} (ha : a.IsFin = true) (hb : b.IsFin = true) :
    CorrectlyRounded (a * b) (a.val * b.val) := by
  rw [mul_fin ha hb]; exact_mod_cast round_correct _ (a.val * b.val)

theorem div_correct {a b : F32} (ha : a.IsFin = true) (hb : b.IsFin = true) (h0 : b.val ≠ 0) :
    CorrectlyRounded (a / b) (a.val / b.val) := by
  rw [div_fin ha hb h0]; exact_mod_cast round_correct _ (a.val / b.val)

theorem fma_correct {a b c : F32} (ha : a.IsFin = true) (hb : b.IsFin = true) (hc : c.IsFin = true) :
    CorrectlyRounded (FloatOps.fma a b c) (a.val * b.val + c.val) := by
  have := fma_fin ha hb hc
  rw [this]; exact_mod_cast round_correct _ (a.val * b.val + c.val)

theorem CorrectlyRounded_of_isNearest {x : F32} {r : ℝ} (h : IsNearest x r) (hr : |r| < (2 ^ 25 - 1) * 2 ^ 103) :
    CorrectlyRounded x r := by
  refine ⟨fun _ => ⟨⟨h.1, fun y hy => ?_⟩, fun y hy hne he => ?_⟩, fun g => ?_, fun g => ?_⟩
  · by_cases e : y.val = x.val
    · rw [e]
    · exact (h.2 y hy e).le
  · exact absurd he.symm (ne_of_lt (h.2 y hy hne))
  · exact absurd hr (not_lt.2 (g.trans (le_abs_self r)))
  · exact absurd hr (not_lt.2 (by rw [← abs_neg]; exact (by linarith : _ ≤ -r).trans (le_abs_self (-r))))

theorem val_lt {x : F32} (h : x.IsFin = true) : x.val < 2 ^ 128 := by
  have := (key_bound_fin h).2
  unfold val
  rw [div_lt_iff₀ (by positivity)]
  calc (x.key : ℚ) < 2 ^ 277 := by exact_mod_cast this
    _ = 2 ^ 128 * 2 ^ 149 := by norm_num

theorem sqrt_zero_val {x : F32} (hx : x.IsFin = true) (h : x.val = 0) : FloatOps.sqrt x = x := by
  obtain ⟨s, k, hk, rfl⟩ := exists_fin hx
  have : k = 0 := by
    have := key_eq_zero.2 h
    cases s <;> simp [key] at this <;> exact this
  subst this
  cases s <;> rfl

theorem sqrt_correct {x : F32} (hx : x.IsFin = true) (h0 : 0 ≤ x.val) :
    CorrectlyRounded (FloatOps.sqrt x) (Real.sqrt x.val) := by
  rcases h0.lt_or_eq with h | h
  · refine CorrectlyRounded_of_isNearest (sqrt_nearest hx h) ?_
    rw [abs_of_nonneg (Real.sqrt_nonneg _)]
    have : (x.val : ℝ) < 2 ^ 128 := by exact_mod_cast val_lt hx
    calc Real.sqrt x.val ≤ Real.sqrt (2 ^ 128) := Real.sqrt_le_sqrt this.le
      _ = 2 ^ 64 := by rw [show ((2:ℝ) ^ 128) = (2 ^ 64) ^ 2 by norm_num, Real.sqrt_sq (by positivity)]
      _ < _ := by norm_num
  · rw [← h, Rat.cast_zero, Real.sqrt_zero, sqrt_zero_val hx h.symm]
    refine CorrectlyRounded_of_isNearest ⟨hx, fun y hy hne => ?_⟩ (by norm_num)
    rw [← h] at hne
    rw [← h, Rat.cast_zero, sub_zero, abs_zero, sub_zero, abs_pos]
    exact_mod_cast hne

/-- A number strictly between two nearest numbers does not exist. -/
theorem no_between {x y z : F32} {r : ℝ} (hx : Nearest x r) (hy : Nearest y r) (hz : z.IsFin = true)
    (h1 : x.val < z.val) (h2 : z.val < y.val) : False := by
  have a := hx.2 z hz
  have b := hy.2 z hz
  have h1' : (x.val : ℝ) < z.val := by exact_mod_cast h1
  have h2' : (z.val : ℝ) < y.val := by exact_mod_cast h2
  rcases abs_cases ((x.val : ℝ) - r) with c | c <;> rcases abs_cases ((y.val : ℝ) - r) with d | d <;>
    rcases abs_cases ((z.val : ℝ) - r) with e | e <;> linarith

theorem odd_next {x y : F32} {r : ℝ} (hx : Nearest x r) (hy : Nearest y r) (h0 : 0 ≤ x.key) (hlt : x.key < y.key)
    (ex : x.bits.toNat % 2 = 0) (ey : y.bits.toNat % 2 = 0) : False := by
  obtain ⟨s, k, hk, rfl⟩ := exists_fin hx.1
  obtain ⟨t, l, hl, rfl⟩ := exists_fin hy.1
  have kx : (fin s k hk).key = k := by cases s <;> simp [key] at h0 ⊢; omega
  have ky : (fin t l hl).key = l := by cases t <;> simp [key] at hlt h0 kx ⊢; omega
  rw [kx, ky] at hlt
  have hlt' : k < l := by exact_mod_cast hlt
  obtain ⟨m, hm, hm24⟩ := Rep'.exists_mul hk.1
  have hu : ulpExp k ≤ ulpExp l := ulpExp_mono hlt'.le
  obtain ⟨j, hj⟩ := (pow_dvd_pow 2 hu).trans hl.1
  have pu : 0 < 2 ^ ulpExp k := by positivity
  have mj : m < j := by
    by_contra hc
    rw [not_lt] at hc
    have : j * 2 ^ ulpExp k ≤ m * 2 ^ ulpExp k := Nat.mul_le_mul_right _ hc
    rw [← hm, mul_comm j, ← hj] at this
    omega
  have nxt : j = m + 1 := by
    by_contra hc
    have h1 : (m + 1) * 2 ^ ulpExp k < l := by
      rw [hj, mul_comm]
      exact Nat.mul_lt_mul_of_pos_left (by omega) pu
    have h2 : k < (m + 1) * 2 ^ ulpExp k := by rw [add_mul, one_mul, ← hm]; omega
    have rep : Rep ((m + 1) * 2 ^ ulpExp k) := ⟨rep'_mul_pow (by omega), h1.trans hl.2⟩
    refine no_between hx hy (z := fin false _ rep) rfl (key_lt_iff.1 ?_) (key_lt_iff.1 ?_)
    · rw [kx, key_fin_false]; exact_mod_cast h2
    · rw [ky, key_fin_false]; exact_mod_cast h1
  rw [bits_toNat_fin] at ex ey
  have dk : k / 2 ^ ulpExp k = m := Nat.div_eq_of_eq_mul_left pu hm
  have em : m % 2 = 0 := by
    unfold mag at ex
    rw [dk] at ex
    split_ifs at ex <;> omega
  have ul : ulpExp l = ulpExp k := by
    refine le_antisymm (ulpExp_le_of_lt ?_) hu
    rw [hj, pow_add]
    exact Nat.mul_lt_mul_of_pos_left (by omega) pu
  have dl : l / 2 ^ ulpExp l = m + 1 := by
    rw [ul]
    exact Nat.div_eq_of_eq_mul_right pu (by rw [← nxt]; exact hj)
  unfold mag at ey
  rw [dl] at ey
  split_ifs at ey <;> omega

theorem not_both {x y : F32} {r : ℝ} (hx : Nearest x r) (hy : Nearest y r) (hlt : x.key < y.key)
    (ex : x.bits.toNat % 2 = 0) (ey : y.bits.toNat % 2 = 0) : False := by
  rcases le_or_gt 0 x.key with h | h
  · exact odd_next hx hy h hlt ex ey
  · rcases le_or_gt y.key 0 with g | g
    · exact odd_next hy.neg hx.neg (by rw [key_neg]; omega) (by rw [key_neg, key_neg]; omega)
        (by rw [bits_neg_parity hy.1, ey]) (by rw [bits_neg_parity hx.1, ex])
    · exact no_between hx hy (z := lit 0) isFin_lit_zero (key_lt_iff.1 (by rw [key_lit_zero]; exact h))
        (key_lt_iff.1 (by rw [key_lit_zero]; exact g))

/-- Correct rounding leaves no freedom but the sign of a zero. -/
theorem CorrectlyRounded.unique {x y : F32} {r : ℝ} (hx : CorrectlyRounded x r) (hy : CorrectlyRounded y r) :
    x = y ∨ (x.IsFin = true ∧ y.IsFin = true ∧ x.val = 0 ∧ y.val = 0) := by
  rcases lt_or_ge |r| ((2 ^ 25 - 1) * 2 ^ 103) with h | h
  · obtain ⟨nx, tx⟩ := hx.1 h
    obtain ⟨ny, ty⟩ := hy.1 h
    have e : |(x.val : ℝ) - r| = |(y.val : ℝ) - r| := le_antisymm (nx.2 y ny.1) (ny.2 x nx.1)
    by_cases hv : x.val = y.val
    · by_cases h0 : x.val = 0
      · exact .inr ⟨nx.1, ny.1, h0, hv ▸ h0⟩
      · left
        rw [← round_val' nx.1 h0 false, ← round_val' ny.1 (hv ▸ h0) false, hv]
    · exfalso
      have ex := tx y ny.1 (fun h => hv h.symm) e.symm
      have ey := ty x nx.1 hv e
      rcases lt_or_gt_of_ne (fun h => hv (key_eq_iff.1 h)) with g | g
      · exact not_both nx ny g ex ey
      · exact not_both ny nx g ey ex
  · left
    rcases le_abs.1 h with g | g
    · rw [hx.2.1 g, hy.2.1 g]
    · rw [hx.2.2 (by linarith), hy.2.2 (by linarith)]

end Zcm.F32
