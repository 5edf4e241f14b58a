import Verif.Lemmas.F32Between
import Verif.Lemmas.F32Mix
import Verif.Lemmas.F32Persp
import Verif.Lemmas.F32QuatCast
import Verif.Lemmas.F32Slerp
import Verif.Lemmas.Srgb
import Verif.Model.ColorSpace

/-!
# Rounding errors of the sRGB conversions
-/

set_option exponentiation.threshold 300

namespace Zcm

open F32

/-! ### Literals and thresholds -/

private theorem rel_of_lit {x : F32} {R e : ℝ} (f : x.IsFin = true) (e0 : 0 < R) (h1 : |(x.val : ℝ) - R| ≤ e * R) :
    Rel x R e := ⟨f, by rwa [abs_of_pos e0]⟩

theorem srgb_le_iff {x : F32} (hx : x.IsFin = true) : x ≤ lit 0.04045 ↔ (x.val : ℝ) ≤ 0.04045 := by
  have l : (lit 0.04045 : F32).val ≤ 0.04045 := by decide +kernel
  constructor
  · intro h
    have h := key_le_iff.1 h.2.2
    have : x.val ≤ (0.04045 : ℚ) := h.trans l
    have := (Rat.cast_le (K := ℝ)).2 this
    push_cast at this
    exact this
  · intro h
    have h' : x.val ≤ (0.04045 : ℚ) := by
      have : ((x.val : ℚ) : ℝ) ≤ ((0.04045 : ℚ) : ℝ) := by push_cast; exact h
      exact_mod_cast this
    refine ⟨isFin_ne_nan hx, by decide +kernel, ?_⟩
    have := key_round_mono h' false false
    rwa [key_round_val hx] at this

theorem srgb_lt_iff {x : F32} (hx : x.IsFin = true) : x < lit 0.0031308 ↔ (x.val : ℝ) < 0.0031308 := by
  have l : (0.0031308 : ℚ) ≤ (lit 0.0031308 : F32).val := by decide +kernel
  constructor
  · intro h
    by_contra hc
    have h' : (0.0031308 : ℚ) ≤ x.val := by
      have : ((0.0031308 : ℚ) : ℝ) ≤ ((x.val : ℚ) : ℝ) := by push_cast; exact not_lt.1 hc
      exact_mod_cast this
    have := key_round_mono h' false false
    rw [key_round_val hx] at this
    exact absurd h.2.2 (not_lt.2 this)
  · intro h
    have h' : x.val < (0.0031308 : ℚ) := by
      have : ((x.val : ℚ) : ℝ) < ((0.0031308 : ℚ) : ℝ) := by push_cast; exact h
      exact_mod_cast this
    by_contra hc
    have := le_val_of_not_lt hx (by decide +kernel) hc
    have : (lit 0.0031308 : F32).val ≤ x.val := by exact_mod_cast this
    linarith

/-! ### Decoding -/

private theorem log_bound {b : ℝ} (h1 : 0.09 ≤ b) (h2 : b ≤ 2) : |Real.log b| ≤ 3 := by
  have b0 : 0 < b := lt_of_lt_of_le (by norm_num) h1
  have e : (19 : ℝ) ≤ Real.exp 3 := by
    have h := Real.exp_one_gt_d9
    have : Real.exp 3 = Real.exp 1 ^ 3 := by rw [← Real.exp_nat_mul]; norm_num
    rw [this]
    calc (19 : ℝ) ≤ 2.7182818283 ^ 3 := by norm_num
      _ ≤ _ := by gcongr
  rw [abs_le]
  constructor
  · rw [Real.le_log_iff_exp_le b0, Real.exp_neg]
    refine le_trans ?_ h1
    rw [inv_le_comm₀ (by positivity) (by norm_num)]
    refine le_trans ?_ e
    norm_num
  · rw [Real.log_le_iff_le_exp b0]
    linarith

/-- one component of `convertSRGBToLinear` -/
theorem decode_float [Libm F32] (hp : GoodPow) {x : F32} (fx : x.IsFin = true) (x0 : 0 ≤ (x.val : ℝ)) (x1 : (x.val : ℝ) ≤ 1.01) :
    Near (F.mixB (F.pow ((x + lit 0.055) * lit 0.94786729857819905213270142180095) (lit 2.4))
      (x * lit 0.07739938080495356037151702786378) (decide (x ≤ lit 0.04045)))
      (srgbDecode x.val) (20 / 2 ^ 24 * srgbDecode x.val + 1 / 2 ^ 150) := by
  unfold srgbDecode F.mixB
  by_cases h : (x.val : ℝ) ≤ 0.04045
  · rw [if_pos (by simpa using (srgb_le_iff fx).2 h), if_pos h]
    have c : Rel (lit 0.07739938080495356037151702786378 : F32) (1 / 12.92) (1 / 2 ^ 24) :=
      rel_of_lit (by decide +kernel) (by norm_num)
        (by
          have : |(lit 0.07739938080495356037151702786378 : F32).val - 1 / 12.92| ≤ 1 / 2 ^ 24 * (1 / 12.92 : ℚ) := by decide +kernel
          have := (Rat.cast_le (K := ℝ)).2 this
          push_cast at this ⊢
          exact this)
    have m := (Rel.exact fx).mul' c (g := 3 / 2 ^ 24) (by norm_num) (by norm_num) (by
      rw [abs_mul, abs_of_nonneg x0, abs_of_pos (by norm_num)]
      norm_num at h ⊢
      linarith)
    have e : (x.val : ℝ) / 12.92 = x.val * (1 / 12.92) := by ring
    rw [e]
    refine ⟨m.1, m.2.trans ?_⟩
    rw [abs_of_nonneg (mul_nonneg x0 (by norm_num))]
    have : 0 ≤ (x.val : ℝ) * (1 / 12.92) := mul_nonneg x0 (by norm_num)
    generalize (x.val : ℝ) * (1 / 12.92) = t at *
    linarith
  · rw [if_neg (by simpa using fun k => h ((srgb_le_iff fx).1 k)), if_neg h]
    push Not at h
    have xl : 0.04045 < (x.val : ℝ) := h
    have lv : |((lit 0.055 : F32).val : ℝ) - 0.055| ≤ 1 / 2 ^ 28 := by
      have : |(lit 0.055 : F32).val - (0.055 : ℚ)| ≤ 1 / 2 ^ 28 := by decide +kernel
      have := (Rat.cast_le (K := ℝ)).2 this
      push_cast at this ⊢
      exact this
    have s := rel_add fx (b := lit 0.055) (by decide +kernel) (by
      have := abs_le.1 lv
      rw [abs_le]
      constructor <;> norm_num at * <;> linarith)
    have s' : Rel (x + lit 0.055) ((x.val : ℝ) + 0.055) (1.7 / 2 ^ 24) := by
      refine ⟨s.fin, ?_⟩
      have e := s.err
      have l := abs_le.1 lv
      have lp : 0 < (x.val : ℝ) + (lit 0.055 : F32).val := by norm_num at *; linarith
      rw [abs_of_pos lp] at e
      rw [abs_of_pos (show 0 < (x.val : ℝ) + 0.055 by norm_num at *; linarith)]
      have e' := abs_le.1 e
      rw [abs_le]
      constructor <;> norm_num at * <;> linarith [e'.1, e'.2, l.1, l.2]
    have c : Rel (lit 0.94786729857819905213270142180095 : F32) (1 / 1.055) (0.5 / 2 ^ 24) :=
      rel_of_lit (by decide +kernel) (by norm_num)
        (by
          have : |(lit 0.94786729857819905213270142180095 : F32).val - 1 / 1.055| ≤ 0.5 / 2 ^ 24 * (1 / 1.055 : ℚ) := by decide +kernel
          have := (Rat.cast_le (K := ℝ)).2 this
          push_cast at this ⊢
          exact this)
    set b : ℝ := (x.val + 0.055) / 1.055 with hb
    have eb : ((x.val : ℝ) + 0.055) * (1 / 1.055) = b := by rw [hb]; ring
    have b1 : 0.0904 ≤ b := by rw [hb, le_div_iff₀ (by norm_num)]; norm_num at *; linarith
    have b2 : b ≤ 1.0096 := by rw [hb, div_le_iff₀ (by norm_num)]; norm_num at *; linarith
    have b0 : 0 < b := by linarith
    have m := s'.mul c (g := 3.3 / 2 ^ 24) (by norm_num) (by norm_num) (by
      rw [eb, abs_of_pos b0]; exact le_trans (by norm_num) b1) (by rw [eb, abs_of_pos b0]; exact b2.trans (by norm_num))
    rw [eb] at m
    generalize (x + lit 0.055) * (lit 0.94786729857819905213270142180095 : F32) = B at *
    have me := m.err
    rw [abs_of_pos b0] at me
    have mm := abs_le.1 me
    have B1 : 0.09 ≤ (B.val : ℝ) := by norm_num at *; linarith
    have B2 : (B.val : ℝ) ≤ 1.01 := by norm_num at *; linarith
    have gv : |((lit 2.4 : F32).val : ℝ) - 2.4| ≤ 1.7 / 2 ^ 24 := by
      have : |(lit 2.4 : F32).val - (2.4 : ℚ)| ≤ 1.7 / 2 ^ 24 := by decide +kernel
      have := (Rat.cast_le (K := ℝ)).2 this
      push_cast at this ⊢
      exact this
    have gl := abs_le.1 gv
    have p := hp B (lit 2.4) m.fin (by decide +kernel) (le_trans (by norm_num) B1) (B2.trans (by norm_num))
      (by norm_num at *; linarith) (by norm_num at *; linarith)
    have q := rpow_perturb (b := b) (b' := (B.val : ℝ)) (g := 2.4) (g' := (lit 2.4 : F32).val) (e := 3.3 / 2 ^ 24)
      (d := 1.7 / 2 ^ 24) (L := 3) (k := 15.1 / 2 ^ 24) b0 me (by norm_num) (by norm_num) (by norm_num) gv
      (log_bound B1 (B2.trans (by norm_num))) (by norm_num) (by norm_num) (by norm_num)
    have D0 : 0 < b ^ (2.4 : ℝ) := Real.rpow_pos_of_pos b0 _
    have P0 : 0 ≤ (B.val : ℝ) ^ ((lit 2.4 : F32).val : ℝ) := Real.rpow_nonneg (by linarith) _
    refine ⟨p.1, ?_⟩
    have p2 := p.2
    change |((Libm.powf B (lit 2.4)).val : ℝ) - _| ≤ _
    generalize (B.val : ℝ) ^ ((lit 2.4 : F32).val : ℝ) = P at *
    generalize b ^ (2.4 : ℝ) = D at *
    have t := abs_sub_le ((Libm.powf B (lit 2.4)).val : ℝ) P D
    have q' := abs_le.1 q
    have : P ≤ 1.01 * D := by norm_num at *; linarith
    have : (0 : ℝ) < 1 / 2 ^ 150 := by positivity
    norm_num at *
    linarith

/-! ### Encoding -/

private theorem log_bound' {b : ℝ} (h1 : 0.003 ≤ b) (h2 : b ≤ 1) : |Real.log b| ≤ 6 := by
  have b0 : 0 < b := lt_of_lt_of_le (by norm_num) h1
  have e : (400 : ℝ) ≤ Real.exp 6 := by
    have h := Real.exp_one_gt_d9
    have : Real.exp 6 = Real.exp 1 ^ 6 := by rw [← Real.exp_nat_mul]; norm_num
    rw [this]
    calc (400 : ℝ) ≤ 2.7182818283 ^ 6 := by norm_num
      _ ≤ _ := by gcongr
  rw [abs_le]
  constructor
  · rw [Real.le_log_iff_exp_le b0, Real.exp_neg]
    refine le_trans ?_ h1
    rw [inv_le_comm₀ (by positivity) (by norm_num)]
    refine le_trans ?_ e
    norm_num
  · exact (Real.log_nonpos b0.le h2).trans (by norm_num)

/-- one component of `convertLinearToSRGB` with an exponent -/
theorem encode_float [Libm F32] (hp : GoodPow) {x g : F32} (fx : x.IsFin = true) (hg : EncodingGamma g) :
    Near (F.mixB (F.pow (F.clamp x (lit 0) (lit 1)) g * lit 1.055 - lit 0.055) (F.clamp x (lit 0) (lit 1) * lit 12.92)
      (decide (F.clamp x (lit 0) (lit 1) < lit 0.0031308)))
      (srgbEncode (max 0 (min 1 x.val))) (1 / 2 ^ 20) := by
  obtain ⟨fc, vc⟩ := val_clamp01 fx
  rw [← vc]
  have c0 : 0 ≤ ((F.clamp x (lit 0) (lit 1)).val : ℝ) := by rw [vc]; exact le_max_left _ _
  have c1 : ((F.clamp x (lit 0) (lit 1)).val : ℝ) ≤ 1 := by rw [vc]; exact max_le zero_le_one (min_le_left _ _)
  generalize F.clamp x (lit 0) (lit 1) = c at *
  clear vc
  unfold srgbEncode F.mixB
  by_cases h : (c.val : ℝ) < 0.0031308
  · rw [if_pos (by simpa using (srgb_lt_iff fc).2 h), if_pos h.le]
    have k : Rel (lit 12.92 : F32) 12.92 (1 / 2 ^ 24) :=
      rel_of_lit (by decide +kernel) (by norm_num)
        (by
          have : |(lit 12.92 : F32).val - 12.92| ≤ 1 / 2 ^ 24 * (12.92 : ℚ) := by decide +kernel
          have := (Rat.cast_le (K := ℝ)).2 this
          push_cast at this ⊢
          exact this)
    have hu : |(c.val : ℝ) * 12.92| ≤ 0.05 := by
      rw [abs_mul, abs_of_nonneg c0, abs_of_pos (by norm_num)]
      norm_num at *
      linarith
    have m := (Rel.exact fc).mul' k (g := 3 / 2 ^ 24) (by norm_num) (by norm_num) (hu.trans (by norm_num))
    rw [mul_comm (12.92 : ℝ)]
    refine ⟨m.1, m.2.trans ?_⟩
    calc 3 / 2 ^ 24 * |(c.val : ℝ) * 12.92| + 1 / 2 ^ 150 ≤ 3 / 2 ^ 24 * 0.05 + 1 / 2 ^ 150 := by gcongr
      _ ≤ _ := by norm_num
  · have hne : (c.val : ℝ) ≠ 0.0031308 := by
      intro e
      have : c.val = (0.0031308 : ℚ) := by
        have : ((c.val : ℚ) : ℝ) = ((0.0031308 : ℚ) : ℝ) := by push_cast; exact e
        exact_mod_cast this
      have k := key_round_val fc false
      rw [this, show F32.round false 0.0031308 = lit 0.0031308 by decide +kernel] at k
      have : (lit 0.0031308 : F32).val = c.val := by unfold val; rw [k]
      have : (lit 0.0031308 : F32).val = (0.0031308 : ℚ) := by rw [this]; assumption
      exact absurd this (by decide +kernel)
    rw [if_neg (by simpa using fun k => h ((srgb_lt_iff fc).1 k)), if_neg (by
      intro k; exact hne (le_antisymm k (not_lt.1 h)))]
    have h := not_lt.1 h
    have cl : 0.0031308 ≤ (c.val : ℝ) := h
    have cp : 0 < (c.val : ℝ) := lt_of_lt_of_le (by norm_num) cl
    obtain ⟨fg, hg⟩ := hg
    have gl := abs_le.1 hg
    have p := hp c g fc fg (le_trans (by norm_num) cl) (c1.trans (by norm_num))
      (by norm_num at *; linarith) (by norm_num at *; linarith)
    have q := rpow_perturb (b := (c.val : ℝ)) (b' := (c.val : ℝ)) (g := 1 / 2.4) (g' := g.val) (e := 0)
      (d := 1 / 2 ^ 26) (L := 6) (k := 1.51 / 2 ^ 24) cp (by simp) (by norm_num) (by norm_num) (by norm_num) hg
      (log_bound' (le_trans (by norm_num) cl) c1) (by norm_num) (by norm_num) (by norm_num)
    have D0 : 0 < (c.val : ℝ) ^ (1 / 2.4 : ℝ) := Real.rpow_pos_of_pos cp _
    have D1 : (c.val : ℝ) ^ (1 / 2.4 : ℝ) ≤ 1 := Real.rpow_le_one c0 c1 (by norm_num)
    have Dl : 0.09 ≤ (c.val : ℝ) ^ (1 / 2.4 : ℝ) := le_rpow_of_pow5 c0 (by
      refine le_trans ?_ (pow_le_pow_left₀ (by norm_num) cl 5)
      norm_num)
    have P0 : 0 ≤ (c.val : ℝ) ^ (g.val : ℝ) := Real.rpow_nonneg c0 _
    have p2 := p.2
    have pf := p.1
    change Near (Libm.powf c g * lit 1.055 - lit 0.055) _ _
    generalize Libm.powf c g = y at *
    generalize (c.val : ℝ) ^ (g.val : ℝ) = P at *
    generalize (c.val : ℝ) ^ (1 / 2.4 : ℝ) = D at *
    have ry : Rel y D (5.6 / 2 ^ 24) := by
      refine ⟨pf, ?_⟩
      rw [abs_of_pos D0]
      have t := abs_sub_le (y.val : ℝ) P D
      have q' := abs_le.1 q
      have : P ≤ 1.001 * D := by norm_num at *; linarith
      norm_num at *
      linarith
    have k : Rel (lit 1.055 : F32) 1.055 (1 / 2 ^ 24) :=
      rel_of_lit (by decide +kernel) (by norm_num)
        (by
          have : |(lit 1.055 : F32).val - 1.055| ≤ 1 / 2 ^ 24 * (1.055 : ℚ) := by decide +kernel
          have := (Rat.cast_le (K := ℝ)).2 this
          push_cast at this ⊢
          exact this)
    have ad : |D * 1.055| = D * 1.055 := abs_of_pos (by positivity)
    have m := ry.mul k (g := 7.7 / 2 ^ 24) (by norm_num) (by norm_num) (by rw [ad]; norm_num at *; linarith)
      (by rw [ad]; norm_num at *; linarith)
    have me := m.err
    rw [ad] at me
    have lv : |((lit 0.055 : F32).val : ℝ) - 0.055| ≤ 1 / 2 ^ 28 := by
      have : |(lit 0.055 : F32).val - (0.055 : ℚ)| ≤ 1 / 2 ^ 28 := by decide +kernel
      have := (Rat.cast_le (K := ℝ)).2 this
      push_cast at this ⊢
      exact this
    have mm := abs_le.1 me
    have ll := abs_le.1 lv
    generalize y * (lit 1.055 : F32) = z at *
    have ab : |(z.val : ℝ) - (lit 0.055 : F32).val| ≤ 1.01 := by
      rw [abs_le]; constructor <;> norm_num at * <;> linarith
    have s := rel_sub m.fin (b := lit 0.055) (by decide +kernel) (ab.trans (by norm_num))
    refine ⟨s.fin, ?_⟩
    have se := s.err
    have se' : |((z - lit 0.055).val : ℝ) - (z.val - (lit 0.055 : F32).val)| ≤ 1.01 / 2 ^ 24 := by
      refine se.trans ?_
      calc 1 / 2 ^ 24 * |(z.val : ℝ) - (lit 0.055 : F32).val| ≤ 1 / 2 ^ 24 * 1.01 := by gcongr
        _ = _ := by ring
    have e3 := abs_le.1 se'
    rw [abs_le]
    constructor <;> norm_num at * <;> linarith [e3.1, e3.2, mm.1, mm.2, ll.1, ll.2]

/-! ### The overload without an exponent -/

private theorem rel_sqrt_exact {x : F32} (fx : x.IsFin = true) (x0 : 0 ≤ (x.val : ℝ)) :
    Rel (F.sqrt x) (Real.sqrt x.val) (1 / 2 ^ 24) := by
  rcases x0.eq_or_lt with h | h
  · have hv : x.val = 0 := by exact_mod_cast h.symm
    have : F.sqrt x = x := sqrt_zero_val fx hv
    rw [this, ← h, Real.sqrt_zero]
    exact ⟨fx, by rw [hv]; norm_num⟩
  · have hq : 0 < x.val := by exact_mod_cast h
    have c := sqrt_correct fx hq.le
    have l : (1 / 2 ^ 75 : ℝ) ≤ Real.sqrt x.val := by
      apply Real.le_sqrt_of_sq_le
      have h1 : ((1 / 2 ^ 149 : ℚ) : ℝ) ≤ (x.val : ℝ) := by exact_mod_cast val_ge_of_pos hq
      refine le_trans ?_ h1
      push_cast
      norm_num
    have u : Real.sqrt x.val ≤ 2 ^ 64 := by
      have : (x.val : ℝ) < 2 ^ 128 := by exact_mod_cast val_lt fx
      calc Real.sqrt x.val ≤ Real.sqrt (2 ^ 128) := Real.sqrt_le_sqrt this.le
        _ = 2 ^ 64 := by rw [show ((2:ℝ) ^ 128) = (2 ^ 64) ^ 2 by norm_num, Real.sqrt_sq (by positivity)]
    have s0 := Real.sqrt_nonneg (x.val : ℝ)
    obtain ⟨fr, err⟩ := c.rel (by rw [abs_of_nonneg s0]; exact le_trans (by norm_num) l)
      (by rw [abs_of_nonneg s0]; linarith)
    exact ⟨fr, err.trans (le_of_eq (by ring))⟩

private theorem rel_sqrt_zero {x : F32} {e g : ℝ} (h : Rel x 0 e) : Rel (F.sqrt x) 0 g := by
  have v : (x.val : ℝ) = 0 := by simpa using h.err
  have := rel_sqrt_exact h.fin v.ge
  rw [v, Real.sqrt_zero] at this
  exact ⟨this.fin, by simpa using this.err⟩

/-- an encoded component is not negative -/
theorem encode_float_nonneg [Libm F32] (hp : GoodPow) {x g : F32} (fx : x.IsFin = true) (hg : EncodingGamma g) :
    0 ≤ ((F.mixB (F.pow (F.clamp x (lit 0) (lit 1)) g * lit 1.055 - lit 0.055) (F.clamp x (lit 0) (lit 1) * lit 12.92)
      (decide (F.clamp x (lit 0) (lit 1) < lit 0.0031308))).val : ℝ) := by
  have n := encode_float hp fx hg
  obtain ⟨fc, vc⟩ := val_clamp01 fx
  rw [← vc] at n
  have c0 : 0 ≤ ((F.clamp x (lit 0) (lit 1)).val : ℝ) := by rw [vc]; exact le_max_left _ _
  generalize F.clamp x (lit 0) (lit 1) = c at *
  by_cases h : (c.val : ℝ) < 0.0031308
  · unfold F.mixB
    rw [if_pos (by simpa using (srgb_lt_iff fc).2 h)]
    exact mul_val_nonneg fc (by decide +kernel) c0 (by
      have : (0 : ℚ) ≤ (lit 12.92 : F32).val := by decide +kernel
      exact_mod_cast this)
  · have cl := not_lt.1 h
    have e : (0.03 : ℝ) ≤ srgbEncode c.val := by
      unfold srgbEncode
      split_ifs with k
      · norm_num at cl ⊢
        linarith
      · have Dl : 0.09 ≤ (c.val : ℝ) ^ (1 / 2.4 : ℝ) := le_rpow_of_pow5 c0 (by
          refine le_trans ?_ (pow_le_pow_left₀ (by norm_num) cl 5)
          norm_num)
        norm_num at Dl ⊢
        linarith
    have := (abs_le.1 n.2).1
    have t : (1 : ℝ) / 2 ^ 20 ≤ 0.03 := by norm_num
    linarith

/-- the three successive square roots -/
private theorem three_roots {c : F32} (fc : c.IsFin = true) (c0 : 0 ≤ (c.val : ℝ)) (c1 : (c.val : ℝ) ≤ 1) :
    Rel (F.sqrt c) (Real.sqrt c.val) (1 / 2 ^ 24) ∧ Rel (F.sqrt (F.sqrt c)) (Real.sqrt (Real.sqrt c.val)) (2 / 2 ^ 24) ∧
      Rel (F.sqrt (F.sqrt (F.sqrt c))) (Real.sqrt (Real.sqrt (Real.sqrt c.val))) (3 / 2 ^ 24) := by
  have h1 := rel_sqrt_exact fc c0
  refine ⟨h1, ?_⟩
  rcases c0.eq_or_lt with h | h
  · rw [← h, Real.sqrt_zero] at h1 ⊢
    rw [Real.sqrt_zero, Real.sqrt_zero]
    have h2 := rel_sqrt_zero (g := 2 / 2 ^ 24) h1
    exact ⟨h2, rel_sqrt_zero h2⟩
  · have hq : 0 < c.val := by exact_mod_cast h
    have l1 : (1 / 2 ^ 75 : ℝ) ≤ Real.sqrt c.val := by
      apply Real.le_sqrt_of_sq_le
      have h1 : ((1 / 2 ^ 149 : ℚ) : ℝ) ≤ (c.val : ℝ) := by exact_mod_cast val_ge_of_pos hq
      refine le_trans ?_ h1
      push_cast
      norm_num
    have u1 : Real.sqrt c.val ≤ 1 := Real.sqrt_le_one.2 c1
    have l2 : (1 / 2 ^ 38 : ℝ) ≤ Real.sqrt (Real.sqrt c.val) := by
      apply Real.le_sqrt_of_sq_le
      refine le_trans ?_ l1
      norm_num
    have u2 : Real.sqrt (Real.sqrt c.val) ≤ 1 := Real.sqrt_le_one.2 u1
    have h2 := rel_sqrt h1 (by norm_num) (by norm_num) (le_trans (by norm_num) l1) (u1.trans (by norm_num))
      (g := 2 / 2 ^ 24) (by norm_num)
    exact ⟨h2, rel_sqrt h2 (by norm_num) (by norm_num) (le_trans (by norm_num) l2) (u2.trans (by norm_num)) (by norm_num)⟩

private theorem term_close {k x : F32} {K r e : ℝ} (fk : k.IsFin = true) (K0 : 0 < K) (K1 : K ≤ 1)
    (hk : |(k.val : ℝ) - K| ≤ 1 / 2 ^ 24 * K) (hx : Rel x r e) (e1 : e ≤ 3 / 2 ^ 24) (r0 : 0 ≤ r) (r1 : r ≤ 1) :
    (k * x).IsFin = true ∧ |((k * x).val : ℝ) - K * r| ≤ 5.01 / 2 ^ 24 * K + 1 / 2 ^ 150 := by
  have rk : Rel k K (1 / 2 ^ 24) := ⟨fk, by rwa [abs_of_pos K0]⟩
  have ab : |K * r| = K * r := abs_of_nonneg (by positivity)
  have kr : K * r ≤ K := by nlinarith
  have m := rk.mul' hx (g := 5.01 / 2 ^ 24) (by norm_num at *; linarith) (by norm_num at *; linarith) (by
    rw [ab]; norm_num; linarith)
  refine ⟨m.1, m.2.trans ?_⟩
  rw [ab]
  gcongr

/-- one component of `convertLinearToSRGB` without an exponent -/
theorem roots_float {c : F32} (hc : Component c) :
    Near ((lit 0.662002687 : F32) * F.sqrt c + (lit 0.684122060 : F32) * F.sqrt (F.sqrt c) -
      (lit 0.323583601 : F32) * F.sqrt (F.sqrt (F.sqrt c)) - (lit 0.0225411470 : F32) * c) (srgbRoots c.val) (1 / 2 ^ 20) := by
  obtain ⟨fc, c0, c1⟩ := hc
  obtain ⟨h1, h2, h3⟩ := three_roots fc c0 c1
  have u1 : Real.sqrt c.val ≤ 1 := Real.sqrt_le_one.2 c1
  have u2 : Real.sqrt (Real.sqrt c.val) ≤ 1 := Real.sqrt_le_one.2 u1
  have u3 : Real.sqrt (Real.sqrt (Real.sqrt c.val)) ≤ 1 := Real.sqrt_le_one.2 u2
  have p1 := Real.sqrt_nonneg (c.val : ℝ)
  have p2 := Real.sqrt_nonneg (Real.sqrt c.val)
  have p3 := Real.sqrt_nonneg (Real.sqrt (Real.sqrt c.val))
  obtain ⟨f1, t1⟩ := term_close (k := lit 0.662002687) (K := 0.662002687) (by decide +kernel) (by norm_num) (by norm_num) (by
    have : |(lit 0.662002687 : F32).val - 0.662002687| ≤ 1 / 2 ^ 24 * (0.662002687 : ℚ) := by decide +kernel
    have := (Rat.cast_le (K := ℝ)).2 this
    push_cast at this
    exact this) h1 (by norm_num) p1 u1
  obtain ⟨f2, t2⟩ := term_close (k := lit 0.684122060) (K := 0.684122060) (by decide +kernel) (by norm_num) (by norm_num) (by
    have : |(lit 0.684122060 : F32).val - 0.684122060| ≤ 1 / 2 ^ 24 * (0.684122060 : ℚ) := by decide +kernel
    have := (Rat.cast_le (K := ℝ)).2 this
    push_cast at this
    exact this) h2 (by norm_num) p2 u2
  obtain ⟨f3, t3⟩ := term_close (k := lit 0.323583601) (K := 0.323583601) (by decide +kernel) (by norm_num) (by norm_num) (by
    have : |(lit 0.323583601 : F32).val - 0.323583601| ≤ 1 / 2 ^ 24 * (0.323583601 : ℚ) := by decide +kernel
    have := (Rat.cast_le (K := ℝ)).2 this
    push_cast at this
    exact this) h3 (by norm_num) p3 u3
  obtain ⟨f4, t4⟩ := term_close (k := lit 0.0225411470) (K := 0.0225411470) (by decide +kernel) (by norm_num) (by norm_num) (by
    have : |(lit 0.0225411470 : F32).val - 0.0225411470| ≤ 1 / 2 ^ 24 * (0.0225411470 : ℚ) := by decide +kernel
    have := (Rat.cast_le (K := ℝ)).2 this
    push_cast at this
    exact this) (Rel.exact fc) (by norm_num) c0 c1
  unfold srgbRoots
  generalize (lit 0.662002687 : F32) * F.sqrt c = a at *
  generalize (lit 0.684122060 : F32) * F.sqrt (F.sqrt c) = b at *
  generalize (lit 0.323583601 : F32) * F.sqrt (F.sqrt (F.sqrt c)) = d at *
  generalize (lit 0.0225411470 : F32) * c = e at *
  clear h1 h2 h3
  generalize Real.sqrt (Real.sqrt (Real.sqrt c.val)) = S3 at *
  generalize Real.sqrt (Real.sqrt c.val) = S2 at *
  generalize Real.sqrt c.val = S1 at *
  generalize (c.val : ℝ) = v at *
  have a1 : |(0.662002687 : ℝ) * S1| ≤ 0.67 := by rw [abs_of_nonneg (by positivity)]; norm_num; linarith
  have a2 : |(0.684122060 : ℝ) * S2| ≤ 0.69 := by rw [abs_of_nonneg (by positivity)]; norm_num; linarith
  have a3 : |(0.323583601 : ℝ) * S3| ≤ 0.33 := by rw [abs_of_nonneg (by positivity)]; norm_num; linarith
  have a4 : |(0.0225411470 : ℝ) * v| ≤ 0.03 := by rw [abs_of_nonneg (by positivity)]; norm_num; linarith
  have tiny : (1 / 2 ^ 150 : ℝ) ≤ 1 / 2 ^ 40 := by norm_num
  obtain ⟨g1, w1⟩ := add_close f1 f2 (t1.trans (by norm_num at tiny ⊢ : _ ≤ (3.4 / 2 ^ 24 : ℝ)))
    (t2.trans (by norm_num at tiny ⊢ : _ ≤ (3.5 / 2 ^ 24 : ℝ))) (by norm_num at *; linarith)
  have w1' : |((a + b).val : ℝ) - (0.662002687 * S1 + 0.684122060 * S2)| ≤ 8.3 / 2 ^ 24 := by norm_num at *; linarith
  have b1 : |(0.662002687 : ℝ) * S1 + 0.684122060 * S2| ≤ 1.36 := (abs_add_le _ _).trans (by norm_num at *; linarith)
  obtain ⟨g2, w2⟩ := add_close g1 (y := -d) (s := -(0.323583601 * S3)) (by rw [isFin_neg]; exact f3) w1'
    (F := 1.7 / 2 ^ 24) (by
      rw [val_neg]; push_cast
      rw [← neg_sub', abs_neg]
      refine t3.trans (by norm_num)) (by rw [abs_neg]; norm_num at *; linarith)
  rw [← F32.sub_eq, ← sub_eq_add_neg] at w2
  rw [← F32.sub_eq] at g2
  rw [abs_neg] at w2
  have w2' : |((a + b - d).val : ℝ) - (0.662002687 * S1 + 0.684122060 * S2 - 0.323583601 * S3)| ≤ 11.8 / 2 ^ 24 := by
    norm_num at *; linarith
  have b2 : |(0.662002687 : ℝ) * S1 + 0.684122060 * S2 - 0.323583601 * S3| ≤ 1.69 := (abs_sub _ _).trans (by norm_num at *; linarith)
  obtain ⟨g3, w3⟩ := add_close g2 (y := -e) (s := -(0.0225411470 * v)) (by rw [isFin_neg]; exact f4) w2'
    (F := 0.2 / 2 ^ 24) (by
      rw [val_neg]; push_cast
      rw [← neg_sub', abs_neg]
      refine t4.trans (by norm_num)) (by rw [abs_neg]; norm_num at *; linarith)
  rw [← F32.sub_eq, ← sub_eq_add_neg, abs_neg] at w3
  rw [← F32.sub_eq] at g3
  refine ⟨g3, w3.trans ?_⟩
  norm_num at *
  linarith

/-! ### A C library that is good enough -/

@[instance_reducible]
noncomputable def powLibm : Libm F32 where
  expf := id
  logf := id
  log2f := id
  powf x y := closeFloat ((x.val : ℝ) ^ (y.val : ℝ))
  cbrtf := id
  sinf := id
  cosf := id
  tanf := id
  asinf := id
  acosf := id
  atanf := id
  atan2f x _ := x
  sinhf := id
  coshf := id
  tanhf := id
  asinhf := id
  acoshf := id
  atanhf := id

theorem powLibm_good : @GoodPow powLibm := by
  intro x y _ _ x0 x1 y0 y1
  have xp : 0 < (x.val : ℝ) := lt_of_lt_of_le (by norm_num) x0
  have u : (x.val : ℝ) ^ (y.val : ℝ) ≤ 16 := by
    calc (x.val : ℝ) ^ (y.val : ℝ) ≤ 2 ^ (y.val : ℝ) := Real.rpow_le_rpow xp.le x1 (by linarith)
      _ ≤ 2 ^ (4 : ℝ) := Real.rpow_le_rpow_of_exponent_le (by norm_num) y1
      _ = 16 := by norm_num
  have l : 1 / 2 ^ 40 ≤ (x.val : ℝ) ^ (y.val : ℝ) := by
    calc (1 / 2 ^ 40 : ℝ) = (1 / 2 ^ 10) ^ ((4 : ℕ) : ℝ) := by rw [Real.rpow_natCast]; norm_num
      _ ≤ (1 / 2 ^ 10) ^ (y.val : ℝ) := Real.rpow_le_rpow_of_exponent_ge (by norm_num) (by norm_num) (by push_cast; exact y1)
      _ ≤ _ := Real.rpow_le_rpow (by norm_num) x0 (by linarith)
  have p : 0 ≤ (x.val : ℝ) ^ (y.val : ℝ) := Real.rpow_nonneg xp.le _
  obtain ⟨f, e⟩ := closeFloat_close (y := (x.val : ℝ) ^ (y.val : ℝ)) (by rw [abs_of_nonneg p]; linarith)
  refine ⟨f, e.trans ?_⟩
  rw [abs_of_nonneg p]
  norm_num at *
  linarith

end Zcm
