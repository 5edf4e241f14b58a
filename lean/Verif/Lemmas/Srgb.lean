import Mathlib.Analysis.Complex.ExponentialBounds
import Mathlib.Analysis.Convex.SpecificFunctions.Pow
import Verif.Lemmas.PolyPos
import Verif.Spec.Srgb

/-!
# The sRGB curve in exact arithmetic
-/

namespace Zcm

/-! ### Powers -/

theorem rpow_log_bound {b : ℝ} (hb : 0 < b) {z : ℝ} (hz : |z * Real.log b| ≤ 1) :
    |b ^ z - 1| ≤ |z * Real.log b| + |z * Real.log b| ^ 2 := by
  rw [Real.rpow_def_of_pos hb, mul_comm (Real.log b)]
  have h := Real.abs_exp_sub_one_sub_id_le hz
  rw [sq_abs]
  calc |Real.exp (z * Real.log b) - 1| = |(Real.exp (z * Real.log b) - 1 - z * Real.log b) + z * Real.log b| := by
        congr 1; ring
    _ ≤ |Real.exp (z * Real.log b) - 1 - z * Real.log b| + |z * Real.log b| := abs_add_le _ _
    _ ≤ _ := by linarith

/-- A power when base and exponent are slightly off. -/
theorem rpow_perturb {b b' g g' e d L k : ℝ} (hb : 0 < b) (h : |b' - b| ≤ e * b) (e1 : e < 1) (hg0 : 0 ≤ g)
    (hg : g ≤ 3) (hd : |g' - g| ≤ d) (hL : |Real.log b'| ≤ L) (z1 : d * L ≤ 1 / 100)
    (hk1 : (1 + e) ^ 3 * (1 + (d * L + (d * L) ^ 2)) ≤ 1 + k) (hk2 : 1 - k ≤ (1 - e) ^ 3 * (1 - (d * L + (d * L) ^ 2))) :
    |b' ^ g' - b ^ g| ≤ k * b ^ g := by
  have e0 : 0 ≤ e := by
    have := (abs_nonneg _).trans h
    exact nonneg_of_mul_nonneg_left this hb
  have hh := abs_le.1 h
  have hb' : 0 < b' := by nlinarith [hh.1]
  have d0 : 0 ≤ d := (abs_nonneg _).trans hd
  have L0 : 0 ≤ L := (abs_nonneg _).trans hL
  have zl : |(g' - g) * Real.log b'| ≤ d * L := by rw [abs_mul]; gcongr
  have z := rpow_log_bound hb' (z := g' - g) (by linarith)
  have z2 : |b' ^ (g' - g) - 1| ≤ d * L + (d * L) ^ 2 := z.trans (by gcongr)
  have z3 := abs_le.1 z2
  have dl : 0 ≤ d * L := by positivity
  have q1 : b' / b ≤ 1 + e := by rw [div_le_iff₀ hb]; linarith [hh.2]
  have q2 : 1 - e ≤ b' / b := by rw [le_div_iff₀ hb]; linarith [hh.1]
  have qp : 0 < b' / b := by positivity
  have r1 : (b' / b) ^ g ≤ (1 + e) ^ 3 := by
    calc (b' / b) ^ g ≤ (1 + e) ^ g := Real.rpow_le_rpow qp.le q1 hg0
      _ ≤ (1 + e) ^ (3 : ℝ) := Real.rpow_le_rpow_of_exponent_le (by linarith) hg
      _ = _ := by rw [← Real.rpow_natCast]; norm_num
  have r2 : (1 - e) ^ 3 ≤ (b' / b) ^ g := by
    calc (1 - e) ^ 3 = (1 - e) ^ (3 : ℝ) := by rw [← Real.rpow_natCast]; norm_num
      _ ≤ (1 - e) ^ g := Real.rpow_le_rpow_of_exponent_ge (by linarith) (by linarith) hg
      _ ≤ _ := Real.rpow_le_rpow (by linarith) q2 hg0
  have split : b' ^ g' = b ^ g * ((b' / b) ^ g * b' ^ (g' - g)) := by
    rw [Real.div_rpow hb'.le hb.le, Real.rpow_sub hb']
    have := Real.rpow_pos_of_pos hb g
    have := Real.rpow_pos_of_pos hb' g
    field_simp
  have bp := Real.rpow_pos_of_pos hb g
  have rp : 0 < (b' / b) ^ g := Real.rpow_pos_of_pos qp g
  have zs : 0 ≤ 1 - (d * L + (d * L) ^ 2) := by nlinarith
  have em : 0 ≤ (1 - e) ^ 3 := pow_nonneg (by linarith) 3
  have u : (b' / b) ^ g * b' ^ (g' - g) ≤ 1 + k := by
    refine le_trans ?_ hk1
    refine mul_le_mul r1 (by linarith [z3.2]) (Real.rpow_nonneg hb'.le _) (by positivity)
  have l : 1 - k ≤ (b' / b) ^ g * b' ^ (g' - g) := by
    refine hk2.trans ?_
    refine mul_le_mul r2 (by linarith [z3.1]) zs rp.le
  rw [split, abs_le]
  constructor <;> nlinarith

theorem rpow_le_of_pow5 {x y : ℝ} (hx : 0 ≤ x) (hy : 0 ≤ y) (h : x ^ 5 ≤ y ^ 12) : x ^ (1 / 2.4 : ℝ) ≤ y := by
  refine le_of_pow_le_pow_left₀ (n := 12) (by norm_num) hy ?_
  rw [← Real.rpow_natCast, ← Real.rpow_mul hx]
  rw [show (1 / 2.4 * ((12 : ℕ) : ℝ)) = ((5 : ℕ) : ℝ) by norm_num, Real.rpow_natCast]
  exact h

theorem le_rpow_of_pow5 {x y : ℝ} (hx : 0 ≤ x) (h : y ^ 12 ≤ x ^ 5) : y ≤ x ^ (1 / 2.4 : ℝ) := by
  refine le_of_pow_le_pow_left₀ (n := 12) (by norm_num) (Real.rpow_nonneg hx _) ?_
  rw [← Real.rpow_natCast (x ^ (1 / 2.4 : ℝ)), ← Real.rpow_mul hx]
  rw [show (1 / 2.4 * ((12 : ℕ) : ℝ)) = ((5 : ℕ) : ℝ) by norm_num, Real.rpow_natCast]
  exact h

theorem rpow_le_of_pow12 {x y : ℝ} (hx : 0 ≤ x) (hy : 0 ≤ y) (h : x ^ 12 ≤ y ^ 5) : x ^ (2.4 : ℝ) ≤ y := by
  refine le_of_pow_le_pow_left₀ (n := 5) (by norm_num) hy ?_
  rw [← Real.rpow_natCast, ← Real.rpow_mul hx]
  rw [show (2.4 * ((5 : ℕ) : ℝ)) = ((12 : ℕ) : ℝ) by norm_num, Real.rpow_natCast]
  exact h

theorem le_rpow_of_pow12 {x y : ℝ} (hx : 0 ≤ x) (h : y ^ 5 ≤ x ^ 12) : y ≤ x ^ (2.4 : ℝ) := by
  refine le_of_pow_le_pow_left₀ (n := 5) (by norm_num) (Real.rpow_nonneg hx _) ?_
  rw [← Real.rpow_natCast (x ^ (2.4 : ℝ)), ← Real.rpow_mul hx]
  rw [show (2.4 * ((5 : ℕ) : ℝ)) = ((12 : ℕ) : ℝ) by norm_num, Real.rpow_natCast]
  exact h

theorem rpow_inv {y : ℝ} (hy : 0 ≤ y) : (y ^ (2.4 : ℝ)) ^ (1 / 2.4 : ℝ) = y := by
  rw [← Real.rpow_mul hy]; norm_num

theorem rpow_inv' {y : ℝ} (hy : 0 ≤ y) : (y ^ (1 / 2.4 : ℝ)) ^ (2.4 : ℝ) = y := by
  rw [← Real.rpow_mul hy]; norm_num

/-! ### The two directions undo each other, also when the number in between is slightly off -/

theorem srgbDecode_range {x : ℝ} (h0 : 0 ≤ x) (h1 : x ≤ 1) : 0 ≤ srgbDecode x ∧ srgbDecode x ≤ 1 := by
  unfold srgbDecode
  split_ifs with h
  · exact ⟨by positivity, by rw [div_le_one (by norm_num)]; linarith⟩
  · refine ⟨Real.rpow_nonneg (by positivity) _, Real.rpow_le_one (by positivity) ?_ (by norm_num)⟩
    rw [div_le_one (by norm_num)]; linarith

theorem srgbEncode_range {x : ℝ} (h0 : 0 ≤ x) (h1 : x ≤ 1) : 0 ≤ srgbEncode x ∧ srgbEncode x ≤ 1 := by
  unfold srgbEncode
  split_ifs with h
  · exact ⟨by positivity, by norm_num at h; linarith⟩
  · have a : (0.09 : ℝ) ≤ x ^ (1 / 2.4 : ℝ) := le_rpow_of_pow5 h0 (by
      push Not at h
      have := pow_le_pow_left₀ (by norm_num) h.le 5
      refine le_trans ?_ this
      norm_num)
    have b : x ^ (1 / 2.4 : ℝ) ≤ 1 := Real.rpow_le_one h0 h1 (by norm_num)
    constructor <;> norm_num at * <;> linarith

theorem encode_decode_near {x d : ℝ} (h0 : 0 ≤ x) (h1 : x ≤ 1) (h : |d - srgbDecode x| ≤ 1 / 2 ^ 19 * srgbDecode x) :
    |srgbEncode d - x| ≤ 1.06 / 2 ^ 19 := by
  unfold srgbDecode at h
  unfold srgbEncode
  split_ifs at h with hx
  · have hh := abs_le.1 h
    have hd0 : 0 ≤ d := by
      have : 0 ≤ x / 12.92 := by positivity
      nlinarith [hh.1]
    split_ifs with hd
    · rw [show (12.92 * d - x : ℝ) = 12.92 * (d - x / 12.92) by ring, abs_mul, abs_of_pos (by norm_num : (0 : ℝ) < 12.92)]
      calc (12.92 : ℝ) * |d - x / 12.92| ≤ 12.92 * (1 / 2 ^ 19 * (x / 12.92)) := by gcongr
        _ = x / 2 ^ 19 := by ring
        _ ≤ _ := by gcongr; linarith
    · push Not at hd
      have u : d ≤ 0.00313082 := by
        have := hh.2
        norm_num at *
        linarith
      have l : 0.04044985 ≤ x := by
        have := hh.2
        norm_num at *
        linarith
      have a : (0.0904738 : ℝ) ≤ d ^ (1 / 2.4 : ℝ) := le_rpow_of_pow5 hd0 (by
        refine le_trans ?_ (pow_le_pow_left₀ (by norm_num) hd.le 5)
        norm_num)
      have b : d ^ (1 / 2.4 : ℝ) ≤ 0.0904742 := rpow_le_of_pow5 hd0 (by norm_num) (by
        refine (pow_le_pow_left₀ hd0 u 5).trans ?_
        norm_num)
      rw [abs_le]
      generalize d ^ (1 / 2.4 : ℝ) = t at *
      norm_num at *
      constructor <;> linarith
  · push Not at hx
    set y := (x + 0.055) / 1.055 with hy
    have yl : (0.09545 / 1.055 : ℝ) ≤ y := by
      rw [hy]; gcongr; norm_num at *; linarith
    have y0 : 0 < y := lt_of_lt_of_le (by norm_num) yl
    have D0 : 0 < y ^ (2.4 : ℝ) := Real.rpow_pos_of_pos y0 _
    have hh := abs_le.1 h
    have Dl : (0.0031308072 : ℝ) ≤ y ^ (2.4 : ℝ) := le_rpow_of_pow12 y0.le (by
      refine le_trans ?_ (pow_le_pow_left₀ (by norm_num) yl 12)
      norm_num)
    have hd : ¬ d ≤ 0.0031308 := by
      have := hh.1
      generalize y ^ (2.4 : ℝ) = D at *
      norm_num at *
      linarith
    rw [if_neg hd]
    have d0 : 0 < d := by
      push Not at hd
      exact lt_trans (by norm_num) hd
    set r := d / y ^ (2.4 : ℝ) with hr
    have er : d = y ^ (2.4 : ℝ) * r := by rw [hr]; field_simp
    have r0 : 0 < r := by positivity
    have r1 : |r - 1| ≤ 1 / 2 ^ 19 := by
      rw [hr, div_sub_one D0.ne', abs_div, abs_of_pos D0, div_le_iff₀ D0]
      exact h
    have e1 : d ^ (1 / 2.4 : ℝ) = y * r ^ (1 / 2.4 : ℝ) := by
      rw [er, Real.mul_rpow D0.le r0.le, rpow_inv y0.le]
    have q : |r ^ (1 / 2.4 : ℝ) - 1| ≤ 1 / 2 ^ 19 := by
      refine le_trans ?_ r1
      rcases le_total r 1 with hr1 | hr1
      · have := Real.rpow_le_rpow_of_exponent_ge r0 hr1 (by norm_num : (1 / 2.4 : ℝ) ≤ 1)
        rw [Real.rpow_one] at this
        have := Real.rpow_le_one r0.le hr1 (by norm_num : (0 : ℝ) ≤ 1 / 2.4)
        rw [abs_of_nonpos (by linarith), abs_of_nonpos (by linarith)]
        linarith
      · have := Real.rpow_le_rpow_of_exponent_le hr1 (by norm_num : (1 / 2.4 : ℝ) ≤ 1)
        rw [Real.rpow_one] at this
        have := Real.one_le_rpow hr1 (by norm_num : (0 : ℝ) ≤ 1 / 2.4)
        rw [abs_of_nonneg (by linarith), abs_of_nonneg (by linarith)]
        linarith
    rw [e1, show (1.055 * (y * r ^ (1 / 2.4 : ℝ)) - 0.055 - x : ℝ) = (x + 0.055) * (r ^ (1 / 2.4 : ℝ) - 1) by
      rw [hy]; ring, abs_mul, abs_of_pos (by positivity)]
    calc (x + 0.055) * |r ^ (1 / 2.4 : ℝ) - 1| ≤ 1.06 * (1 / 2 ^ 19) := by gcongr; norm_num; linarith
      _ = _ := by ring

theorem decode_encode_near {c e : ℝ} (h0 : 0 ≤ c) (h1 : c ≤ 1) (h : |e - srgbEncode c| ≤ 1 / 2 ^ 20) :
    |srgbDecode e - c| ≤ 3 / 2 ^ 20 := by
  unfold srgbEncode at h
  unfold srgbDecode
  have hh := abs_le.1 h
  split_ifs at h hh with hc
  · split_ifs with he
    · rw [show (e / 12.92 - c : ℝ) = (e - 12.92 * c) / 12.92 by ring, abs_div, abs_of_pos (by norm_num : (0 : ℝ) < 12.92),
        div_le_iff₀ (by norm_num)]
      refine h.trans (by norm_num)
    · push Not at he
      set y := (e + 0.055) / 1.055 with hy
      have yl : (0.09545 / 1.055 : ℝ) ≤ y := by
        rw [hy]; gcongr; norm_num at *; linarith
      have yu : y ≤ (0.095451 / 1.055 : ℝ) := by
        rw [hy]; gcongr; have := hh.2; norm_num at *; linarith
      have y0 : 0 ≤ y := le_trans (by norm_num) yl
      have cl : 0.0031307 ≤ c := by have := hh.2; norm_num at *; linarith
      have a : (0.0031308 : ℝ) ≤ y ^ (2.4 : ℝ) := le_rpow_of_pow12 y0 (by
        refine le_trans ?_ (pow_le_pow_left₀ (by norm_num) yl 12)
        norm_num)
      have b : y ^ (2.4 : ℝ) ≤ 0.003131 := rpow_le_of_pow12 y0 (by norm_num) (by
        refine (pow_le_pow_left₀ y0 yu 12).trans ?_
        norm_num)
      rw [abs_le]
      generalize y ^ (2.4 : ℝ) = t at *
      norm_num at *
      constructor <;> linarith
  · push Not at hc
    set y := c ^ (1 / 2.4 : ℝ) with hy
    have yc : y ^ (2.4 : ℝ) = c := rpow_inv' h0
    have yl : (0.0904738 : ℝ) ≤ y := le_rpow_of_pow5 h0 (by
      refine le_trans ?_ (pow_le_pow_left₀ (by norm_num) hc.le 5)
      norm_num)
    have y0 : 0 < y := lt_of_lt_of_le (by norm_num) yl
    have y1 : y ≤ 1 := Real.rpow_le_one h0 h1 (by norm_num)
    split_ifs with he
    · have yu : y ≤ 0.090475 := by have := hh.1; norm_num at *; linarith
      have cu : c ≤ 0.003131 := by
        rw [← yc]
        refine rpow_le_of_pow12 y0.le (by norm_num) ((pow_le_pow_left₀ y0.le yu 12).trans ?_)
        norm_num
      have := hh.1
      rw [abs_le]
      norm_num at *
      constructor <;> linarith
    · set w := (e + 0.055) / 1.055 with hw
      have wy : |w - y| ≤ 1 / 2 ^ 20 / 1.055 := by
        rw [show w - y = (e - (1.055 * y - 0.055)) / 1.055 by rw [hw]; ring, abs_div,
          abs_of_pos (by norm_num : (0 : ℝ) < 1.055)]
        gcongr
      set ε := 1 / 2 ^ 20 / 1.055 / y with hε
      have ε0 : 0 < ε := by positivity
      have ε1 : ε ≤ 1 / 2 ^ 16 := by
        rw [hε, div_le_iff₀ y0]
        norm_num at *
        linarith
      have wl : 0 < w := by
        have := (abs_le.1 wy).1
        norm_num at *
        linarith
      have p := rpow_perturb (b := y) (b' := w) (g := 2.4) (g' := 2.4) (e := ε) (d := 0) (L := |Real.log w|) (k := 3.001 * ε) y0
        (by rw [hε]; field_simp; field_simp at wy; linarith) (by linarith) (by norm_num) (by norm_num) (by simp) le_rfl (by simp)
        (by nlinarith [sq_nonneg ε]) (by nlinarith [sq_nonneg ε])
      rw [yc] at p
      refine p.trans ?_
      have cy : c ≤ y := by
        rw [← yc]
        calc y ^ (2.4 : ℝ) ≤ y ^ (1 : ℝ) := Real.rpow_le_rpow_of_exponent_ge y0 y1 (by norm_num)
          _ = y := Real.rpow_one y
      calc 3.001 * ε * c ≤ 3.001 * ε * y := by gcongr
        _ = 3.001 * (1 / 2 ^ 20 / 1.055) := by rw [hε]; field_simp
        _ ≤ _ := by norm_num

/-! ### The approximation by square roots -/

/-- The formula of the overload without an exponent. -/
noncomputable def srgbRoots (c : ℝ) : ℝ :=
  0.662002687 * Real.sqrt c + 0.684122060 * Real.sqrt (Real.sqrt c) - 0.323583601 * Real.sqrt (Real.sqrt (Real.sqrt c)) -
    0.0225411470 * c

private def above : List ℚ :=
  [0.055 + 0.00099, 0, 0, -0.323583601, 0, 0, 0.684122060, 0, 0, 0, -1.055, 0, 0.662002687, 0, 0, 0, 0, 0, 0, 0, 0, 0, 0, 0,
    -0.0225411470]

private def below : List ℚ :=
  [-0.055 + 0.00099, 0, 0, 0.323583601, 0, 0, -0.684122060, 0, 0, 0, 1.055, 0, -0.662002687, 0, 0, 0, 0, 0, 0, 0, 0, 0, 0, 0,
    0.0225411470]

private theorem above_test : polyTest (393 / 500) 1 above = true := by decide +kernel

private theorem below_test : polyTest (393 / 500) 1 below = true := by decide +kernel

private theorem roots_poly {u : ℝ} (h0 : 393 / 500 ≤ u) (h1 : u ≤ 1) :
    |0.662002687 * u ^ 12 + 0.684122060 * u ^ 6 - 0.323583601 * u ^ 3 - 0.0225411470 * u ^ 24 - (1.055 * u ^ 10 - 0.055)| ≤
      0.00099 := by
  have a := polyAt_nonneg_on above_test (u := u) (by norm_num; linarith) (by norm_num; linarith)
  have b := polyAt_nonneg_on below_test (u := u) (by norm_num; linarith) (by norm_num; linarith)
  simp only [above, below, polyAt] at a b
  push_cast at a b
  rw [abs_le]
  constructor
  · refine le_of_sub_nonneg (a.trans (le_of_eq ?_)); ring
  · refine le_of_sub_nonneg (b.trans (le_of_eq ?_)); ring

private theorem roots_dark {t : ℝ} (h0 : 0 ≤ t) (h1 : t ≤ 0.49) :
    |0.662002687 * t ^ 4 + 0.684122060 * t ^ 2 - 0.323583601 * t - 0.0225411470 * t ^ 8 - 12.92 * t ^ 8| ≤ 0.04 := by
  have a : 0 ≤ polyAt [0.04, -0.323583601, 0.684122060, 0, 0.662002687, 0, 0, 0, -12.9425411470] t := by
    rcases le_total t 0.25 with h | h
    · exact polyAt_nonneg_on (a := 0) (b := 0.25) (by decide +kernel) (by norm_num; linarith) (by norm_num at *; linarith)
    · exact polyAt_nonneg_on (a := 0.25) (b := 0.49) (by decide +kernel) (by norm_num at *; linarith) (by norm_num at *; linarith)
  have b := polyAt_nonneg_on (a := 0) (b := 0.49) (l := [0.04, 0.323583601, -0.684122060, 0, -0.662002687, 0, 0, 0, 12.9425411470])
    (by decide +kernel) (u := t) (by norm_num; linarith) (by norm_num at *; linarith)
  simp only [polyAt] at a b
  push_cast at a b
  rw [abs_le]
  constructor
  · refine le_of_sub_nonneg (a.trans (le_of_eq ?_)); ring
  · refine le_of_sub_nonneg (b.trans (le_of_eq ?_)); ring

theorem roots_near {c : ℝ} (h0 : 0.0031308 ≤ c) (h1 : c ≤ 1) : |srgbRoots c - srgbEncode c| ≤ 0.00099 := by
  have c0 : 0 ≤ c := le_trans (by norm_num) h0
  obtain ⟨u, u0, hu⟩ : ∃ u : ℝ, 0 ≤ u ∧ u ^ 24 = c :=
    ⟨c ^ (1 / 24 : ℝ), Real.rpow_nonneg c0 _, by rw [← Real.rpow_natCast, ← Real.rpow_mul c0]; norm_num⟩
  have ul : 393 / 500 ≤ u := by
    refine le_of_pow_le_pow_left₀ (n := 24) (by norm_num) u0 ?_
    rw [hu]
    refine le_trans ?_ h0
    norm_num
  have u1 : u ≤ 1 := by
    refine le_of_pow_le_pow_left₀ (n := 24) (by norm_num) zero_le_one ?_
    rw [hu, one_pow]; exact h1
  have s1 : Real.sqrt c = u ^ 12 := by rw [← hu, show u ^ 24 = (u ^ 12) ^ 2 by ring, Real.sqrt_sq (by positivity)]
  have s2 : Real.sqrt (u ^ 12) = u ^ 6 := by rw [show u ^ 12 = (u ^ 6) ^ 2 by ring, Real.sqrt_sq (by positivity)]
  have s3 : Real.sqrt (u ^ 6) = u ^ 3 := by rw [show u ^ 6 = (u ^ 3) ^ 2 by ring, Real.sqrt_sq (by positivity)]
  have pw : c ^ (1 / 2.4 : ℝ) = u ^ 10 := by
    rw [← hu, ← Real.rpow_natCast, ← Real.rpow_mul u0, ← Real.rpow_natCast]; norm_num
  unfold srgbRoots srgbEncode
  rw [s1, s2, s3]
  split_ifs with h
  · have e : c = 0.0031308 := le_antisymm h h0
    have p := roots_poly ul u1
    have v1 : u ≤ 0.786416 := by
      refine le_of_pow_le_pow_left₀ (n := 24) (by norm_num) (by norm_num) ?_
      rw [hu, e]; norm_num
    have v0 : 0.7864159 ≤ u := by
      refine le_of_pow_le_pow_left₀ (n := 24) (by norm_num) u0 ?_
      rw [hu, e]; norm_num
    have a1 := pow_le_pow_left₀ u0 v1 12
    have a2 := pow_le_pow_left₀ u0 v1 6
    have a3 := pow_le_pow_left₀ u0 v1 3
    have b1 := pow_le_pow_left₀ (by norm_num) v0 12
    have b2 := pow_le_pow_left₀ (by norm_num) v0 6
    have b3 := pow_le_pow_left₀ (by norm_num) v0 3
    rw [e, abs_le]
    clear hu s1 s2 s3 pw p e h
    generalize u ^ 12 = x1 at *
    generalize u ^ 6 = x2 at *
    generalize u ^ 3 = x3 at *
    norm_num at *
    constructor <;> linarith
  · rw [pw, ← hu]
    exact roots_poly ul u1

theorem roots_near_dark {c : ℝ} (h0 : 0 ≤ c) (h1 : c ≤ 1) : |srgbRoots c - srgbEncode c| ≤ 0.04 := by
  rcases le_total 0.0031308 c with h | h
  · exact (roots_near h h1).trans (by norm_num)
  obtain ⟨t, t0, ht⟩ : ∃ t : ℝ, 0 ≤ t ∧ t ^ 8 = c :=
    ⟨c ^ (1 / 8 : ℝ), Real.rpow_nonneg h0 _, by rw [← Real.rpow_natCast, ← Real.rpow_mul h0]; norm_num⟩
  have t1 : t ≤ 0.49 := by
    refine le_of_pow_le_pow_left₀ (n := 8) (by norm_num) (by norm_num) ?_
    rw [ht]
    refine h.trans ?_
    norm_num
  have s1 : Real.sqrt c = t ^ 4 := by rw [← ht, show t ^ 8 = (t ^ 4) ^ 2 by ring, Real.sqrt_sq (by positivity)]
  have s2 : Real.sqrt (t ^ 4) = t ^ 2 := by rw [show t ^ 4 = (t ^ 2) ^ 2 by ring, Real.sqrt_sq (by positivity)]
  have s3 : Real.sqrt (t ^ 2) = t := Real.sqrt_sq t0
  unfold srgbRoots srgbEncode
  rw [s1, s2, s3, if_pos h, ← ht]
  exact roots_dark t0 t1

end Zcm
