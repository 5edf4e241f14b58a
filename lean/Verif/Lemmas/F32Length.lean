import Verif.Lemmas.F32Approx
import Verif.Model.Exponential

/-!
# Relative errors of square roots, lengths and normalised vectors in the binary32 model

`u = 2^-24` is written out as `1 / 2 ^ 24`.
-/

set_option exponentiation.threshold 300

namespace Zcm.F32

/-- A squared length between `2^-100` and `2^126` is computed with a relative error of at most 4.01 u. -/
theorem Approx.rel4 {x : F32} {r : ℚ} {k c : ℕ} (h : Approx x r r k c) (hk : k ≤ 4) (hc : c ≤ 4)
    (h1 : 1 / 2 ^ 100 ≤ r) : |x.val - r| ≤ 4.01 / 2 ^ 24 * r := by
  have b := h.bound hk
  have p : (1 + 1 / 2 ^ 24 : ℚ) ^ k - 1 ≤ 4.001 / 2 ^ 24 := by
    have := (pow_le_pow_right₀ (by norm_num : (1 : ℚ) ≤ 1 + 1 / 2 ^ 24) hk)
    have : (1 + 1 / 2 ^ 24 : ℚ) ^ 4 ≤ 1 + 4.001 / 2 ^ 24 := by norm_num
    linarith
  have c4 : (c : ℚ) ≤ 4 := by exact_mod_cast hc
  have e : (c : ℚ) / 2 ^ 149 ≤ 0.001 / 2 ^ 24 * r := by
    calc (c : ℚ) / 2 ^ 149 ≤ 4 / 2 ^ 149 := by gcongr
      _ ≤ 0.001 / 2 ^ 24 * (1 / 2 ^ 100) := by norm_num
      _ ≤ _ := by gcongr
  have q : ((1 + 1 / 2 ^ 24 : ℚ) ^ k - 1) * r ≤ 4.001 / 2 ^ 24 * r := by
    have : (0 : ℚ) ≤ r := le_trans (by positivity) h1
    exact mul_le_mul_of_nonneg_right p this
  have : (4.01 : ℚ) / 2 ^ 24 * r = 4.001 / 2 ^ 24 * r + 0.009 / 2 ^ 24 * r := by ring
  have : (0 : ℚ) ≤ r := le_trans (by positivity) h1
  have : 0.001 / 2 ^ 24 * r ≤ 0.009 / 2 ^ 24 * r := by gcongr; norm_num
  linarith

theorem sqrt_interval {x d lo hi : ℝ} (h0 : 0 ≤ lo) (hh : 0 ≤ hi) (h1 : lo ^ 2 * d ≤ x)
    (h2 : x ≤ hi ^ 2 * d) : lo * Real.sqrt d ≤ Real.sqrt x ∧ Real.sqrt x ≤ hi * Real.sqrt d := by
  constructor
  · calc lo * Real.sqrt d = Real.sqrt (lo ^ 2 * d) := by
          rw [Real.sqrt_mul (by positivity), Real.sqrt_sq h0]
      _ ≤ _ := Real.sqrt_le_sqrt h1
  · calc Real.sqrt x ≤ Real.sqrt (hi ^ 2 * d) := Real.sqrt_le_sqrt h2
      _ = _ := by rw [Real.sqrt_mul (by positivity), Real.sqrt_sq hh]

theorem sqrt_range {d : ℝ} (h1 : 1 / 2 ^ 100 ≤ d) (h2 : d ≤ 2 ^ 126) :
    1 / 2 ^ 50 ≤ Real.sqrt d ∧ Real.sqrt d ≤ 2 ^ 63 := by
  constructor
  · rw [show (1 / 2 ^ 50 : ℝ) = Real.sqrt ((1 / 2 ^ 50) ^ 2) from (Real.sqrt_sq (by positivity)).symm]
    exact Real.sqrt_le_sqrt (by norm_num at h1 ⊢; exact h1)
  · rw [show (2 ^ 63 : ℝ) = Real.sqrt ((2 ^ 63) ^ 2) from (Real.sqrt_sq (by positivity)).symm]
    exact Real.sqrt_le_sqrt (by norm_num at h2 ⊢; exact h2)

/-- The square root of a slightly wrong number. -/
theorem sqrt_rel {x : F32} {d : ℝ} (hx : x.IsFin = true) (h1 : 1 / 2 ^ 100 ≤ d) (h2 : d ≤ 2 ^ 126)
    (h : |(x.val : ℝ) - d| ≤ 4.01 / 2 ^ 24 * d) :
    (FloatOps.sqrt x).IsFin = true ∧ |((FloatOps.sqrt x).val : ℝ) - Real.sqrt d| ≤ 3.02 / 2 ^ 24 * Real.sqrt d := by
  have d0 : 0 < d := lt_of_lt_of_le (by positivity) h1
  obtain ⟨l1, l2⟩ := sqrt_range h1 h2
  rw [abs_le] at h
  obtain ⟨i1, i2⟩ := sqrt_interval (x := (x.val : ℝ)) (d := d) (lo := 1 - 2.01 / 2 ^ 24) (hi := 1 + 2.01 / 2 ^ 24)
    (by norm_num) (by norm_num)
    (by
      have : (1 - 2.01 / 2 ^ 24 : ℝ) ^ 2 * d ≤ (1 - 4.01 / 2 ^ 24) * d := by gcongr; norm_num
      linarith)
    (by
      have : (1 + 4.01 / 2 ^ 24) * d ≤ (1 + 2.01 / 2 ^ 24 : ℝ) ^ 2 * d := by gcongr; norm_num
      linarith)
  have x0 : (0 : ℝ) ≤ x.val := by
    have : 4.01 / 2 ^ 24 * d ≤ 1 * d := by gcongr; norm_num
    linarith
  have c := sqrt_correct hx (by exact_mod_cast x0)
  have s0 := Real.sqrt_nonneg (x.val : ℝ)
  have e := Real.sqrt_nonneg d
  generalize Real.sqrt (x.val : ℝ) = t at *
  generalize Real.sqrt d = s at *
  have r := c.rel (by
    rw [abs_of_nonneg s0]
    calc (1 : ℝ) / 2 ^ 126 ≤ (1 - 2.01 / 2 ^ 24) * (1 / 2 ^ 50) := by norm_num
      _ ≤ (1 - 2.01 / 2 ^ 24) * s := by gcongr
      _ ≤ _ := i1) (by
    rw [abs_of_nonneg s0]
    calc t ≤ (1 + 2.01 / 2 ^ 24) * s := i2
      _ ≤ (1 + 2.01 / 2 ^ 24) * 2 ^ 63 := by gcongr
      _ < _ := by norm_num)
  refine ⟨r.1, ?_⟩
  have r2 := r.2
  rw [abs_of_nonneg s0] at r2
  have k1 : t / 2 ^ 24 ≤ (1 + 2.01 / 2 ^ 24) * s / 2 ^ 24 := by gcongr
  have k2 : (1 + 2.01 / 2 ^ 24) * s / 2 ^ 24 ≤ 1.01 / 2 ^ 24 * s := by
    rw [show (1 + 2.01 / 2 ^ 24) * s / 2 ^ 24 = (1 + 2.01 / 2 ^ 24) / 2 ^ 24 * s by ring]
    gcongr
    norm_num
  rw [abs_le] at r2 ⊢
  constructor <;> linarith [r2.1, r2.2]

/-- The reciprocal of a slightly wrong square root. -/
theorem inv_rel {y : F32} {s : ℝ} (hy : y.IsFin = true) (h1 : 1 / 2 ^ 50 ≤ s) (h2 : s ≤ 2 ^ 63)
    (h : |(y.val : ℝ) - s| ≤ 3.02 / 2 ^ 24 * s) :
    (lit 1 / y : F32).IsFin = true ∧ |((lit 1 / y : F32).val : ℝ) - 1 / s| ≤ 4.04 / 2 ^ 24 * (1 / s) := by
  have s0 : 0 < s := lt_of_lt_of_le (by positivity) h1
  rw [abs_le] at h
  have ylo : (1 - 3.02 / 2 ^ 24) * s ≤ y.val := by linarith
  have yhi : (y.val : ℝ) ≤ (1 + 3.02 / 2 ^ 24) * s := by linarith
  have y0 : (0 : ℝ) < y.val := lt_of_lt_of_le (mul_pos (by norm_num) s0) ylo
  have c := div_correct isFin_lit_one hy (by
    intro h; rw [h] at y0; simp at y0)
  rw [val_lit_one, Rat.cast_one] at c
  have i0 : 0 < 1 / (y.val : ℝ) := by positivity
  have ihi : 1 / (y.val : ℝ) ≤ (1 + 3.03 / 2 ^ 24) * (1 / s) := by
    rw [div_le_iff₀ y0]
    calc (1 : ℝ) ≤ (1 + 3.03 / 2 ^ 24) * (1 - 3.02 / 2 ^ 24) := by norm_num
      _ = (1 + 3.03 / 2 ^ 24) * (1 / s) * ((1 - 3.02 / 2 ^ 24) * s) := by field_simp
      _ ≤ _ := by gcongr
  have ilo : (1 - 3.02 / 2 ^ 24) * (1 / s) ≤ 1 / (y.val : ℝ) := by
    rw [le_div_iff₀ y0]
    calc (1 - 3.02 / 2 ^ 24) * (1 / s) * y.val ≤ (1 - 3.02 / 2 ^ 24) * (1 / s) * ((1 + 3.02 / 2 ^ 24) * s) := by
          gcongr
      _ = (1 - 3.02 / 2 ^ 24) * (1 + 3.02 / 2 ^ 24) := by field_simp
      _ ≤ _ := by norm_num
  have g1 : 1 / 2 ^ 63 ≤ 1 / s := one_div_le_one_div_of_le s0 h2
  have g2 : 1 / s ≤ 2 ^ 50 := by
    rw [div_le_iff₀ s0]
    calc (1 : ℝ) = 2 ^ 50 * (1 / 2 ^ 50) := by norm_num
      _ ≤ _ := by gcongr
  have is0 : 0 < 1 / s := by positivity
  generalize 1 / (y.val : ℝ) = t at *
  generalize 1 / s = r at *
  have q := c.rel (by
    rw [abs_of_pos i0]
    calc (1 : ℝ) / 2 ^ 126 ≤ (1 - 3.02 / 2 ^ 24) * (1 / 2 ^ 63) := by norm_num
      _ ≤ (1 - 3.02 / 2 ^ 24) * r := by gcongr
      _ ≤ _ := ilo) (by
    rw [abs_of_pos i0]
    calc t ≤ (1 + 3.03 / 2 ^ 24) * r := ihi
      _ ≤ (1 + 3.03 / 2 ^ 24) * 2 ^ 50 := by gcongr
      _ < _ := by norm_num)
  refine ⟨q.1, ?_⟩
  have r2 := q.2
  rw [abs_of_pos i0] at r2
  have k1 : t / 2 ^ 24 ≤ (1 + 3.03 / 2 ^ 24) * r / 2 ^ 24 := by gcongr
  have k2 : (1 + 3.03 / 2 ^ 24) * r / 2 ^ 24 ≤ 1.01 / 2 ^ 24 * r := by
    rw [show (1 + 3.03 / 2 ^ 24) * r / 2 ^ 24 = (1 + 3.03 / 2 ^ 24) / 2 ^ 24 * r by ring]
    gcongr
    norm_num
  rw [abs_le] at r2 ⊢
  constructor <;> linarith [r2.1, r2.2]

/-- A component times the slightly wrong reciprocal `r` of the length (`|v| * r <= 1`). -/
theorem scale_rel {v y : F32} {r : ℝ} (hv : v.IsFin = true) (hy : y.IsFin = true) (hr : 0 ≤ r)
    (h1 : |(v.val : ℝ)| * r ≤ 1) (h : |(y.val : ℝ) - r| ≤ 4.04 / 2 ^ 24 * r) :
    (v * y).IsFin = true ∧ |((v * y).val : ℝ) - v.val * r| ≤ 6 / 2 ^ 24 * (|(v.val : ℝ)| * r) + 1 / 2 ^ 150 := by
  have e : |(v.val : ℝ) * y.val - v.val * r| ≤ 4.04 / 2 ^ 24 * (|(v.val : ℝ)| * r) := by
    rw [← mul_sub, abs_mul]
    calc |(v.val : ℝ)| * |(y.val : ℝ) - r| ≤ |(v.val : ℝ)| * (4.04 / 2 ^ 24 * r) := by gcongr
      _ = _ := by ring
  have vr : |(v.val : ℝ) * r| = |(v.val : ℝ)| * r := by rw [abs_mul, abs_of_nonneg hr]
  have p0 : 0 ≤ |(v.val : ℝ)| * r := by positivity
  have a : |(v.val : ℝ) * y.val| ≤ (1 + 4.04 / 2 ^ 24) * (|(v.val : ℝ)| * r) := by
    have := abs_add_le ((v.val : ℝ) * y.val - v.val * r) (v.val * r)
    rw [sub_add_cancel, vr] at this
    linarith
  have fin : (v * y).IsFin = true := by
    rw [mul_fin hv hy]
    refine isFin_round ?_
    have : |(v.val : ℝ) * y.val| ≤ (2 ^ 24 - 1) * 2 ^ 104 := a.trans (by
      calc (1 + 4.04 / 2 ^ 24) * (|(v.val : ℝ)| * r) ≤ (1 + 4.04 / 2 ^ 24) * 1 := by gcongr
        _ ≤ _ := by norm_num)
    exact_mod_cast this
  refine ⟨fin, ?_⟩
  have m : |((v * y).val : ℝ) - v.val * y.val| ≤ |(v.val : ℝ) * y.val| / 2 ^ 24 + 1 / 2 ^ 150 := by
    have := mul_error hv hy fin
    have h2 : ((|(v * y).val - v.val * y.val| : ℚ) : ℝ) ≤ ((|v.val * y.val| / 2 ^ 24 + 1 / 2 ^ 150 : ℚ) : ℝ) := by
      exact_mod_cast this
    rw [Rat.cast_abs, Rat.cast_add, Rat.cast_div, Rat.cast_abs, Rat.cast_sub, Rat.cast_mul] at h2
    rwa [show (((2 ^ 24 : ℚ)) : ℝ) = 2 ^ 24 by push_cast; rfl,
      show (((1 / 2 ^ 150 : ℚ)) : ℝ) = 1 / 2 ^ 150 by rw [Rat.cast_div, Rat.cast_one, Rat.cast_pow, Rat.cast_ofNat]] at h2
  have k : |(v.val : ℝ) * y.val| / 2 ^ 24 ≤ (1 + 4.04 / 2 ^ 24) * (|(v.val : ℝ)| * r) / 2 ^ 24 := by gcongr
  have k2 : (1 + 4.04 / 2 ^ 24) * (|(v.val : ℝ)| * r) / 2 ^ 24 ≤ 1.01 / 2 ^ 24 * (|(v.val : ℝ)| * r) := by
    rw [show (1 + 4.04 / 2 ^ 24) * (|(v.val : ℝ)| * r) / 2 ^ 24 = (1 + 4.04 / 2 ^ 24) / 2 ^ 24 * (|(v.val : ℝ)| * r) by ring]
    gcongr
    norm_num
  have t := abs_sub_le ((v * y).val : ℝ) ((v.val : ℝ) * y.val) (v.val * r)
  have : (6 : ℝ) / 2 ^ 24 * (|(v.val : ℝ)| * r) =
    4.04 / 2 ^ 24 * (|(v.val : ℝ)| * r) + 1.01 / 2 ^ 24 * (|(v.val : ℝ)| * r) + 0.95 / 2 ^ 24 * (|(v.val : ℝ)| * r) := by ring
  have : 0 ≤ 0.95 / 2 ^ 24 * (|(v.val : ℝ)| * r) := by positivity
  generalize |(v.val : ℝ)| * r = P at *
  linarith

/-- A component divided by the slightly wrong length `s` (`|v| <= s`). -/
theorem quot_rel {v y : F32} {s : ℝ} (hv : v.IsFin = true) (hy : y.IsFin = true) (hs : 0 < s)
    (h1 : |(v.val : ℝ)| ≤ s) (h : |(y.val : ℝ) - s| ≤ 3.02 / 2 ^ 24 * s) :
    (v / y).IsFin = true ∧ |((v / y).val : ℝ) - v.val / s| ≤ 6 / 2 ^ 24 * (|(v.val : ℝ)| / s) + 1 / 2 ^ 150 := by
  have h' := abs_le.1 h
  have ylo : (1 - 3.02 / 2 ^ 24) * s ≤ y.val := by linarith
  have y0 : (0 : ℝ) < y.val := lt_of_lt_of_le (mul_pos (by norm_num) hs) ylo
  have yq : y.val ≠ 0 := by
    intro h; rw [h] at y0; simp at y0
  have p0 : 0 ≤ |(v.val : ℝ)| / s := by positivity
  have e : |(v.val : ℝ) / y.val - v.val / s| ≤ 3.03 / 2 ^ 24 * (|(v.val : ℝ)| / s) := by
    have : (v.val : ℝ) / y.val - v.val / s = v.val / s * ((s - y.val) / y.val) := by field_simp
    rw [this, abs_mul, abs_div (v.val : ℝ), abs_of_pos hs, mul_comm]
    gcongr
    rw [abs_div, abs_of_pos y0, div_le_iff₀ y0, abs_sub_comm]
    calc |(y.val : ℝ) - s| ≤ 3.02 / 2 ^ 24 * s := h
      _ ≤ 3.03 / 2 ^ 24 * (1 - 3.02 / 2 ^ 24) * s := by gcongr; norm_num
      _ = 3.03 / 2 ^ 24 * ((1 - 3.02 / 2 ^ 24) * s) := by ring
      _ ≤ _ := by gcongr
  have a : |(v.val : ℝ) / y.val| ≤ (1 + 3.03 / 2 ^ 24) * (|(v.val : ℝ)| / s) := by
    have := abs_add_le ((v.val : ℝ) / y.val - v.val / s) (v.val / s)
    rw [sub_add_cancel, abs_div (v.val : ℝ) s, abs_of_pos hs] at this
    linarith
  have fin : (v / y).IsFin = true := by
    rw [div_fin hv hy yq]
    refine isFin_round ?_
    have : |(v.val : ℝ) / y.val| ≤ (2 ^ 24 - 1) * 2 ^ 104 := a.trans (by
      calc (1 + 3.03 / 2 ^ 24) * (|(v.val : ℝ)| / s) ≤ (1 + 3.03 / 2 ^ 24) * 1 := by
            gcongr
            rwa [div_le_one hs]
        _ ≤ _ := by norm_num)
    exact_mod_cast this
  refine ⟨fin, ?_⟩
  have m : |((v / y).val : ℝ) - v.val / y.val| ≤ |(v.val : ℝ) / y.val| / 2 ^ 24 + 1 / 2 ^ 150 := by
    have : |(v / y).val - v.val / y.val| ≤ |v.val / y.val| / 2 ^ 24 + 1 / 2 ^ 150 := by
      rw [div_fin hv hy yq] at fin ⊢; exact round_error fin
    have h2 : ((|(v / y).val - v.val / y.val| : ℚ) : ℝ) ≤ ((|v.val / y.val| / 2 ^ 24 + 1 / 2 ^ 150 : ℚ) : ℝ) := by
      exact_mod_cast this
    rw [Rat.cast_abs, Rat.cast_add, Rat.cast_div, Rat.cast_abs, Rat.cast_sub, Rat.cast_div] at h2
    rwa [show (((2 ^ 24 : ℚ)) : ℝ) = 2 ^ 24 by push_cast; rfl,
      show (((1 / 2 ^ 150 : ℚ)) : ℝ) = 1 / 2 ^ 150 by rw [Rat.cast_div, Rat.cast_one, Rat.cast_pow, Rat.cast_ofNat]] at h2
  have k : |(v.val : ℝ) / y.val| / 2 ^ 24 ≤ (1 + 3.03 / 2 ^ 24) * (|(v.val : ℝ)| / s) / 2 ^ 24 := by gcongr
  have t := abs_sub_le ((v / y).val : ℝ) ((v.val : ℝ) / y.val) (v.val / s)
  generalize |(v.val : ℝ)| / s = P at *
  have k2 : (1 + 3.03 / 2 ^ 24) * P / 2 ^ 24 ≤ 1.01 / 2 ^ 24 * P := by
    rw [show (1 + 3.03 / 2 ^ 24) * P / 2 ^ 24 = (1 + 3.03 / 2 ^ 24) / 2 ^ 24 * P by ring]
    gcongr
    norm_num
  have : (6 : ℝ) / 2 ^ 24 * P = 3.03 / 2 ^ 24 * P + 1.01 / 2 ^ 24 * P + 1.96 / 2 ^ 24 * P := by ring
  have : 0 ≤ 1.96 / 2 ^ 24 * P := by positivity
  linarith

/-! ### Lengths and normalised vectors -/

open Finset in
/-- The length, whatever the order in which the squares were summed. -/
theorem length_core {n : ℕ} {v : Fin n → F32} {d : F32} {k c : ℕ}
    (ha : Approx d (∑ i, (v i).val ^ 2) (∑ i, (v i).val ^ 2) k c) (hk : k ≤ 4) (hc : c ≤ 4)
    (h1 : 1 / 2 ^ 100 ≤ ∑ i, (v i).val ^ 2) (h2 : ∑ i, (v i).val ^ 2 ≤ 2 ^ 126) :
    (FloatOps.sqrt d).IsFin = true ∧
    |((FloatOps.sqrt d).val : ℝ) - Real.sqrt (∑ i, ((v i).val : ℝ) ^ 2)| ≤
      3.02 / 2 ^ 24 * Real.sqrt (∑ i, ((v i).val : ℝ) ^ 2) := by
  have e : (∑ i, ((v i).val : ℝ) ^ 2) = ((∑ i, (v i).val ^ 2 : ℚ) : ℝ) := by push_cast; rfl
  rw [e]
  have r := ha.rel4 hk hc h1
  generalize (∑ i, (v i).val ^ 2 : ℚ) = S at *
  refine sqrt_rel ha.fin ?_ (by exact_mod_cast h2) ?_
  · have : (((1 / 2 ^ 100 : ℚ)) : ℝ) ≤ (S : ℝ) := by exact_mod_cast h1
    rwa [Rat.cast_div, Rat.cast_one, Rat.cast_pow, Rat.cast_ofNat] at this
  · have : ((|d.val - S| : ℚ) : ℝ) ≤ ((4.01 / 2 ^ 24 * S : ℚ) : ℝ) := by exact_mod_cast r
    rw [Rat.cast_abs, Rat.cast_sub, Rat.cast_mul] at this
    rwa [show (((4.01 / 2 ^ 24 : ℚ)) : ℝ) = 4.01 / 2 ^ 24 by norm_num] at this

open Finset in
theorem abs_le_length {n : ℕ} (v : Fin n → ℝ) (i : Fin n) : |v i| ≤ Real.sqrt (∑ i, v i ^ 2) := by
  rw [← Real.sqrt_sq_eq_abs]
  exact Real.sqrt_le_sqrt (single_le_sum (f := fun i => v i ^ 2) (fun j _ => sq_nonneg (v j)) (mem_univ i))

open Finset in
/-- Components that are almost those of a unit vector: the square length is almost 1. -/
theorem unit_core {n : ℕ} (hn : n ≤ 4) (e m : Fin n → ℝ) (he : ∑ i, e i ^ 2 = 1)
    (h : ∀ i, |m i - e i| ≤ 6 / 2 ^ 24 * |e i| + 1 / 2 ^ 150) : |∑ i, m i ^ 2 - 1| ≤ 1 / 2 ^ 20 := by
  rw [← he, ← sum_sub_distrib]
  refine (abs_sum_le_sum_abs _ _).trans ?_
  have t : ∀ i ∈ univ, |m i ^ 2 - e i ^ 2| ≤ 13 / 2 ^ 24 * e i ^ 2 + 4 / 2 ^ 150 := by
    intro i _
    have e1 : |e i| ≤ 1 := by
      have := abs_le_length e i
      rwa [he, Real.sqrt_one] at this
    have e0 := abs_nonneg (e i)
    have hi := h i
    rw [show m i ^ 2 - e i ^ 2 = (m i - e i) * ((m i - e i) + 2 * e i) by ring, abs_mul]
    have b : |(m i - e i) + 2 * e i| ≤ |m i - e i| + 2 * |e i| := by
      refine (abs_add_le _ _).trans ?_
      rw [abs_mul, abs_of_pos (by norm_num : (0:ℝ) < 2)]
    have d0 := abs_nonneg (m i - e i)
    calc |m i - e i| * |(m i - e i) + 2 * e i| ≤ |m i - e i| * (|m i - e i| + 2 * |e i|) := by gcongr
      _ ≤ (6 / 2 ^ 24 * |e i| + 1 / 2 ^ 150) * ((6 / 2 ^ 24 * |e i| + 1 / 2 ^ 150) + 2 * |e i|) := by gcongr
      _ = (36 / 2 ^ 48 + 12 / 2 ^ 24) * |e i| ^ 2 + 1 / 2 ^ 150 * ((12 / 2 ^ 24 + 2) * |e i| + 1 / 2 ^ 150) := by ring
      _ ≤ 13 / 2 ^ 24 * |e i| ^ 2 + 1 / 2 ^ 150 * ((12 / 2 ^ 24 + 2) * 1 + 1) := by
          gcongr
          · norm_num
          · norm_num
      _ ≤ 13 / 2 ^ 24 * e i ^ 2 + 4 / 2 ^ 150 := by
          rw [sq_abs]
          have : (1 : ℝ) / 2 ^ 150 * ((12 / 2 ^ 24 + 2) * 1 + 1) ≤ 4 / 2 ^ 150 := by norm_num
          linarith
  refine (sum_le_sum t).trans ?_
  rw [sum_add_distrib, ← mul_sum, he, sum_const, card_univ, Fintype.card_fin, nsmul_eq_mul]
  have : (n : ℝ) ≤ 4 := by exact_mod_cast hn
  calc (13 : ℝ) / 2 ^ 24 * 1 + n * (4 / 2 ^ 150) ≤ 13 / 2 ^ 24 * 1 + 4 * (4 / 2 ^ 150) := by gcongr
    _ ≤ _ := by norm_num

open Finset in
theorem sum_sq_div {n : ℕ} (v : Fin n → ℝ) (h : 0 < ∑ i, v i ^ 2) :
    ∑ i, (v i / Real.sqrt (∑ i, v i ^ 2)) ^ 2 = 1 := by
  simp only [div_pow, Real.sq_sqrt h.le]
  rw [← sum_div, div_self h.ne']

open Finset

/-- The squares of the specification, as rational bounds. -/
theorem Medium.bounds {n : ℕ} {v : Fin n → F32} (h : Medium v) :
    1 / 2 ^ 100 ≤ ∑ i, (v i).val ^ 2 ∧ ∑ i, (v i).val ^ 2 ≤ 2 ^ 126 := by
  obtain ⟨_, h1, h2⟩ := h
  unfold exactLength at h1 h2
  have p : 0 ≤ ∑ i, ((v i).val : ℝ) ^ 2 := sum_nonneg fun i _ => sq_nonneg _
  have e : (∑ i, ((v i).val : ℝ) ^ 2) = ((∑ i, (v i).val ^ 2 : ℚ) : ℝ) := by push_cast; rfl
  constructor
  · rw [Real.le_sqrt' (by positivity)] at h1
    rw [e] at h1
    have : ((1 / 2 ^ 100 : ℚ) : ℝ) ≤ ((∑ i, (v i).val ^ 2 : ℚ) : ℝ) := by
      rw [Rat.cast_div, Rat.cast_one, Rat.cast_pow, Rat.cast_ofNat]
      norm_num at h1 ⊢
      exact h1
    exact_mod_cast this
  · rw [Real.sqrt_le_left (by positivity), e] at h2
    have : ((∑ i, (v i).val ^ 2 : ℚ) : ℝ) ≤ ((2 ^ 126 : ℚ) : ℝ) := by
      norm_num at h2 ⊢
      exact h2
    exact_mod_cast this

/-- `d` is a computed square length of `v`. -/
def SqLen {n : ℕ} (v : Fin n → F32) (d : F32) : Prop :=
  ∃ k c, Approx d (∑ i, (v i).val ^ 2) (∑ i, (v i).val ^ 2) k c ∧ k ≤ 4 ∧ c ≤ 4

theorem abs_mul_self' (q : ℚ) : |q * q| = q ^ 2 := by rw [abs_mul_self, sq]

theorem sqLen2 {v : Fin 2 → F32} (h : Medium v) : SqLen v (v 0 * v 0 + v 1 * v 1) := by
  have b := h.bounds.2
  have e : ∑ i, (v i).val ^ 2 = |(v 0).val * (v 0).val| + |(v 1).val * (v 1).val| := by
    rw [Fin.sum_univ_two]; simp only [abs_mul_self']
  refine ⟨2, 2, ?_, by norm_num, by norm_num⟩
  rw [e] at b
  have a := approx_dot2 (isFin_dot2 (h.1 0) (h.1 0) (h.1 1) (h.1 1) b)
  rw [← e] at a
  rw [Fin.sum_univ_two] at a ⊢
  simpa only [← sq] using a

theorem sqLen3 {v : Fin 3 → F32} (h : Medium v) : SqLen v (v 0 * v 0 + v 1 * v 1 + v 2 * v 2) := by
  have b := h.bounds.2
  have e : ∑ i, (v i).val ^ 2 = |(v 0).val * (v 0).val| + |(v 1).val * (v 1).val| + |(v 2).val * (v 2).val| := by
    rw [Fin.sum_univ_three]; simp only [abs_mul_self']
  refine ⟨3, 3, ?_, by norm_num, by norm_num⟩
  rw [e] at b
  have a := approx_dot3 (isFin_dot3 (h.1 0) (h.1 0) (h.1 1) (h.1 1) (h.1 2) (h.1 2) b)
  rw [← e] at a
  rw [Fin.sum_univ_three] at a ⊢
  simpa only [← sq] using a

theorem sqLen4 {v : Fin 4 → F32} (h : Medium v) : SqLen v (v 0 * v 0 + v 1 * v 1 + v 2 * v 2 + v 3 * v 3) := by
  have b := h.bounds.2
  have e : ∑ i, (v i).val ^ 2 =
      |(v 0).val * (v 0).val| + |(v 1).val * (v 1).val| + |(v 2).val * (v 2).val| + |(v 3).val * (v 3).val| := by
    rw [Fin.sum_univ_four]; simp only [abs_mul_self']
  refine ⟨4, 4, ?_, by norm_num, by norm_num⟩
  rw [e] at b
  have a := approx_dot4 (isFin_dot4 (h.1 0) (h.1 0) (h.1 1) (h.1 1) (h.1 2) (h.1 2) (h.1 3) (h.1 3) b)
  rw [← e] at a
  rw [Fin.sum_univ_four] at a ⊢
  simpa only [← sq] using a

theorem SqLen.sqrt {n : ℕ} {v : Fin n → F32} {d : F32} (h : SqLen v d) (hm : Medium v) :
    (FloatOps.sqrt d).IsFin = true ∧
    |((FloatOps.sqrt d).val : ℝ) - exactLength v| ≤ 3.02 / 2 ^ 24 * exactLength v := by
  obtain ⟨k, c, a, hk, hc⟩ := h
  exact length_core a hk hc hm.bounds.1 hm.bounds.2

theorem Medium.pos {n : ℕ} {v : Fin n → F32} (h : Medium v) : 0 < exactLength v :=
  lt_of_lt_of_le (by positivity) h.2.1

/-- `m` is almost the vector `v` divided by its length. -/
def AlmostUnit {n : ℕ} (v m : Fin n → F32) : Prop :=
  ∀ i, (m i).IsFin = true ∧ |((m i).val : ℝ) - (v i).val / exactLength v| ≤
      6 / 2 ^ 24 * (|((v i).val : ℝ)| / exactLength v) + 1 / 2 ^ 150

theorem SqLen.normalize {n : ℕ} {v m : Fin n → F32} {d : F32} (h : SqLen v d) (hm : Medium v)
    (e : ∀ i, m i = v i * (lit 1 / FloatOps.sqrt d)) : AlmostUnit v m := by
  intro i
  have s := h.sqrt hm
  have r := inv_rel s.1 hm.2.1 hm.2.2 s.2
  have p := hm.pos
  rw [e i]
  have := scale_rel (hm.1 i) r.1 (by positivity) (by
    rw [mul_one_div, div_le_one p]
    exact abs_le_length (fun i => ((v i).val : ℝ)) i) r.2
  simpa only [mul_one_div] using this

theorem SqLen.quotient {n : ℕ} {v m : Fin n → F32} {d : F32} (h : SqLen v d) (hm : Medium v)
    (e : ∀ i, m i = v i / FloatOps.sqrt d) : AlmostUnit v m := by
  intro i
  have s := h.sqrt hm
  rw [e i]
  exact quot_rel (hm.1 i) s.1 hm.pos (abs_le_length (fun i => ((v i).val : ℝ)) i) s.2

theorem AlmostUnit.length {n : ℕ} {v m : Fin n → F32} (h : AlmostUnit v m) (hm : Medium v) (hn : n ≤ 4) :
    |exactLength m - 1| ≤ 1 / 2 ^ 20 := by
  have p := hm.pos
  have q : |∑ i, ((m i).val : ℝ) ^ 2 - 1| ≤ 1 / 2 ^ 20 := by
    refine unit_core hn (fun i => (v i).val / exactLength v) _ (sum_sq_div (fun i => ((v i).val : ℝ)) ?_) fun i => ?_
    · exact Real.sqrt_pos.1 p
    · have := (h i).2
      rwa [abs_div, abs_of_pos p]
  unfold exactLength
  have e0 : 0 ≤ ∑ i, ((m i).val : ℝ) ^ 2 := sum_nonneg fun i _ => sq_nonneg _
  have l0 := Real.sqrt_nonneg (∑ i, ((m i).val : ℝ) ^ 2)
  have sq := Real.mul_self_sqrt e0
  generalize Real.sqrt (∑ i, ((m i).val : ℝ) ^ 2) = l at *
  rw [← sq, show l * l - 1 = (l - 1) * (l + 1) by ring, abs_mul] at q
  have : 1 ≤ |l + 1| := by rw [abs_of_nonneg (by linarith)]; linarith
  have := mul_le_mul_of_nonneg_left this (abs_nonneg (l - 1))
  linarith

/-- Componentwise relative error of a difference. -/
theorem sub_error_rel {a b : F32} (h : (a - b).IsFin = true) :
    |(a - b).val - (a.val - b.val)| ≤ |a.val - b.val| / 2 ^ 24 := by
  rw [sub_eq] at h ⊢
  have := add_error_rel h
  rwa [val_neg, ← sub_eq_add_neg] at this

/-- The length of a slightly wrong vector. -/
theorem length_of_close {n : ℕ} (e d : Fin n → ℝ) (h : ∀ i, |d i - e i| ≤ |e i| / 2 ^ 24) :
    |Real.sqrt (∑ i, d i ^ 2) - Real.sqrt (∑ i, e i ^ 2)| ≤ 1 / 2 ^ 24 * Real.sqrt (∑ i, e i ^ 2) := by
  have b : ∀ i, (1 - 1 / 2 ^ 24) * |e i| ≤ |d i| ∧ |d i| ≤ (1 + 1 / 2 ^ 24) * |e i| := by
    intro i
    have h1 := abs_sub_abs_le_abs_sub (d i) (e i)
    have h2 := abs_sub_abs_le_abs_sub (e i) (d i)
    rw [abs_sub_comm (e i) (d i)] at h2
    have := h i
    constructor <;> linarith
  obtain ⟨i1, i2⟩ := sqrt_interval (x := ∑ i, d i ^ 2) (d := ∑ i, e i ^ 2) (lo := 1 - 1 / 2 ^ 24)
    (hi := 1 + 1 / 2 ^ 24) (by norm_num) (by norm_num) (by
      rw [mul_sum]
      refine sum_le_sum fun i _ => ?_
      rw [← sq_abs (e i), ← mul_pow, ← sq_abs (d i)]
      exact pow_le_pow_left₀ (mul_nonneg (by norm_num) (abs_nonneg _)) (b i).1 2) (by
      rw [mul_sum]
      refine sum_le_sum fun i _ => ?_
      rw [← sq_abs (e i), ← mul_pow, ← sq_abs (d i)]
      exact pow_le_pow_left₀ (abs_nonneg _) (b i).2 2)
  rw [abs_le]
  constructor <;> linarith

theorem distance_core {n : ℕ} {a b : Fin n → F32} (ha : ∀ i, (a i).IsFin = true) (hb : ∀ i, (b i).IsFin = true)
    (h1 : 1 / 2 ^ 49 ≤ exactDistance a b) (h2 : exactDistance a b ≤ 2 ^ 62) :
    Medium (fun i => a i - b i) ∧
    |exactLength (fun i => a i - b i) - exactDistance a b| ≤ 1 / 2 ^ 24 * exactDistance a b := by
  have fin : ∀ i, (a i - b i).IsFin = true := by
    intro i
    rw [sub_fin (ha i) (hb i)]
    refine isFin_round ?_
    have := (abs_le_length (fun i => ((a i).val - (b i).val : ℝ)) i).trans h2
    have h : ((|(a i).val - (b i).val| : ℚ) : ℝ) ≤ ((2 ^ 62 : ℚ) : ℝ) := by
      push_cast; exact this
    have : |(a i).val - (b i).val| ≤ 2 ^ 62 := by exact_mod_cast h
    exact this.trans (by norm_num)
  have c : |exactLength (fun i => a i - b i) - exactDistance a b| ≤ 1 / 2 ^ 24 * exactDistance a b := by
    refine length_of_close (fun i => ((a i).val - (b i).val : ℝ)) (fun i => ((a i - b i).val : ℝ)) fun i => ?_
    have := sub_error_rel (fin i)
    exact_mod_cast this
  refine ⟨⟨fin, ?_, ?_⟩, c⟩
  · rw [abs_le] at c
    generalize exactDistance a b = D at *
    have : (1 - 1 / 2 ^ 24) * (1 / 2 ^ 49) ≤ (1 - 1 / 2 ^ 24) * D := by gcongr
    have : (1 : ℝ) / 2 ^ 50 ≤ (1 - 1 / 2 ^ 24) * (1 / 2 ^ 49) := by norm_num
    linarith
  · rw [abs_le] at c
    generalize exactDistance a b = D at *
    have : (1 + 1 / 2 ^ 24) * D ≤ (1 + 1 / 2 ^ 24) * 2 ^ 62 := by gcongr
    have : (1 + 1 / 2 ^ 24 : ℝ) * 2 ^ 62 ≤ 2 ^ 63 := by norm_num
    linarith

theorem distance_rel {n : ℕ} {a b : Fin n → F32} {d : F32} (ha : ∀ i, (a i).IsFin = true)
    (hb : ∀ i, (b i).IsFin = true) (h1 : 1 / 2 ^ 49 ≤ exactDistance a b) (h2 : exactDistance a b ≤ 2 ^ 62)
    (h : SqLen (fun i => a i - b i) d) :
    (FloatOps.sqrt d).IsFin = true ∧
    |((FloatOps.sqrt d).val : ℝ) - exactDistance a b| ≤ 5 / 2 ^ 24 * exactDistance a b := by
  obtain ⟨m, c⟩ := distance_core ha hb h1 h2
  have s := h.sqrt m
  refine ⟨s.1, ?_⟩
  have D0 : 0 ≤ exactDistance a b := Real.sqrt_nonneg _
  have t := abs_sub_le ((FloatOps.sqrt d).val : ℝ) (exactLength fun i => a i - b i) (exactDistance a b)
  have c' := (abs_le.1 c).2
  have := s.2
  generalize exactDistance a b = D at *
  generalize (exactLength fun i => a i - b i) = L at *
  have : 3.02 / 2 ^ 24 * L ≤ 3.02 / 2 ^ 24 * ((1 + 1 / 2 ^ 24) * D) := by gcongr; linarith
  have : 3.02 / 2 ^ 24 * ((1 + 1 / 2 ^ 24) * D) + 1 / 2 ^ 24 * D ≤ 5 / 2 ^ 24 * D := by
    rw [← mul_assoc, ← add_mul]
    gcongr
    norm_num
  linarith

end Zcm.F32
