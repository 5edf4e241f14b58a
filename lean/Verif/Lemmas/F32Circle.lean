import Verif.Spec.Angles
import Verif.Spec.Elementary
import Verif.Lemmas.F32Optics
import Verif.Lemmas.F32Persp
import Mathlib.Analysis.Complex.ExponentialBounds

/-!
# Lemmas: points on circles, exponentials and logarithms in float arithmetic
-/

set_option exponentiation.threshold 300

namespace Zcm

open F32

theorem abs_sin_sub_le (a b : ℝ) : |Real.sin a - Real.sin b| ≤ |a - b| := by
  rw [Real.sin_sub_sin, abs_mul, abs_mul, abs_two]
  have h1 := Real.abs_cos_le_one ((a + b) / 2)
  have h2 : |Real.sin ((a - b) / 2)| ≤ |(a - b) / 2| := Real.abs_sin_le_abs
  rw [abs_div, abs_two] at h2
  nlinarith [abs_nonneg (Real.sin ((a - b) / 2)), abs_nonneg (Real.cos ((a + b) / 2))]

theorem abs_cos_sub_le (a b : ℝ) : |Real.cos a - Real.cos b| ≤ |a - b| := by
  have := abs_sin_sub_le (Real.pi / 2 - a) (Real.pi / 2 - b)
  rw [Real.sin_pi_div_two_sub, Real.sin_pi_div_two_sub] at this
  rwa [show Real.pi / 2 - a - (Real.pi / 2 - b) = -(a - b) by ring, abs_neg] at this

/-- the product of an accurate length and an accurate sine or cosine -/
theorem circle_part {r c : F32} {R C e : ℝ} (fr : r.IsFin = true) (fc : c.IsFin = true) (hr : |(r.val : ℝ) - R| ≤ 4 / 2 ^ 24 * R)
    (hc : |(c.val : ℝ) - C| ≤ e / 2 ^ 24) (e1 : e ≤ 16) (h1 : |C| ≤ 1) (R0 : 1 / 2 ^ 60 ≤ R) (R1 : R ≤ 2 ^ 64) :
    Near (r * c) (R * C) ((e + 6) / 2 ^ 24 * R) := by
  have Rp : 0 ≤ R := le_trans (by norm_num) R0
  have q : e / 2 ^ 24 ≤ 1 / 2 ^ 20 := by
    rw [show (1 : ℝ) / 2 ^ 20 = 16 / 2 ^ 24 by norm_num]
    gcongr
  have k : (|R| + 4 / 2 ^ 24 * R) * (|C| + e / 2 ^ 24) ≤ R * (1 + 1 / 2 ^ 19) := by
    rw [abs_of_nonneg Rp]
    have : |C| + e / 2 ^ 24 ≤ 1 + 1 / 2 ^ 20 := by linarith
    calc (R + 4 / 2 ^ 24 * R) * (|C| + e / 2 ^ 24) ≤ (R + 4 / 2 ^ 24 * R) * (1 + 1 / 2 ^ 20) := by gcongr
      _ = R * ((1 + 4 / 2 ^ 24) * (1 + 1 / 2 ^ 20)) := by ring
      _ ≤ _ := by gcongr; norm_num
  obtain ⟨f, d⟩ := mul_abs_err fr fc hr hc k (by nlinarith)
  refine ⟨f, d.trans ?_⟩
  rw [abs_of_nonneg Rp]
  have a1 : |C| * (4 / 2 ^ 24 * R) ≤ 4 / 2 ^ 24 * R := by
    calc |C| * (4 / 2 ^ 24 * R) ≤ 1 * (4 / 2 ^ 24 * R) := by gcongr
      _ = _ := one_mul _
  have a2 : 4 / 2 ^ 24 * R * (e / 2 ^ 24) ≤ 4 / 2 ^ 24 * R * (1 / 2 ^ 20) := by gcongr
  have a3 : (1 : ℝ) / 2 ^ 150 ≤ R / 2 ^ 60 := by
    rw [div_le_div_iff₀ (by positivity) (by positivity)]
    norm_num at R0 ⊢
    linarith
  have : R * (e / 2 ^ 24) = e / 2 ^ 24 * R := by ring
  have : (e + 6) / 2 ^ 24 * R = e / 2 ^ 24 * R + 6 / 2 ^ 24 * R := by ring
  norm_num at *
  linarith

theorem exp_near {d e : ℝ} (h : |d| ≤ e) (he : e ≤ 1 / 2 ^ 10) : |Real.exp d - 1| ≤ e * (1 + 1 / 2 ^ 10) := by
  have e0 : 0 ≤ e := (abs_nonneg _).trans h
  have := Real.abs_exp_sub_one_sub_id_le (x := d) (h.trans (he.trans (by norm_num)))
  have t : |Real.exp d - 1| ≤ |Real.exp d - 1 - d| + |d| := by
    have := abs_add_le (Real.exp d - 1 - d) d
    rwa [sub_add_cancel] at this
  have : d ^ 2 ≤ e ^ 2 := by rw [← sq_abs d]; gcongr
  nlinarith

theorem log_near {d e : ℝ} (h : |d - 1| ≤ e) (he : e ≤ 1 / 2 ^ 10) : |Real.log d| ≤ e * (1 + 1 / 2 ^ 8) := by
  obtain ⟨h0, h1⟩ := abs_le.1 h
  have e0 : 0 ≤ e := (abs_nonneg _).trans h
  have dp : 0 < d := by linarith [show (1 : ℝ) / 2 ^ 10 ≤ 1 / 2 by norm_num]
  have u := Real.log_le_sub_one_of_pos dp
  have l := Real.one_sub_inv_le_log_of_pos dp
  have i : 1 - d⁻¹ ≥ -(e * (1 + 1 / 2 ^ 8)) := by
    have : d⁻¹ ≤ 1 + e * (1 + 1 / 2 ^ 8) := by
      rw [inv_le_iff_one_le_mul₀ dp]
      nlinarith
    linarith
  rw [abs_le]
  constructor
  · linarith
  · nlinarith

/-- a C library with good `expf` and `logf` (and nothing else) -/
@[instance_reducible]
noncomputable def expLibm : Libm F32 where
  expf x := closeFloat (Real.exp x.val)
  logf x := closeFloat (Real.log x.val)
  log2f := id
  powf x _ := x
  cbrtf := id
  sinf := id
  cosf := id
  tanf := id
  asinf := id
  acosf := id
  atanf := id
  atan2f y _ := y
  sinhf := id
  coshf := id
  tanhf := id
  asinhf := id
  acoshf := id
  atanhf := id

theorem exp_64 : Real.exp 64 ≤ 2 ^ 96 := by
  have h := Real.exp_one_lt_d9
  have : Real.exp 64 = Real.exp 1 ^ 64 := by rw [← Real.exp_nat_mul]; norm_num
  rw [this]
  calc Real.exp 1 ^ 64 ≤ (2.7182818286 : ℝ) ^ 64 := by gcongr
    _ ≤ _ := by norm_num

theorem log_bound {x : ℝ} {n : ℕ} (h0 : 1 / 2 ^ n ≤ x) (h1 : x ≤ 2 ^ n) : |Real.log x| ≤ n * 0.6931471808 := by
  have hp : 0 < x := lt_of_lt_of_le (by positivity) h0
  have l2 := Real.log_two_lt_d9
  have a : Real.log x ≤ n * Real.log 2 := by
    rw [← Real.log_pow]; exact Real.log_le_log hp h1
  have b : -(n * Real.log 2) ≤ Real.log x := by
    rw [← Real.log_pow, ← Real.log_inv, ← one_div]; exact Real.log_le_log (by positivity) h0
  have : (n : ℝ) * Real.log 2 ≤ n * 0.6931471808 := by gcongr
  rw [abs_le]
  constructor <;> linarith

theorem expLibm_exp : @GoodExp expLibm := fun x _ h => by
  obtain ⟨h0, h1⟩ := abs_le.1 h
  have up : Real.exp x.val ≤ 2 ^ 96 := (Real.exp_le_exp.2 h1).trans exp_64
  have lo : 1 / 2 ^ 96 ≤ Real.exp x.val := by
    refine le_trans ?_ (Real.exp_le_exp.2 h0)
    rw [Real.exp_neg, ← one_div]
    exact one_div_le_one_div_of_le (Real.exp_pos _) exp_64
  have hp := Real.exp_pos (x.val : ℝ)
  obtain ⟨f, d⟩ := closeFloat_close (y := Real.exp x.val) (by rw [abs_of_pos hp]; exact up.trans (by norm_num))
  refine ⟨f, d.trans ?_⟩
  rw [abs_of_pos hp]
  norm_num at lo ⊢
  linarith

theorem expLibm_log : @GoodLog expLibm := fun x _ h0 h1 => by
  have b := log_bound h0 h1
  obtain ⟨f, d⟩ := closeFloat_close (y := Real.log x.val) (b.trans (by norm_num))
  refine ⟨f, d.trans ?_⟩
  have := abs_nonneg (Real.log (x.val : ℝ))
  norm_num
  linarith

end Zcm
