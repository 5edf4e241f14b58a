import Mathlib.Analysis.SpecialFunctions.Log.Deriv
import Mathlib.NumberTheory.Harmonic.EulerMascheroni
import Mathlib.Analysis.Complex.ExponentialBounds
import Mathlib.Tactic.FieldSimp
import Mathlib.Tactic.LinearCombination

/-!
# Bounds on logarithms and on Euler's constant γ
-/

namespace Zcm

open Real Filter Topology

/-- term `k` of the series of `log (1 + 1/a)`, with `x = 1/(2a+1)` -/
noncomputable def logTerm (x : ℝ) (k : ℕ) : ℝ := 2 * (1 / (2 * k + 1)) * x ^ (2 * k + 1)

theorem logTerm_nonneg {x : ℝ} (hx : 0 ≤ x) (k : ℕ) : 0 ≤ logTerm x k := by
  unfold logTerm; positivity

theorem log_ge (a : ℝ) (ha : 0 < a) (N : ℕ) :
    ∑ k ∈ Finset.range N, logTerm (1 / (2 * a + 1)) k ≤ log (1 + a⁻¹) :=
  sum_le_hasSum _ (fun k _ => logTerm_nonneg (by positivity) k) (hasSum_log_one_add_inv ha)

theorem log_le (a : ℝ) (ha : 0 < a) (N : ℕ) :
    log (1 + a⁻¹) ≤ ∑ k ∈ Finset.range N, logTerm (1 / (2 * a + 1)) k +
      2 * (1 / (2 * N + 1)) * (1 / (2 * a + 1)) ^ (2 * N + 1) * (1 - (1 / (2 * a + 1)) ^ 2)⁻¹ := by
  set x := 1 / (2 * a + 1) with hx
  have hx0 : 0 < x := by positivity
  have hx1 : x < 1 := by
    rw [hx, div_lt_one (by positivity)]; linarith
  have hy : x ^ 2 < 1 := by nlinarith
  have h := (hasSum_nat_add_iff' N).2 (hasSum_log_one_add_inv ha)
  have g := (hasSum_geometric_of_lt_one (sq_nonneg x) hy).mul_left
    (2 * (1 / (2 * (N : ℝ) + 1)) * x ^ (2 * N + 1))
  have := hasSum_le (fun n => ?_) h g
  · unfold logTerm
    linarith
  · rw [← hx, ← pow_mul, mul_assoc _ (x ^ _) (x ^ _), ← pow_add,
      show 2 * (n + N) + 1 = 2 * N + 1 + 2 * n by ring]
    refine mul_le_mul_of_nonneg_right ?_ (by positivity)
    push_cast
    have : (1 : ℝ) / (2 * (n + N) + 1) ≤ 1 / (2 * N + 1) :=
      one_div_le_one_div_of_le (by positivity) (by nlinarith [Nat.cast_nonneg (α := ℝ) n])
    linarith

/-- `H_n - log n - 1/(2n) + 1/(12n²)` -/
noncomputable def gammaUp (n : ℕ) : ℝ :=
  (harmonic n : ℝ) - log n - 1 / (2 * n) + 1 / (12 * n ^ 2)

/-- `H_n - log n - 1/(2n) + 1/(12n²) - 1/(120n⁴)` -/
noncomputable def gammaLow (n : ℕ) : ℝ := gammaUp n - 1 / (120 * n ^ 4)

theorem log_step (n : ℕ) (hn : 0 < n) : log ((n + 1 : ℕ) : ℝ) - log n = log (1 + (n : ℝ)⁻¹) := by
  have h : (0 : ℝ) < n := by exact_mod_cast hn
  rw [← log_div (by positivity) h.ne']
  congr 1
  push_cast
  field_simp

theorem gammaUp_step (n : ℕ) (hn : 0 < n) : gammaUp (n + 1) ≤ gammaUp n := by
  have h : (0 : ℝ) < n := by exact_mod_cast hn
  have hl := log_ge n h 3
  have hs := log_step n hn
  have e : gammaUp n - gammaUp (n + 1) = log (1 + (n : ℝ)⁻¹) - 1 / (n + 1) - 1 / (2 * n) +
      1 / (2 * (n + 1)) + 1 / (12 * n ^ 2) - 1 / (12 * (n + 1) ^ 2) := by
    rw [← hs]
    unfold gammaUp
    rw [harmonic_succ]
    push_cast
    ring
  have k : ∑ k ∈ Finset.range 3, logTerm (1 / (2 * (n : ℝ) + 1)) k - 1 / (n + 1) - 1 / (2 * n) +
      1 / (2 * (n + 1)) + 1 / (12 * n ^ 2) - 1 / (12 * (n + 1) ^ 2) ≥ 0 := by
    simp only [Finset.sum_range_succ, Finset.sum_range_zero, logTerm]
    push_cast
    generalize (n : ℝ) = t at *
    have : 0 + 2 * (1 / (2 * 0 + 1)) * (1 / (2 * t + 1)) ^ (2 * 0 + 1) +
        2 * (1 / (2 * 1 + 1)) * (1 / (2 * t + 1)) ^ (2 * 1 + 1) +
        2 * (1 / (2 * 2 + 1)) * (1 / (2 * t + 1)) ^ (2 * 2 + 1) - 1 / (t + 1) - 1 / (2 * t) +
        1 / (2 * (t + 1)) + 1 / (12 * t ^ 2) - 1 / (12 * (t + 1) ^ 2) =
        (1 / 12 + 1 / 2 * t + 47 / 30 * t ^ 2 + 32 / 15 * t ^ 3 + 16 / 15 * t ^ 4) /
          ((2 * t + 1) ^ 5 * t ^ 2 * (t + 1) ^ 2) := by
      simp only [Nat.reduceMul, Nat.reduceAdd, div_pow, one_pow]
      field_simp
      ring
    rw [this]
    positivity
  linarith

theorem gammaLow_step (n : ℕ) (hn : 0 < n) : gammaLow n ≤ gammaLow (n + 1) := by
  have h : (0 : ℝ) < n := by exact_mod_cast hn
  have hl := log_le n h 3
  have hs := log_step n hn
  have e : gammaLow (n + 1) - gammaLow n = -log (1 + (n : ℝ)⁻¹) + 1 / (n + 1) + 1 / (2 * n) -
      1 / (2 * (n + 1)) - 1 / (12 * n ^ 2) + 1 / (12 * (n + 1) ^ 2) + 1 / (120 * n ^ 4) -
      1 / (120 * (n + 1) ^ 4) := by
    rw [← hs]
    unfold gammaLow gammaUp
    rw [harmonic_succ]
    push_cast
    ring
  have k : -(∑ k ∈ Finset.range 3, logTerm (1 / (2 * (n : ℝ) + 1)) k +
      2 * (1 / (2 * (3 : ℕ) + 1)) * (1 / (2 * (n : ℝ) + 1)) ^ (2 * 3 + 1) *
        (1 - (1 / (2 * (n : ℝ) + 1)) ^ 2)⁻¹) + 1 / (n + 1) + 1 / (2 * n) -
      1 / (2 * (n + 1)) - 1 / (12 * n ^ 2) + 1 / (12 * (n + 1) ^ 2) + 1 / (120 * n ^ 4) -
      1 / (120 * (n + 1) ^ 4) ≥ 0 := by
    simp only [Finset.sum_range_succ, Finset.sum_range_zero, logTerm]
    push_cast
    generalize (n : ℝ) = t at *
    have hq : (1 - (1 / (2 * t + 1)) ^ 2)⁻¹ = (2 * t + 1) ^ 2 / (4 * t * (t + 1)) := by
      have : 1 - (1 / (2 * t + 1)) ^ 2 = (4 * t * (t + 1)) / (2 * t + 1) ^ 2 := by
        field_simp
        ring
      rw [this, inv_div]
    rw [hq]
    have : -(0 + 2 * (1 / (2 * 0 + 1)) * (1 / (2 * t + 1)) ^ (2 * 0 + 1) +
        2 * (1 / (2 * 1 + 1)) * (1 / (2 * t + 1)) ^ (2 * 1 + 1) +
        2 * (1 / (2 * 2 + 1)) * (1 / (2 * t + 1)) ^ (2 * 2 + 1) +
        2 * (1 / (2 * 3 + 1)) * (1 / (2 * t + 1)) ^ (2 * 3 + 1) *
          ((2 * t + 1) ^ 2 / (4 * t * (t + 1)))) + 1 / (t + 1) + 1 / (2 * t) -
        1 / (2 * (t + 1)) - 1 / (12 * t ^ 2) + 1 / (12 * (t + 1) ^ 2) + 1 / (120 * t ^ 4) -
        1 / (120 * (t + 1) ^ 4) =
        (1 / 120 + 7 / 60 * t + 19 / 30 * t ^ 2 + 377 / 210 * t ^ 3 + 1177 / 420 * t ^ 4 +
          16 / 7 * t ^ 5 + 16 / 21 * t ^ 6) / ((2 * t + 1) ^ 5 * t ^ 4 * (t + 1) ^ 4) := by
      simp only [Nat.reduceMul, Nat.reduceAdd, div_pow, one_pow]
      field_simp
      ring
    rw [this]
    positivity
  linarith

theorem tendsto_gammaUp : Tendsto gammaUp atTop (𝓝 eulerMascheroniConstant) := by
  have h0 := tendsto_harmonic_sub_log
  have h1 : Tendsto (fun n : ℕ => 1 / (2 * (n : ℝ))) atTop (𝓝 0) := by
    have := (tendsto_one_div_atTop_nhds_zero_nat (𝕜 := ℝ)).const_mul (1 / 2)
    rw [mul_zero] at this
    refine this.congr fun n => ?_
    rw [div_mul_div_comm, one_mul]
  have h2 : Tendsto (fun n : ℕ => 1 / (12 * (n : ℝ) ^ 2)) atTop (𝓝 0) := by
    have := ((tendsto_one_div_atTop_nhds_zero_nat (𝕜 := ℝ)).pow 2).const_mul (1 / 12)
    rw [zero_pow (by norm_num), mul_zero] at this
    refine this.congr fun n => ?_
    rw [div_pow, one_pow, div_mul_div_comm, one_mul]
  have := (h0.sub h1).add h2
  rw [sub_zero, add_zero] at this
  exact this

theorem tendsto_gammaLow : Tendsto gammaLow atTop (𝓝 eulerMascheroniConstant) := by
  have h2 : Tendsto (fun n : ℕ => 1 / (120 * (n : ℝ) ^ 4)) atTop (𝓝 0) := by
    have := ((tendsto_one_div_atTop_nhds_zero_nat (𝕜 := ℝ)).pow 4).const_mul (1 / 120)
    rw [zero_pow (by norm_num), mul_zero] at this
    refine this.congr fun n => ?_
    rw [div_pow, one_pow, div_mul_div_comm, one_mul]
  have := tendsto_gammaUp.sub h2
  rw [sub_zero] at this
  exact this

theorem euler_le (n : ℕ) : eulerMascheroniConstant ≤ gammaUp (n + 1) := by
  have a : Antitone fun n => gammaUp (n + 1) := antitone_nat_of_succ_le fun n => gammaUp_step _ (by omega)
  exact a.le_of_tendsto (tendsto_gammaUp.comp (tendsto_add_atTop_nat 1)) n

theorem le_euler (n : ℕ) : gammaLow (n + 1) ≤ eulerMascheroniConstant := by
  have a : Monotone fun n => gammaLow (n + 1) := monotone_nat_of_le_succ fun n => gammaLow_step _ (by omega)
  exact a.ge_of_tendsto (tendsto_gammaLow.comp (tendsto_add_atTop_nat 1)) n

/-- Euler's constant to eight digits. -/
theorem euler_bounds : 0.57721566 < eulerMascheroniConstant ∧ eulerMascheroniConstant < 0.57721567 := by
  have h1 := euler_le 63
  have h2 := le_euler 63
  have hl : log ((63 + 1 : ℕ) : ℝ) = 6 * log 2 := by
    rw [show ((63 + 1 : ℕ) : ℝ) = 2 ^ 6 by norm_num, log_pow]; norm_num
  have hh : harmonic (63 + 1) = 623171679694215690971693339 / 131362987122535807501262400 := by
    decide +kernel
  have l1 := log_two_gt_d9
  have l2 := log_two_lt_d9
  unfold gammaLow at h2
  unfold gammaUp at h1 h2
  rw [hl, hh] at h1 h2
  constructor <;> norm_num at * <;> linarith

end Zcm
