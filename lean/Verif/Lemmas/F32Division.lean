import Mathlib.LinearAlgebra.Matrix.NonsingularInverse
import Verif.Spec.Cramer
import Verif.Spec.Accuracy
import Verif.Lemmas.F32Transform

/-!
# Lemmas: dividing by a matrix in float arithmetic
-/

set_option exponentiation.threshold 300

namespace Zcm

open F32

theorem abs_det_le_termSize {n : ℕ} (A : Matrix (Fin n) (Fin n) ℚ) : |A.det| ≤ termSize A := by
  rw [Matrix.det_apply]
  refine (Finset.abs_sum_le_sum_abs _ _).trans (Finset.sum_le_sum fun σ _ => le_of_eq ?_)
  rw [Units.smul_def, zsmul_eq_mul, abs_mul, Finset.abs_prod]
  rcases Int.units_eq_one_or (Equiv.Perm.sign σ) with h | h <;> rw [h] <;> simp

theorem abs_inv_le {n : ℕ} {A : Matrix (Fin (n + 1)) (Fin (n + 1)) ℚ} (i j : Fin (n + 1)) :
    |A⁻¹ i j| ≤ minorSize A i j / |A.det| := by
  rw [Matrix.inv_def, Matrix.smul_apply, Ring.inverse_eq_inv', smul_eq_mul, abs_mul, abs_inv, inv_mul_eq_div]
  refine div_le_div_of_nonneg_right ?_ (abs_nonneg _)
  rw [Matrix.adjugate_fin_succ_eq_det_submatrix, abs_mul, abs_pow, abs_neg, abs_one, one_pow, one_mul]
  exact abs_det_le_termSize _

theorem division {n : ℕ} (h1 : 1 ≤ n) (hn : n ≤ 3) {A : Matrix (Fin (n + 1)) (Fin (n + 1)) ℚ} {B : ℚ} (hB : 1 ≤ B)
    (hi : Invertible32 A B) {X : F32} {a b : Fin (n + 1) → F32} {p q : Fin (n + 1) → Fin (n + 1)} (hX : AccurateSum X a b)
    (fa : ∀ k, (a k).IsFin = true) (hb : ∀ k, InverseEntry A B (p k) (q k) (b k))
    (hS : cramerSize A (fun k => (a k).val) p q ≤ 2 ^ 120) (hN : ∑ k, |(a k).val| ≤ 2 ^ 100) :
    X.IsFin = true ∧ |X.val - ∑ k, (a k).val * A⁻¹ (p k) (q k)| ≤ divisionError A B (fun k => (a k).val) p q := by
  obtain ⟨i1, i2⟩ := hi
  have Bn : B ≤ B ^ n := le_self_pow₀ hB (by omega)
  have d0 : 0 < |A.det| := by
    have : 0 < 2 ^ 110 * |A.det| := lt_of_lt_of_le (by linarith) i2
    linarith
  have tB : B / |A.det| ≤ 2 ^ 110 := by rw [div_le_iff₀ d0]; exact Bn.trans i2
  have k1 : 1 ≤ termSize A / |A.det| := by rw [le_div_iff₀ d0, one_mul]; exact abs_det_le_termSize A
  have k2 : termSize A / |A.det| ≤ 2 ^ 18 := by rw [div_le_iff₀ d0]; exact i1
  unfold divisionError
  unfold cramerSize at hS ⊢
  have tB0 : 0 ≤ B / |A.det| := by positivity
  obtain ⟨κ, hκ⟩ : ∃ κ, κ = termSize A / |A.det| := ⟨_, rfl⟩
  rw [← hκ] at k1 k2 ⊢
  obtain ⟨t, ht⟩ : ∃ t, t = B / |A.det| / 2 ^ 145 + 1 / 2 ^ 150 := ⟨_, rfl⟩
  have t0 : 0 ≤ t := by rw [ht]; positivity
  have t1 : t ≤ 1 := by rw [ht]; norm_num at tB ⊢; linarith
  have e : ∀ k, |(b k).val - A⁻¹ (p k) (q k)| ≤ κ / 2 ^ 19 * (minorSize A (p k) (q k) / |A.det|) + t := fun k => by
    have := (hb k).2
    rw [ht, hκ]
    refine this.trans (le_of_eq ?_)
    ring
  have g0 : ∀ k, 0 ≤ minorSize A (p k) (q k) / |A.det| := fun k => div_nonneg (minorSize_nonneg _ _ _) d0.le
  have inv : ∀ k, |A⁻¹ (p k) (q k)| ≤ minorSize A (p k) (q k) / |A.det| := fun k => abs_inv_le _ _
  have e2 : (B / |A.det| / 2 ^ 144 + 1 / 2 ^ 149) = 2 * t := by rw [ht]; ring
  rw [e2]
  obtain ⟨g, hg⟩ : ∃ g : Fin (n + 1) → ℚ, ∀ k, g k = minorSize A (p k) (q k) / |A.det| := ⟨_, fun _ => rfl⟩
  simp only [← hg] at *
  obtain ⟨S, hSe⟩ : ∃ S, S = ∑ k, |(a k).val| * g k := ⟨_, rfl⟩
  obtain ⟨N, hNe⟩ : ∃ N, N = ∑ k, |(a k).val| := ⟨_, rfl⟩
  rw [← hSe] at hS ⊢
  rw [← hNe] at hN ⊢
  have S0 : 0 ≤ S := by rw [hSe]; exact Finset.sum_nonneg fun k _ => mul_nonneg (abs_nonneg _) (g0 k)
  have N0 : 0 ≤ N := by rw [hNe]; exact Finset.sum_nonneg fun k _ => abs_nonneg _
  have tN : t * N ≤ 2 ^ 100 := (mul_le_of_le_one_left N0 t1).trans hN
  have tN0 : 0 ≤ t * N := mul_nonneg t0 N0
  have b_le : ∀ k, |(b k).val| ≤ (1 + κ / 2 ^ 19) * g k + t := fun k => by
    have := abs_sub_abs_le_abs_sub (b k).val (A⁻¹ (p k) (q k))
    linarith [e k, inv k]
  have sum1 : ∑ k, |(a k).val * (b k).val| ≤ (1 + κ / 2 ^ 19) * S + t * N := by
    rw [hSe, hNe, Finset.mul_sum, Finset.mul_sum, ← Finset.sum_add_distrib]
    refine Finset.sum_le_sum fun k _ => ?_
    rw [abs_mul]
    refine (mul_le_mul_of_nonneg_left (b_le k) (abs_nonneg _)).trans (le_of_eq ?_)
    ring
  have sum2 : |∑ k, (a k).val * (b k).val - ∑ k, (a k).val * A⁻¹ (p k) (q k)| ≤ κ / 2 ^ 19 * S + t * N := by
    rw [← Finset.sum_sub_distrib, hSe, hNe, Finset.mul_sum, Finset.mul_sum, ← Finset.sum_add_distrib]
    refine (Finset.abs_sum_le_sum_abs _ _).trans (Finset.sum_le_sum fun k _ => ?_)
    rw [← mul_sub, abs_mul]
    refine (mul_le_mul_of_nonneg_left (e k) (abs_nonneg _)).trans (le_of_eq ?_)
    ring
  have κS : κ / 2 ^ 19 * S ≤ 1 / 2 * S := mul_le_mul_of_nonneg_right (by norm_num at k2 ⊢; linarith) S0
  have f : X.IsFin = true := hX.1 (fun k => ⟨fa k, (hb k).1⟩) (sum1.trans (by norm_num at *; linarith))
  refine ⟨f, ?_⟩
  have P : ((1 + 1 / 2 ^ 24 : ℚ) ^ (n + 1) - 1) ≤ 4.001 / 2 ^ 24 := by
    have : (1 + 1 / 2 ^ 24 : ℚ) ^ (n + 1) ≤ (1 + 1 / 2 ^ 24) ^ 4 := pow_le_pow_right₀ (by norm_num) (by omega)
    norm_num at this ⊢
    linarith
  have P0 : 0 ≤ ((1 + 1 / 2 ^ 24 : ℚ) ^ (n + 1) - 1) := by
    have : (1 : ℚ) ≤ (1 + 1 / 2 ^ 24) ^ (n + 1) := one_le_pow₀ (by norm_num)
    linarith
  have r := hX.2 f
  have nn : ((n + 1 : ℕ) : ℚ) / 2 ^ 149 ≤ 1 / 2 ^ 147 := by
    have : ((n + 1 : ℕ) : ℚ) ≤ 4 := by exact_mod_cast (by omega : n + 1 ≤ 4)
    norm_num at this ⊢; linarith
  have m : ((1 + 1 / 2 ^ 24 : ℚ) ^ (n + 1) - 1) * ∑ k, |(a k).val * (b k).val| ≤
      4.001 / 2 ^ 24 * ((1 + κ / 2 ^ 19) * S + t * N) :=
    mul_le_mul P sum1 (Finset.sum_nonneg fun _ _ => abs_nonneg _) (by norm_num)
  have tri := abs_sub_le X.val (∑ k, (a k).val * (b k).val) (∑ k, (a k).val * A⁻¹ (p k) (q k))
  refine tri.trans ((add_le_add (r.trans (add_le_add m nn)) sum2).trans ?_)
  have κS' : 1 * S ≤ κ * S := mul_le_mul_of_nonneg_right k1 S0
  have x1 : 4.001 / 2 ^ 24 * ((1 + κ / 2 ^ 19) * S + t * N) = 4.001 / 2 ^ 24 * (S + κ / 2 ^ 19 * S + t * N) := by ring
  have x2 : κ / 2 ^ 19 * S = κ * S / 2 ^ 19 := by ring
  rw [x1]
  rw [x2] at *
  generalize κ * S = W at *
  rw [mul_assoc 2 t N]
  generalize t * N = T at *
  norm_num at *
  linarith

end Zcm
