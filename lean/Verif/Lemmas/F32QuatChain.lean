import Verif.Lemmas.F32Quat
import Verif.Lemmas.F32Length
import Verif.Model.Geometric
import Mathlib.Analysis.Complex.ExponentialBounds

/-!
# Rounding errors of long products of quaternions
-/

set_option exponentiation.threshold 300

namespace Zcm

open Quaternion F32

theorem growth {n : ℕ} (hn : n ≤ 2 ^ 15) :
    1 ≤ (1 + 1 / 2 ^ 16 : ℝ) ^ n ∧ (1 + 1 / 2 ^ 16 : ℝ) ^ n ≤ 1.75 ∧ (1 + 1 / 2 ^ 16 : ℝ) ^ n - 1 ≤ n / 2 ^ 15 := by
  have n0 : (n : ℝ) ≤ 2 ^ 15 := by exact_mod_cast hn
  have e : (1 + 1 / 2 ^ 16 : ℝ) ^ n ≤ Real.exp (n / 2 ^ 16) := by
    have := Real.add_one_le_exp (1 / 2 ^ 16 : ℝ)
    calc (1 + 1 / 2 ^ 16 : ℝ) ^ n ≤ Real.exp (1 / 2 ^ 16) ^ n := by
          apply pow_le_pow_left₀ (by positivity)
          linarith
      _ = _ := by rw [← Real.exp_nat_mul]; congr 1; ring
  have h : (n : ℝ) / 2 ^ 16 ≤ 1 / 2 := by
    rw [div_le_iff₀ (by positivity)]
    exact n0.trans (by norm_num)
  refine ⟨one_le_pow₀ (by norm_num), ?_, ?_⟩
  · have h2 : Real.exp ((n : ℝ) / 2 ^ 16) ≤ Real.exp (1 / 2) := Real.exp_le_exp.2 h
    have h3 : Real.exp (1 / 2) ^ 2 ≤ 1.75 ^ 2 := by
      rw [← Real.exp_nat_mul]
      have := Real.exp_one_lt_d9
      norm_num at this ⊢
      linarith
    have := le_of_sq_le_sq h3 (by norm_num)
    linarith
  · have := Real.abs_exp_sub_one_le (x := (n : ℝ) / 2 ^ 16) (by
      rw [abs_of_nonneg (by positivity)]; linarith)
    rw [abs_of_nonneg (by positivity : (0 : ℝ) ≤ n / 2 ^ 16)] at this
    have := (abs_le.1 this).2
    have e2 : 2 * ((n : ℝ) / 2 ^ 16) = n / 2 ^ 15 := by ring
    linarith

theorem chain_step {x q X Q : ℍ[ℝ]} {y : ℍ[ℝ]} {g : ℝ} (h : ‖x - X‖ ≤ (g - 1) * ‖X‖)
    (hy : ‖y - x * q‖ ≤ 1 / 2 ^ 16 * (‖x‖ * ‖q‖)) (e : Q = X * q) :
    ‖y - Q‖ ≤ (g * (1 + 1 / 2 ^ 16) - 1) * ‖Q‖ := by
  subst e
  have nx : ‖x‖ ≤ g * ‖X‖ := by
    have := norm_le_norm_add_norm_sub' x X
    linarith
  calc ‖y - X * q‖ = ‖(y - x * q) + (x - X) * q‖ := by congr 1; noncomm_ring
    _ ≤ ‖y - x * q‖ + ‖x - X‖ * ‖q‖ := (norm_add_le _ _).trans (by rw [norm_mul])
    _ ≤ 1 / 2 ^ 16 * ((g * ‖X‖) * ‖q‖) + (g - 1) * ‖X‖ * ‖q‖ := by
        refine add_le_add (hy.trans ?_) ?_ <;> gcongr
    _ = _ := by rw [norm_mul]; ring

theorem exactProduct_nil (q0 : Quat F32) : exactProduct q0 [] = exactQ q0 := by simp [exactProduct]

theorem exactProduct_append (q0 : Quat F32) (qs : List (Quat F32)) (q : Quat F32) :
    exactProduct q0 (qs ++ [q]) = exactProduct q0 qs * exactQ q := by
  simp [exactProduct, mul_assoc]

theorem chain (q0 : Quat F32) (h0 : q0.Finite) (qs : List (Quat F32)) (hf : ∀ q ∈ qs, q.Finite)
    (hq : ∀ q ∈ qs, ‖exactQ q‖ ≤ 2 ^ 60) (hn : qs.length ≤ 2 ^ 15)
    (hr : ∀ l, l <+: qs → 1 / 2 ^ 98 ≤ ‖exactProduct q0 l‖ ∧ ‖exactProduct q0 l‖ ≤ 2 ^ 59) :
    (qs.foldl (· * ·) q0).Finite ∧
    ‖exactQ (qs.foldl (· * ·) q0) - exactProduct q0 qs‖ ≤
      ((1 + 1 / 2 ^ 16) ^ qs.length - 1) * ‖exactProduct q0 qs‖ := by
  induction qs using List.reverseRecOn with
  | nil => exact ⟨h0, by simp [exactProduct_nil]⟩
  | append_singleton qs q ih =>
    have hn' : qs.length ≤ 2 ^ 15 := by
      rw [List.length_append] at hn; omega
    obtain ⟨f, e⟩ := ih (fun q h => hf q (List.mem_append_left _ h)) (fun q h => hq q (List.mem_append_left _ h)) hn'
      fun l h => hr l (h.trans (List.prefix_append _ _))
    obtain ⟨r1, r2⟩ := hr qs (List.prefix_append _ _)
    obtain ⟨s1, s2⟩ := hr (qs ++ [q]) (List.prefix_refl _)
    have fq := hf q (by simp)
    have nq := hq q (by simp)
    obtain ⟨g1, g2, -⟩ := growth hn'
    rw [exactProduct_append, norm_mul] at s1
    rw [List.foldl_append, List.foldl_cons, List.foldl_nil, List.length_append, List.length_singleton, pow_succ]
    have N0 : 0 ≤ ‖exactProduct q0 qs‖ := norm_nonneg _
    have Q0 : 0 ≤ ‖exactQ q‖ := norm_nonneg _
    have b := abs_le.1 ((abs_norm_sub_norm_le _ _).trans e)
    have up : ‖exactQ (qs.foldl (· * ·) q0)‖ ≤ 1.75 * ‖exactProduct q0 qs‖ := by
      have : ((1 + 1 / 2 ^ 16 : ℝ) ^ qs.length - 1) * ‖exactProduct q0 qs‖ ≤ 0.75 * ‖exactProduct q0 qs‖ := by
        gcongr; linarith
      linarith [b.2]
    have lo : 0.25 * ‖exactProduct q0 qs‖ ≤ ‖exactQ (qs.foldl (· * ·) q0)‖ := by
      have : ((1 + 1 / 2 ^ 16 : ℝ) ^ qs.length - 1) * ‖exactProduct q0 qs‖ ≤ 0.75 * ‖exactProduct q0 qs‖ := by
        gcongr; linarith
      linarith [b.1]
    have m := Quat.mul_norm _ q f fq (up.trans (by
      calc (1.75 : ℝ) * ‖exactProduct q0 qs‖ ≤ 1.75 * 2 ^ 59 := by gcongr
        _ ≤ _ := by norm_num)) nq (by
      calc (1 : ℝ) / 2 ^ 100 = 0.25 * (1 / 2 ^ 98) := by norm_num
        _ ≤ 0.25 * (‖exactProduct q0 qs‖ * ‖exactQ q‖) := by gcongr
        _ = (0.25 * ‖exactProduct q0 qs‖) * ‖exactQ q‖ := by ring
        _ ≤ _ := by gcongr)
    exact ⟨m.1, chain_step e m.2 (exactProduct_append _ _ _)⟩

theorem exactLength_quat (q : Quat F32) : exactLength (coord q) = ‖exactQ q‖ := by
  have h : exactLength (coord q) ^ 2 = ‖exactQ q‖ ^ 2 := by
    rw [exactLength, Real.sq_sqrt (Finset.sum_nonneg fun i _ => sq_nonneg _), norm_sq_quat, Fin.sum_univ_four]
    simp only [coord_q_0, coord_q_1, coord_q_2, coord_q_3, exactQ]
    ring
  exact (sq_eq_sq₀ (Real.sqrt_nonneg _) (norm_nonneg _)).1 h

theorem renorm (v : Quat F32) (hf : v.Finite) (h1 : 1 / 2 ^ 50 ≤ ‖exactQ v‖) (h2 : ‖exactQ v‖ ≤ 2 ^ 63) :
    (Quat.normalize v).Finite ∧ |‖exactQ (Quat.normalize v)‖ - 1| ≤ 1 / 2 ^ 20 ∧
    ‖exactQ (Quat.normalize v) - ‖exactQ v‖⁻¹ • exactQ v‖ ≤ 1 / 2 ^ 20 := by
  have hm : Medium (coord v) := by
    refine ⟨hf, ?_, ?_⟩ <;> rwa [exactLength_quat]
  have a : AlmostUnit (coord v) (coord (Quat.normalize v)) := (sqLen4 hm).quotient hm fun i => by fin_cases i <;> rfl
  have p : 0 < ‖exactQ v‖ := lt_of_lt_of_le (by positivity) h1
  refine ⟨fun i => (a i).1, by rw [← exactLength_quat]; exact a.length hm (by norm_num), ?_⟩
  have c : ∀ i, |((coord (Quat.normalize v) i).val : ℝ) - ‖exactQ v‖⁻¹ * (coord v i).val| ≤ 8 / 2 ^ 24 := by
    intro i
    have e := (a i).2
    have l : |((coord v i).val : ℝ)| ≤ ‖exactQ v‖ := by
      rw [← exactLength_quat]
      exact abs_le_length (fun i => ((coord v i).val : ℝ)) i
    rw [exactLength_quat] at e
    have d : |((coord v i).val : ℝ)| / ‖exactQ v‖ ≤ 1 := (div_le_one p).2 l
    rw [inv_mul_eq_div]
    refine e.trans ?_
    calc 6 / 2 ^ 24 * (|((coord v i).val : ℝ)| / ‖exactQ v‖) + 1 / 2 ^ 150 ≤ 6 / 2 ^ 24 * 1 + 1 / 2 ^ 150 := by gcongr
      _ ≤ _ := by norm_num
  have := quat_norm_le (a := exactQ (Quat.normalize v) - ‖exactQ v‖⁻¹ • exactQ v) (e := 8 / 2 ^ 24) (by norm_num)
    (by rw [re_sub, re_smul]; exact c 3) (by rw [imI_sub, imI_smul]; exact c 0)
    (by rw [imJ_sub, imJ_smul]; exact c 1) (by rw [imK_sub, imK_smul]; exact c 2)
  refine this.trans ?_
  norm_num

theorem spin_step {q d v m U : ℍ[ℝ]} {e : ℝ} (hq : |‖q‖ - 1| ≤ 1 / 2 ^ 20) (hU : ‖q - U‖ ≤ e) (hd : 0 < ‖d‖)
    (hv : ‖v - q * d‖ ≤ 1 / 2 ^ 16 * (‖q‖ * ‖d‖)) (hm : ‖m - ‖v‖⁻¹ • v‖ ≤ 1 / 2 ^ 20) :
    ‖m - ‖d‖⁻¹ • (U * d)‖ ≤ e + 1 / 2 ^ 14 := by
  have i0 : 0 < ‖d‖⁻¹ := inv_pos.2 hd
  have b := abs_le.1 ((abs_norm_sub_norm_le _ _).trans hv)
  rw [norm_mul] at b
  have hq' := abs_le.1 hq
  have q0 := norm_nonneg q
  have v0 : 0 < ‖v‖ := by
    have : (1 / 2 ^ 16 : ℝ) * (‖q‖ * ‖d‖) < ‖q‖ * ‖d‖ := by
      have : 0 < ‖q‖ * ‖d‖ := mul_pos (by linarith) hd
      linarith
    linarith [b.1]
  have n1 : ‖v‖ * ‖d‖⁻¹ ≤ (1 + 1 / 2 ^ 16) * ‖q‖ := by
    rw [← div_eq_mul_inv, div_le_iff₀ hd]
    linarith [b.2]
  have n2 : (1 - 1 / 2 ^ 16) * ‖q‖ ≤ ‖v‖ * ‖d‖⁻¹ := by
    rw [← div_eq_mul_inv, le_div_iff₀ hd]
    linarith [b.1]
  have a1 : ‖‖v‖⁻¹ • v - ‖d‖⁻¹ • v‖ ≤ 1.2 / 2 ^ 16 := by
    rw [← sub_smul, norm_smul, Real.norm_eq_abs]
    have e1 : |‖v‖⁻¹ - ‖d‖⁻¹| * ‖v‖ = |1 - ‖v‖ * ‖d‖⁻¹| := by
      rw [← abs_of_pos v0, ← abs_mul, abs_of_pos v0]
      congr 1
      field_simp
    rw [e1, abs_le]
    constructor <;> linarith
  have a2 : ‖‖d‖⁻¹ • v - ‖d‖⁻¹ • (q * d)‖ ≤ 1.1 / 2 ^ 16 := by
    rw [← smul_sub, norm_smul, Real.norm_eq_abs, abs_of_pos i0]
    calc ‖d‖⁻¹ * ‖v - q * d‖ ≤ ‖d‖⁻¹ * (1 / 2 ^ 16 * (‖q‖ * ‖d‖)) := by gcongr
      _ = 1 / 2 ^ 16 * ‖q‖ := by field_simp
      _ ≤ _ := by linarith
  have a3 : ‖‖d‖⁻¹ • (q * d) - ‖d‖⁻¹ • (U * d)‖ ≤ e := by
    rw [← smul_sub, ← sub_mul, norm_smul, Real.norm_eq_abs, abs_of_pos i0, norm_mul]
    calc ‖d‖⁻¹ * (‖q - U‖ * ‖d‖) = ‖q - U‖ := by field_simp
      _ ≤ e := hU
  calc ‖m - ‖d‖⁻¹ • (U * d)‖ = ‖(m - ‖v‖⁻¹ • v) + ((‖v‖⁻¹ • v - ‖d‖⁻¹ • v) + ((‖d‖⁻¹ • v - ‖d‖⁻¹ • (q * d)) +
        (‖d‖⁻¹ • (q * d) - ‖d‖⁻¹ • (U * d))))‖ := by congr 1; abel
    _ ≤ 1 / 2 ^ 20 + (1.2 / 2 ^ 16 + (1.1 / 2 ^ 16 + e)) := by
        refine (norm_add_le _ _).trans (add_le_add hm ((norm_add_le _ _).trans (add_le_add a1
          ((norm_add_le _ _).trans (add_le_add a2 a3)))))
    _ ≤ _ := by linarith

theorem spin (q0 : Quat F32) (h0 : q0.Finite) (hu : |‖exactQ q0‖ - 1| ≤ 1 / 2 ^ 20) (ds : List (Quat F32))
    (hf : ∀ d ∈ ds, d.Finite) (hd : ∀ d ∈ ds, 1 / 2 ^ 40 ≤ ‖exactQ d‖ ∧ ‖exactQ d‖ ≤ 2 ^ 40) :
    (ds.foldl (fun q d => Quat.normalize (q * d)) q0).Finite ∧
    |‖exactQ (ds.foldl (fun q d => Quat.normalize (q * d)) q0)‖ - 1| ≤ 1 / 2 ^ 20 ∧
    0 < ‖exactProduct q0 ds‖ ∧
    ‖exactQ (ds.foldl (fun q d => Quat.normalize (q * d)) q0) - ‖exactProduct q0 ds‖⁻¹ • exactProduct q0 ds‖ ≤
      (ds.length + 1) / 2 ^ 14 := by
  induction ds using List.reverseRecOn with
  | nil =>
    have p : 0 < ‖exactQ q0‖ := by have := (abs_le.1 hu).1; linarith
    rw [exactProduct_nil]
    refine ⟨h0, hu, p, ?_⟩
    rw [List.foldl_nil]
    nth_rewrite 1 [← one_smul ℝ (exactQ q0)]
    rw [← sub_smul, norm_smul, Real.norm_eq_abs]
    have e1 : |1 - ‖exactQ q0‖⁻¹| * ‖exactQ q0‖ = |‖exactQ q0‖ - 1| := by
      rw [← abs_of_pos p, ← abs_mul, abs_of_pos p]
      congr 1
      field_simp
    rw [e1]
    refine hu.trans ?_
    norm_num
  | append_singleton ds d ih =>
    obtain ⟨f, u, p, e⟩ := ih (fun q h => hf q (List.mem_append_left _ h)) (fun q h => hd q (List.mem_append_left _ h))
    have fd := hf d (by simp)
    obtain ⟨d1, d2⟩ := hd d (by simp)
    have d0 : 0 < ‖exactQ d‖ := lt_of_lt_of_le (by positivity) d1
    rw [List.foldl_append, List.foldl_cons, List.foldl_nil, exactProduct_append]
    generalize ds.foldl (fun q d => Quat.normalize (q * d)) q0 = q at *
    have u' := abs_le.1 u
    have m := Quat.mul_norm q d f fd (by linarith) (d2.trans (by norm_num)) (by
      calc (1 : ℝ) / 2 ^ 100 ≤ (1 / 2) * (1 / 2 ^ 40) := by norm_num
        _ ≤ _ := by gcongr; linarith)
    have b := abs_le.1 ((abs_norm_sub_norm_le _ _).trans m.2)
    rw [norm_mul] at b
    have k1 : 1 / 2 * ‖exactQ d‖ ≤ ‖exactQ q‖ * ‖exactQ d‖ := by gcongr; linarith
    have k2 : ‖exactQ q‖ * ‖exactQ d‖ ≤ 2 * ‖exactQ d‖ := by gcongr; linarith
    obtain ⟨rf, ru, re⟩ := renorm (q * d) m.1 (by linarith [b.1]) (by linarith [b.2])
    refine ⟨rf, ru, by rw [norm_mul]; positivity, ?_⟩
    have s := spin_step u e d0 m.2 re
    have e1 : ‖exactProduct q0 ds * exactQ d‖⁻¹ • (exactProduct q0 ds * exactQ d) =
        ‖exactQ d‖⁻¹ • ((‖exactProduct q0 ds‖⁻¹ • exactProduct q0 ds) * exactQ d) := by
      rw [norm_mul, mul_inv, smul_mul_assoc, smul_smul, mul_comm]
    rw [e1]
    refine s.trans (le_of_eq ?_)
    rw [List.length_append, List.length_singleton]
    push_cast
    ring

end Zcm
