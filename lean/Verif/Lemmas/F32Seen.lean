import Verif.Lemmas.F32Local
import Verif.Lemmas.F32Persp
import Verif.Lemmas.F32Vec3
import Verif.Props.C81

/-!
# A point seen by a camera: products of a perspective matrix and a view matrix
-/

set_option exponentiation.threshold 300

namespace Zcm

open F32 WithLp
open scoped RealInnerProductSpace

/-- an entry of the product of the projection and the view matrix -/
theorem pv_coef {x : F32} {a v : Fin 4 → F32} {E : Fin 4 → ℝ} {k : Fin 4} {K B R ρ ε w : ℝ} (h : AccurateSum x a v)
    (ha : ∀ k, Near (a k) (E k) (7 / 2 ^ 24 * |E k|)) (fv : ∀ k, (v k).IsFin = true)
    (hE : ∀ u : Fin 4 → ℝ, ∑ i, E i * u i = K * u k + B * u 3) (hE' : ∀ u : Fin 4 → ℝ, ∑ i, |E i| * |u i| = |K| * |u k| + |B| * |u 3|)
    (hv : |((v k).val : ℝ) - R| ≤ ε) (hR : |R| ≤ ρ) (hw : ((v 3).val : ℝ) = w) (w0 : 0 ≤ w)
    (hT : |K| * (ρ + ε) + |B| * w ≤ 2 ^ 125) :
    Near x (K * R + B * w) (|K| * (ε + 11.01 / 2 ^ 24 * (ρ + ε)) + 11.01 / 2 ^ 24 * (|B| * w) + 1 / 2 ^ 147) := by
  have vk : |((v k).val : ℝ)| ≤ ρ + ε := by
    have := abs_add_le R (((v k).val : ℝ) - R)
    rw [add_sub_cancel] at this
    linarith
  have S : ∑ i, |E i| * |((v i).val : ℝ)| ≤ |K| * (ρ + ε) + |B| * w := by
    rw [hE' fun i => ((v i).val : ℝ), hw, abs_of_nonneg w0]
    gcongr
  have S0 : 0 ≤ ∑ i, |E i| * |((v i).val : ℝ)| := Finset.sum_nonneg fun i _ => by positivity
  have s1 : ∑ i, (|E i| + 7 / 2 ^ 24 * |E i|) * |((v i).val : ℝ)| = (1 + 7 / 2 ^ 24) * ∑ i, |E i| * |((v i).val : ℝ)| := by
    rw [Finset.mul_sum]
    exact Finset.sum_congr rfl fun i _ => by ring
  have n := near_perturbed le_rfl h (fun i => (ha i).1) fv (b := E) (p := fun i => |E i|) (e := fun i => 7 / 2 ^ 24 * |E i|)
    (fun i => le_rfl) (fun i => (ha i).2) (by
      rw [s1]
      have : (2:ℝ) ^ 126 = 2 * 2 ^ 125 := by norm_num
      rw [this]
      have : (1 + 7 / 2 ^ 24 : ℝ) ≤ 2 := by norm_num
      gcongr
      linarith)
  refine ⟨n.1, ?_⟩
  have e := n.2
  rw [hE fun i => ((v i).val : ℝ), hw] at e
  have s2 : ∑ i, (7 / 2 ^ 24 * |E i| + 4.001 / 2 ^ 24 * (|E i| + 7 / 2 ^ 24 * |E i|)) * |((v i).val : ℝ)| =
      (7 / 2 ^ 24 + 4.001 / 2 ^ 24 * (1 + 7 / 2 ^ 24)) * ∑ i, |E i| * |((v i).val : ℝ)| := by
    rw [Finset.mul_sum]
    exact Finset.sum_congr rfl fun i _ => by ring
  rw [s2] at e
  have s3 : (7 / 2 ^ 24 + 4.001 / 2 ^ 24 * (1 + 7 / 2 ^ 24)) * ∑ i, |E i| * |((v i).val : ℝ)| ≤
      11.01 / 2 ^ 24 * (|K| * (ρ + ε) + |B| * w) := by
    gcongr
    norm_num
  have d : |(K * ((v k).val : ℝ) + B * w) - (K * R + B * w)| ≤ |K| * ε := by
    rw [add_sub_add_right_eq_sub, ← mul_sub, abs_mul]
    gcongr
  have := abs_sub_le (x.val : ℝ) (K * ((v k).val : ℝ) + B * w) (K * R + B * w)
  linarith

private theorem sum_abs_le (p : Space) : |p 0| + |p 1| + |p 2| ≤ 1.74 * ‖p‖ := by
  have h : (|p 0| + |p 1| + |p 2|) ^ 2 ≤ 3 * ‖p‖ ^ 2 := by
    rw [EuclideanSpace.norm_sq_eq, Fin.sum_univ_three]
    simp only [Real.norm_eq_abs]
    nlinarith [sq_nonneg (|p 0| - |p 1|), sq_nonneg (|p 0| - |p 2|), sq_nonneg (|p 1| - |p 2|)]
  refine abs_le_of_sq_le_sq' ?_ (by positivity) |>.2
  nlinarith [sq_nonneg ‖p‖]

/-- a row of the product of the two matrices, applied to a point -/
theorem pv_row {x : F32} {a : Fin 4 → F32} {p : V3 F32} {R : Space} {K B T S ε ε' : ℝ}
    (h : AccurateSum x a (coord (V4.ofXYZ_W p (lit 1)))) (fp : ∀ i, (coord p i).IsFin = true)
    (ha : ∀ i : Fin 3, Near (a i.castSucc) (K * R i + B * 0) (|K| * (ε + 11.01 / 2 ^ 24 * (1 + ε)) + 11.01 / 2 ^ 24 * (|B| * 0) + 1 / 2 ^ 147))
    (h3 : Near (a 3) (K * T + B * 1) (|K| * ((ε' * S + 1 / 2 ^ 147) + 11.01 / 2 ^ 24 * (S + (ε' * S + 1 / 2 ^ 147))) +
      11.01 / 2 ^ 24 * (|B| * 1) + 1 / 2 ^ 147))
    (hR : ‖R‖ ≤ 1) (hT : |T| ≤ S) (e0 : 0 ≤ ε) (e1 : ε ≤ 1 / 4) (e0' : 0 ≤ ε') (e1' : ε' ≤ 1 / 4)
    (ee : ε' ≤ 1.74 * ε + 14 / 2 ^ 24) (K1 : 1 / 2 ^ 51 ≤ |K|) (K2 : |K| ≤ 2 ^ 45) (B2 : |B| ≤ 2 ^ 60)
    (hp : ‖exactly p‖ ≤ 2 ^ 60) (hS : S ≤ 2 ^ 60) (low : 1 / 2 ^ 30 ≤ ‖exactly p‖ + S) :
    Near x (K * (⟪R, exactly p⟫ + T) + B) (|K| * (1.74 * ε + 33 / 2 ^ 24) * (‖exactly p‖ + S) + 15.1 / 2 ^ 24 * |B|) := by
  have S0 : 0 ≤ S := (abs_nonneg _).trans hT
  have P0 := norm_nonneg (exactly p)
  have B0 := abs_nonneg B
  set L := |K| with hL
  have L0 : 0 < L := lt_of_lt_of_le (by norm_num) K1
  have sp := sum_abs_le (exactly p)
  simp only [exactly_apply] at sp
  have ec : L * (ε + 11.01 / 2 ^ 24 * (1 + ε)) + 11.01 / 2 ^ 24 * (|B| * 0) + 1 / 2 ^ 147 ≤ L * (ε + 13.8 / 2 ^ 24) := by
    have : (1:ℝ) / 2 ^ 147 ≤ 0.01 / 2 ^ 24 * L := by
      calc (1:ℝ) / 2 ^ 147 ≤ 0.01 / 2 ^ 24 * (1 / 2 ^ 51) := by norm_num
        _ ≤ _ := by gcongr
    have : L * (11.01 / 2 ^ 24 * (1 + ε)) ≤ L * (11.01 / 2 ^ 24 * (1 + 1 / 4)) := by gcongr
    linarith
  have e3 : L * ((ε' * S + 1 / 2 ^ 147) + 11.01 / 2 ^ 24 * (S + (ε' * S + 1 / 2 ^ 147))) + 11.01 / 2 ^ 24 * (|B| * 1) + 1 / 2 ^ 147 ≤
      L * (ε' + 13.8 / 2 ^ 24) * S + 11.01 / 2 ^ 24 * |B| + 2 / 2 ^ 147 * (L + 1) := by
    have : L * (11.01 / 2 ^ 24 * (S + ε' * S)) ≤ L * (11.01 / 2 ^ 24 * (S + 1 / 4 * S)) := by gcongr
    have : 0 ≤ L * S := by positivity
    linarith
  set e : Fin 4 → ℝ := ![L * (ε + 13.8 / 2 ^ 24), L * (ε + 13.8 / 2 ^ 24), L * (ε + 13.8 / 2 ^ 24),
    L * (ε' + 13.8 / 2 ^ 24) * S + 11.01 / 2 ^ 24 * |B| + 2 / 2 ^ 147 * (L + 1)] with he
  set q : Fin 4 → ℝ := ![L, L, L, L * S + |B|] with hq
  set b : Fin 4 → ℝ := ![K * R 0, K * R 1, K * R 2, K * T + B] with hb
  have c : ∀ i : Fin 3, |K * R i| ≤ L := fun i => by
    rw [abs_mul]
    exact mul_le_of_le_one_right (abs_nonneg _) ((abs_apply_le R i).trans hR)
  have c3 : |K * T + B| ≤ L * S + |B| := by
    refine (abs_add_le _ _).trans ?_
    rw [abs_mul]
    gcongr
  have f1 : (lit 1 : F32).IsFin = true := isFin_lit_one
  have l1 : |((lit 1 : F32).val : ℝ)| = 1 := by rw [lit_one_cast, abs_one]
  have le : ∀ c : ℝ, 0 ≤ c → c * |((coord p 0).val : ℝ)| + c * |((coord p 1).val : ℝ)| + c * |((coord p 2).val : ℝ)| ≤
      c * (1.74 * ‖exactly p‖) := fun c hc => by
    have := mul_le_mul_of_nonneg_left sp hc
    linarith
  have fin : ∀ i, (a i).IsFin = true := fun i => by
    fin_cases i
    · exact (ha 0).1
    · exact (ha 1).1
    · exact (ha 2).1
    · exact h3.1
  have n := near_perturbed le_rfl h fin (fun i => by fin_cases i; exacts [fp 0, fp 1, fp 2, f1]) (b := b) (p := q) (e := e)
    (fun i => by fin_cases i; exacts [c 0, c 1, c 2, c3])
    (fun i => by
      fin_cases i
      · have := (ha 0).2.trans ec; rw [mul_zero, add_zero] at this; exact this
      · have := (ha 1).2.trans ec; rw [mul_zero, add_zero] at this; exact this
      · have := (ha 2).2.trans ec; rw [mul_zero, add_zero] at this; exact this
      · have := h3.2.trans e3; rw [mul_one] at this; exact this)
    (by
      rw [Fin.sum_univ_four]
      change (L + L * (ε + 13.8 / 2 ^ 24)) * |((coord p 0).val : ℝ)| + (L + L * (ε + 13.8 / 2 ^ 24)) * |((coord p 1).val : ℝ)| +
        (L + L * (ε + 13.8 / 2 ^ 24)) * |((coord p 2).val : ℝ)| +
        (L * S + |B| + (L * (ε' + 13.8 / 2 ^ 24) * S + 11.01 / 2 ^ 24 * |B| + 2 / 2 ^ 147 * (L + 1))) * |((lit 1 : F32).val : ℝ)| ≤ 2 ^ 126
      rw [l1]
      have g : L * (ε + 13.8 / 2 ^ 24) ≤ 2 ^ 45 * 1 := by gcongr; norm_num; linarith
      have g0 : 0 ≤ L * (ε + 13.8 / 2 ^ 24) := by positivity
      have g' : L * (ε' + 13.8 / 2 ^ 24) ≤ 2 ^ 45 * 1 := by gcongr; norm_num; linarith
      have := le (L + L * (ε + 13.8 / 2 ^ 24)) (by positivity)
      have : (L + L * (ε + 13.8 / 2 ^ 24)) * (1.74 * ‖exactly p‖) ≤ (2 ^ 45 + 2 ^ 45 * 1) * (1.74 * 2 ^ 60) := by gcongr
      have : L * S ≤ 2 ^ 45 * 2 ^ 60 := by gcongr
      have : L * (ε' + 13.8 / 2 ^ 24) * S ≤ 2 ^ 45 * 1 * 2 ^ 60 := by gcongr
      norm_num at *
      linarith)
  refine ⟨n.1, ?_⟩
  have m := n.2
  rw [Fin.sum_univ_four, Fin.sum_univ_four] at m
  change |(x.val : ℝ) - (K * R 0 * (coord p 0).val + K * R 1 * (coord p 1).val + K * R 2 * (coord p 2).val + (K * T + B) * (lit 1 : F32).val)| ≤
    (L * (ε + 13.8 / 2 ^ 24) + 4.001 / 2 ^ 24 * (L + L * (ε + 13.8 / 2 ^ 24))) * |((coord p 0).val : ℝ)| +
    (L * (ε + 13.8 / 2 ^ 24) + 4.001 / 2 ^ 24 * (L + L * (ε + 13.8 / 2 ^ 24))) * |((coord p 1).val : ℝ)| +
    (L * (ε + 13.8 / 2 ^ 24) + 4.001 / 2 ^ 24 * (L + L * (ε + 13.8 / 2 ^ 24))) * |((coord p 2).val : ℝ)| +
    (L * (ε' + 13.8 / 2 ^ 24) * S + 11.01 / 2 ^ 24 * |B| + 2 / 2 ^ 147 * (L + 1) + 4.001 / 2 ^ 24 * (L * S + |B| +
      (L * (ε' + 13.8 / 2 ^ 24) * S + 11.01 / 2 ^ 24 * |B| + 2 / 2 ^ 147 * (L + 1)))) * |((lit 1 : F32).val : ℝ)| + 1 / 2 ^ 147 at m
  rw [l1, lit_one_cast] at m
  have t : K * R 0 * (coord p 0).val + K * R 1 * (coord p 1).val + K * R 2 * (coord p 2).val + (K * T + B) * 1 =
      K * (⟪R, exactly p⟫ + T) + B := by
    rw [PiLp.inner_apply, Fin.sum_univ_three]
    simp only [exactly_apply, RCLike.inner_apply, conj_trivial]
    ring
  rw [t] at m
  refine m.trans ?_
  have g : L * (ε + 13.8 / 2 ^ 24) + 4.001 / 2 ^ 24 * (L + L * (ε + 13.8 / 2 ^ 24)) ≤ L * (ε + 18.9 / 2 ^ 24) := by
    have : L * ε ≤ L * (1 / 4) := by gcongr
    linarith
  have g0 : 0 ≤ L * (ε + 13.8 / 2 ^ 24) + 4.001 / 2 ^ 24 * (L + L * (ε + 13.8 / 2 ^ 24)) := by positivity
  have g1 := le _ g0
  have g2 : (L * (ε + 13.8 / 2 ^ 24) + 4.001 / 2 ^ 24 * (L + L * (ε + 13.8 / 2 ^ 24))) * (1.74 * ‖exactly p‖) ≤
      L * (ε + 18.9 / 2 ^ 24) * (1.74 * ‖exactly p‖) := by gcongr
  have g3 : L * (ε' + 13.8 / 2 ^ 24) * S + 4.001 / 2 ^ 24 * (L * S + L * (ε' + 13.8 / 2 ^ 24) * S) ≤ L * (ε' + 18.9 / 2 ^ 24) * S := by
    have g' : L * (ε' + 13.8 / 2 ^ 24) + 4.001 / 2 ^ 24 * (L + L * (ε' + 13.8 / 2 ^ 24)) ≤ L * (ε' + 18.9 / 2 ^ 24) := by
      have : L * ε' ≤ L * (1 / 4) := by gcongr
      linarith
    have := mul_le_mul_of_nonneg_right g' S0
    linarith
  have tiny : 4 / 2 ^ 147 * (L + 1) ≤ 0.01 / 2 ^ 24 * (L * (‖exactly p‖ + S)) := by
    have o : (1:ℝ) ≤ L * 2 ^ 51 := by rw [div_le_iff₀ (by positivity)] at K1; exact K1
    calc 4 / 2 ^ 147 * (L + 1) ≤ 4 / 2 ^ 147 * (L + L * 2 ^ 51) := by gcongr
      _ = L * (4 / 2 ^ 147 * (1 + 2 ^ 51)) := by ring
      _ ≤ L * (0.01 / 2 ^ 24 * (1 / 2 ^ 30)) := mul_le_mul_of_nonneg_left (by norm_num) L0.le
      _ ≤ L * (0.01 / 2 ^ 24 * (‖exactly p‖ + S)) := by gcongr
      _ = _ := by ring
  have LS : 0 ≤ L * S := by positivity
  have LP : 0 ≤ L * ‖exactly p‖ := by positivity
  have LSe : L * S * ε' ≤ L * S * (1.74 * ε + 14 / 2 ^ 24) := by gcongr
  have t2 : 2 / 2 ^ 147 * (L + 1) + 4.001 / 2 ^ 24 * (2 / 2 ^ 147 * (L + 1)) + 1 / 2 ^ 147 ≤ 4 / 2 ^ 147 * (L + 1) := by
    linarith
  linarith

/-- one coordinate of a point, projected by the product of the two matrices or by one after the other -/
theorem camera_row {P V : M4 F32} {p : V3 F32} {r k : Fin 4} {E : Fin 4 → ℝ} {K B ε ε' ε'' : ℝ} {R eye : Space}
    (hP : ∀ c, Near (entry P c r) (E c) (7 / 2 ^ 24 * |E c|)) (hE : ∀ u : Fin 4 → ℝ, ∑ i, E i * u i = K * u k + B * u 3)
    (hE' : ∀ u : Fin 4 → ℝ, ∑ i, |E i| * |u i| = |K| * |u k| + |B| * |u 3|) (fV : ∀ c k, (entry V c k).IsFin = true)
    (v0 : ∀ i : Fin 3, Near (entry V i.castSucc k) (R i) ε) (v3 : Near (entry V 3 k) (-⟪R, eye⟫) (ε' * ‖eye‖ + 1 / 2 ^ 147))
    (z : ∀ i : Fin 3, ((entry V i.castSucc 3).val : ℝ) = 0) (o : ((entry V 3 3).val : ℝ) = 1)
    (fw : ∀ i, (coord (V * V4.ofXYZ_W p (lit 1)) i).IsFin = true)
    (w : Near (coord (V * V4.ofXYZ_W p (lit 1)) k) ⟪R, exactly p - eye⟫ (ε'' * (‖exactly p‖ + ‖eye‖) + 1 / 2 ^ 145))
    (w3 : ((coord (V * V4.ofXYZ_W p (lit 1)) 3).val : ℝ) = 1) (fp : ∀ i, (coord p i).IsFin = true)
    (hR : ‖R‖ ≤ 1) (e0 : 0 ≤ ε) (e1 : ε ≤ 1 / 4) (e0' : 0 ≤ ε') (e1' : ε' ≤ 1 / 4) (e0'' : 0 ≤ ε'') (e1'' : ε'' ≤ 1 / 4)
    (ee : ε' ≤ 1.74 * ε + 14 / 2 ^ 24) (ee' : ε'' ≤ 1.74 * ε + 19 / 2 ^ 24)
    (K1 : 1 / 2 ^ 51 ≤ |K|) (K2 : |K| ≤ 2 ^ 45) (B2 : |B| ≤ 2 ^ 60) (hp : ‖exactly p‖ ≤ 2 ^ 60) (hS : ‖eye‖ ≤ 2 ^ 60)
    (low : 1 / 2 ^ 30 ≤ ‖exactly p‖ + ‖eye‖) (q : V4 F32)
    (hq : q = (P * V) * V4.ofXYZ_W p (lit 1) ∨ q = P * (V * V4.ofXYZ_W p (lit 1))) :
    Near (coord q r) (K * ⟪R, exactly p - eye⟫ + B) (|K| * (1.74 * ε + 33 / 2 ^ 24) * (‖exactly p‖ + ‖eye‖) + 15.1 / 2 ^ 24 * |B|) := by
  have S0 := norm_nonneg eye
  have P0 := norm_nonneg (exactly p)
  have L0 : 0 < |K| := lt_of_lt_of_le (by norm_num) K1
  have B0 := abs_nonneg B
  have tb : |-⟪R, eye⟫| ≤ ‖eye‖ := by
    rw [abs_neg]
    exact (abs_real_inner_le_norm _ _).trans (mul_le_of_le_one_left S0 hR)
  rcases hq with rfl | rfl
  · have d : ⟪R, exactly p - eye⟫ = ⟪R, exactly p⟫ + -⟪R, eye⟫ := by rw [inner_sub_right]; ring
    rw [d]
    refine pv_row (C81_mat4_vec _ _ r) fp (fun i => ?_) ?_ hR tb e0 e1 e0' e1' ee K1 K2 B2 hp hS low
    · refine pv_coef (C81_mat4_mul P V i.castSucc r) hP (fV _) hE hE' (v0 i).2 ((abs_apply_le R i).trans hR) (z i) le_rfl ?_
      have : |K| * (1 + ε) ≤ 2 ^ 45 * (1 + 1 / 4) := by gcongr
      norm_num at *
      linarith
    · refine pv_coef (C81_mat4_mul P V 3 r) hP (fV _) hE hE' v3.2 tb o zero_le_one ?_
      have : |K| * (‖eye‖ + (ε' * ‖eye‖ + 1 / 2 ^ 147)) ≤ 2 ^ 45 * (2 ^ 60 + (1 / 4 * 2 ^ 60 + 1 / 2 ^ 147)) := by gcongr
      norm_num at *
      linarith
  · set S := ‖exactly p‖ + ‖eye‖ with hS'
    have Sp : 0 < S := lt_of_lt_of_le (by norm_num) low
    have rb : |⟪R, exactly p - eye⟫| ≤ S := by
      refine (abs_real_inner_le_norm _ _).trans ((mul_le_of_le_one_left (norm_nonneg _) hR).trans ?_)
      exact norm_sub_le _ _
    have hu : ε'' * S + 1 / 2 ^ 145 ≤ (ε'' + 0.001 / 2 ^ 24) * S := by
      have : (1:ℝ) / 2 ^ 145 ≤ 0.001 / 2 ^ 24 * S := by
        calc (1:ℝ) / 2 ^ 145 ≤ 0.001 / 2 ^ 24 * (1 / 2 ^ 30) := by norm_num
          _ ≤ _ := by gcongr
      linarith
    have n := pv_coef (C81_mat4_vec P _ r) hP fw hE hE' (w.2.trans hu) rb w3 zero_le_one (by
      have : |K| * (S + (ε'' + 0.001 / 2 ^ 24) * S) ≤ 2 ^ 45 * ((2 ^ 60 + 2 ^ 60) + (1 / 4 + 0.001 / 2 ^ 24) * (2 ^ 60 + 2 ^ 60)) := by
        gcongr <;> rw [hS'] <;> gcongr
      norm_num at *
      linarith)
    rw [mul_one] at n
    refine ⟨n.1, n.2.trans ?_⟩
    have k1 : (ε'' + 0.001 / 2 ^ 24) * S + 11.01 / 2 ^ 24 * (S + (ε'' + 0.001 / 2 ^ 24) * S) ≤ (1.74 * ε + 33 / 2 ^ 24 - 0.1 / 2 ^ 24) * S := by
      have : ε'' * S ≤ (1.74 * ε + 19 / 2 ^ 24) * S := by gcongr
      have : ε'' * S ≤ 1 / 4 * S := by gcongr
      linarith
    have k2 := mul_le_mul_of_nonneg_left k1 L0.le
    have k3 : (1:ℝ) / 2 ^ 147 ≤ |K| * (0.1 / 2 ^ 24 * S) := by
      calc (1:ℝ) / 2 ^ 147 ≤ 1 / 2 ^ 51 * (0.1 / 2 ^ 24 * (1 / 2 ^ 30)) := by norm_num
        _ ≤ _ := by gcongr
    linarith

private theorem row_E0 {X Y A B s : ℝ} (u : Fin 4 → ℝ) :
    (∑ i, frustumMatrix X Y A B s 0 i * u i = X * u 0 + 0 * u 3 ∧ ∑ i, |frustumMatrix X Y A B s 0 i| * |u i| = |X| * |u 0| + |(0:ℝ)| * |u 3|) ∧
    (∑ i, frustumMatrix X Y A B s 1 i * u i = Y * u 1 + 0 * u 3 ∧ ∑ i, |frustumMatrix X Y A B s 1 i| * |u i| = |Y| * |u 1| + |(0:ℝ)| * |u 3|) ∧
    (∑ i, frustumMatrix X Y A B s 2 i * u i = A * u 2 + B * u 3 ∧ ∑ i, |frustumMatrix X Y A B s 2 i| * |u i| = |A| * |u 2| + |B| * |u 3|) ∧
    (∑ i, frustumMatrix X Y A B s 3 i * u i = s * u 2 + 0 * u 3 ∧ ∑ i, |frustumMatrix X Y A B s 3 i| * |u i| = |s| * |u 2| + |(0:ℝ)| * |u 3|) := by
  simp [frustumMatrix, Fin.sum_univ_four]

/-- What is known of a computed view matrix with rows `R 0`, `R 1`, `R 2` and the position `eye`, and of the image of `p`. -/
structure ViewOf (V : M4 F32) (R : Fin 3 → Space) (eye : Space) (σ : ℝ) (p : V3 F32) : Prop where
  lin : ∀ i : Fin 3, Near (entry V i.castSucc 0) (R 0 i) (45 / 2 ^ 24 / σ) ∧ Near (entry V i.castSucc 1) (R 1 i) (45 / 2 ^ 24 / σ) ∧
    Near (entry V i.castSucc 2) (R 2 i) (9 / 2 ^ 24) ∧ Near (entry V i.castSucc 3) 0 0
  tra : Near (entry V 3 0) (-⟪R 0, eye⟫) (49 / 2 ^ 24 / σ * ‖eye‖ + 1 / 2 ^ 147) ∧
    Near (entry V 3 1) (-⟪R 1, eye⟫) (49 / 2 ^ 24 / σ * ‖eye‖ + 1 / 2 ^ 147) ∧
    Near (entry V 3 2) (-⟪R 2, eye⟫) (13 / 2 ^ 24 * ‖eye‖ + 1 / 2 ^ 147) ∧ Near (entry V 3 3) 1 0
  img : Near (coord (V * V4.ofXYZ_W p (lit 1)) 0) ⟪R 0, exactly p - eye⟫ (55 / 2 ^ 24 / σ * (‖exactly p‖ + ‖eye‖) + 1 / 2 ^ 145) ∧
    Near (coord (V * V4.ofXYZ_W p (lit 1)) 1) ⟪R 1, exactly p - eye⟫ (55 / 2 ^ 24 / σ * (‖exactly p‖ + ‖eye‖) + 1 / 2 ^ 145) ∧
    Near (coord (V * V4.ofXYZ_W p (lit 1)) 2) ⟪R 2, exactly p - eye⟫ (18 / 2 ^ 24 * (‖exactly p‖ + ‖eye‖) + 1 / 2 ^ 145) ∧
    Near (coord (V * V4.ofXYZ_W p (lit 1)) 3) 1 0
  unit : ∀ i, ‖R i‖ ≤ 1
  sine : 1 / 2 ^ 16 ≤ σ ∧ σ ≤ 1

private theorem near_val {x : F32} {r : ℝ} (h : Near x r 0) : (x.val : ℝ) = r := by
  have := abs_nonpos_iff.1 h.2
  linarith

theorem camera_clip {P V : M4 F32} {p : V3 F32} {X Y A B s σ : ℝ} {R : Fin 3 → Space} {eye : Space}
    (hP : ∀ c r, Near (entry P c r) (frustumMatrix X Y A B s r c) (7 / 2 ^ 24 * |frustumMatrix X Y A B s r c|))
    (hV : ViewOf V R eye σ p) (hs : |s| = 1) (fp : ∀ i, (coord p i).IsFin = true)
    (bX : 1 / 2 ^ 51 ≤ |X| ∧ |X| ≤ 2 ^ 45) (bY : 1 / 2 ^ 51 ≤ |Y| ∧ |Y| ≤ 2 ^ 45) (bA : 1 ≤ |A| ∧ |A| ≤ 2 ^ 30) (bB : |B| ≤ 2 ^ 60)
    (hp : ‖exactly p‖ ≤ 2 ^ 60) (he : ‖eye‖ ≤ 2 ^ 60) (low : 1 / 2 ^ 30 ≤ ‖exactly p‖ + ‖eye‖) (q : V4 F32)
    (hq : q = (P * V) * V4.ofXYZ_W p (lit 1) ∨ q = P * (V * V4.ofXYZ_W p (lit 1))) :
    Near (coord q 0) (X * ⟪R 0, exactly p - eye⟫) (112 / 2 ^ 24 / σ * (|X| * (‖exactly p‖ + ‖eye‖))) ∧
    Near (coord q 1) (Y * ⟪R 1, exactly p - eye⟫) (112 / 2 ^ 24 / σ * (|Y| * (‖exactly p‖ + ‖eye‖))) ∧
    Near (coord q 2) (A * ⟪R 2, exactly p - eye⟫ + B) (49 / 2 ^ 24 * (|A| * (‖exactly p‖ + ‖eye‖)) + 15.1 / 2 ^ 24 * |B|) ∧
    Near (coord q 3) (s * ⟪R 2, exactly p - eye⟫) (49 / 2 ^ 24 * (‖exactly p‖ + ‖eye‖)) := by
  obtain ⟨lin, ⟨t0, t1, t2, t3⟩, ⟨w0, w1, w2, w3⟩, unit, σ1, σ2⟩ := hV
  have σ0 : 0 < σ := lt_of_lt_of_le (by norm_num) σ1
  have fV : ∀ c k, (entry V c k).IsFin = true := by
    intro c k
    refine Fin.lastCases ?_ (fun i => ?_) c
    · fin_cases k; exacts [t0.1, t1.1, t2.1, t3.1]
    · fin_cases k; exacts [(lin i).1.1, (lin i).2.1.1, (lin i).2.2.1.1, (lin i).2.2.2.1]
  have fw : ∀ i, (coord (V * V4.ofXYZ_W p (lit 1)) i).IsFin = true := by
    intro i; fin_cases i; exacts [w0.1, w1.1, w2.1, w3.1]
  have z : ∀ i : Fin 3, ((entry V i.castSucc 3).val : ℝ) = 0 := fun i => near_val (lin i).2.2.2
  have sm : ∀ c : ℝ, 0 ≤ c → c ≤ 64 → c / 2 ^ 24 / σ ≤ 1 / 4 := fun c c0 c1 => by
    rw [div_le_iff₀ σ0]
    have : c / 2 ^ 24 ≤ 64 / 2 ^ 24 := by gcongr
    linarith
  have grow : ∀ c : ℝ, 0 ≤ c → c / 2 ^ 24 ≤ c / 2 ^ 24 / σ := fun c c0 => by
    rw [le_div_iff₀ σ0]
    exact mul_le_of_le_one_right (by positivity) σ2
  have i0 : 0 ≤ 1 / 2 ^ 24 / σ := by positivity
  have e45 : 45 / 2 ^ 24 / σ = 45 * (1 / 2 ^ 24 / σ) := by ring
  have e49 : 49 / 2 ^ 24 / σ = 49 * (1 / 2 ^ 24 / σ) := by ring
  have e55 : 55 / 2 ^ 24 / σ = 55 * (1 / 2 ^ 24 / σ) := by ring
  have e112 : 112 / 2 ^ 24 / σ = 112 * (1 / 2 ^ 24 / σ) := by ring
  have g1 := grow 1 zero_le_one
  have S0 : 0 < ‖exactly p‖ + ‖eye‖ := lt_of_lt_of_le (by norm_num) low
  have side : ∀ {k : Fin 4} {K : ℝ} {Rk : Space}, (1 / 2 ^ 51 ≤ |K| ∧ |K| ≤ 2 ^ 45) → ‖Rk‖ ≤ 1 →
      (∀ u : Fin 4 → ℝ, ∑ i, frustumMatrix X Y A B s k i * u i = K * u k + 0 * u 3 ∧
        ∑ i, |frustumMatrix X Y A B s k i| * |u i| = |K| * |u k| + |(0:ℝ)| * |u 3|) →
      (∀ i : Fin 3, Near (entry V i.castSucc k) (Rk i) (45 / 2 ^ 24 / σ)) →
      Near (entry V 3 k) (-⟪Rk, eye⟫) (49 / 2 ^ 24 / σ * ‖eye‖ + 1 / 2 ^ 147) →
      Near (coord (V * V4.ofXYZ_W p (lit 1)) k) ⟪Rk, exactly p - eye⟫ (55 / 2 ^ 24 / σ * (‖exactly p‖ + ‖eye‖) + 1 / 2 ^ 145) →
      Near (coord q k) (K * ⟪Rk, exactly p - eye⟫) (112 / 2 ^ 24 / σ * (|K| * (‖exactly p‖ + ‖eye‖))) := by
    intro k K Rk bK hR hE l t w
    have := camera_row (B := 0) (fun c => hP c k) (fun u => (hE u).1) (fun u => (hE u).2) fV l t z (near_val t3) fw w (near_val w3) fp hR
      (by positivity) (sm 45 (by norm_num) (by norm_num)) (by positivity) (sm 49 (by norm_num) (by norm_num)) (by positivity)
      (sm 55 (by norm_num) (by norm_num)) (by rw [e45, e49]; linarith) (by rw [e45, e55]; linarith) bK.1 bK.2 (by norm_num) hp he low q hq
    rw [add_zero, abs_zero, mul_zero, add_zero] at this
    refine ⟨this.1, this.2.trans ?_⟩
    have c : 1.74 * (45 / 2 ^ 24 / σ) + 33 / 2 ^ 24 ≤ 112 / 2 ^ 24 / σ := by rw [e45, e112]; linarith
    calc |K| * (1.74 * (45 / 2 ^ 24 / σ) + 33 / 2 ^ 24) * (‖exactly p‖ + ‖eye‖) ≤ |K| * (112 / 2 ^ 24 / σ) * (‖exactly p‖ + ‖eye‖) := by gcongr
      _ = _ := by ring
  have deep : ∀ {r : Fin 4} {K C : ℝ}, (1 ≤ |K| ∧ |K| ≤ 2 ^ 45) → |C| ≤ 2 ^ 60 →
      (∀ u : Fin 4 → ℝ, ∑ i, frustumMatrix X Y A B s r i * u i = K * u 2 + C * u 3 ∧
        ∑ i, |frustumMatrix X Y A B s r i| * |u i| = |K| * |u 2| + |C| * |u 3|) →
      Near (coord q r) (K * ⟪R 2, exactly p - eye⟫ + C) (49 / 2 ^ 24 * (|K| * (‖exactly p‖ + ‖eye‖)) + 15.1 / 2 ^ 24 * |C|) := by
    intro r K C bK bC hE
    have := camera_row (B := C) (fun c => hP c r) (fun u => (hE u).1) (fun u => (hE u).2) fV (fun i => (lin i).2.2.1) t2 z (near_val t3) fw w2
      (near_val w3) fp (unit 2) (by positivity) (by norm_num) (by positivity) (by norm_num) (by positivity) (by norm_num) (by norm_num)
      (by norm_num) (le_trans (by norm_num) bK.1) bK.2 bC hp he low q hq
    refine ⟨this.1, this.2.trans ?_⟩
    have : |K| * (1.74 * (9 / 2 ^ 24) + 33 / 2 ^ 24) * (‖exactly p‖ + ‖eye‖) ≤ |K| * (49 / 2 ^ 24) * (‖exactly p‖ + ‖eye‖) := by
      have : (1.74 * (9 / 2 ^ 24) + 33 / 2 ^ 24 : ℝ) ≤ 49 / 2 ^ 24 := by norm_num
      gcongr
    linarith
  refine ⟨side bX (unit 0) (fun u => (row_E0 u).1) (fun i => (lin i).1) t0 w0, side bY (unit 1) (fun u => (row_E0 u).2.1) (fun i => (lin i).2.1) t1 w1,
    deep ⟨bA.1, bA.2.trans (by norm_num)⟩ bB (fun u => (row_E0 u).2.2.1), ?_⟩
  have := deep (r := 3) (K := s) (C := 0) ⟨hs.ge, hs.trans_le (by norm_num)⟩ (by norm_num) (fun u => (row_E0 u).2.2.2)
  rw [hs, abs_zero, mul_zero, add_zero, add_zero, one_mul] at this
  exact this

end Zcm
