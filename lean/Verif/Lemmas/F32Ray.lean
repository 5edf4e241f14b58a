import Verif.Lemmas.F32Rel
import Verif.Lemmas.F32Vec3Ops
import Verif.Spec.Ray

/-!
# The point where a ray meets a plane, in float arithmetic
-/

set_option exponentiation.threshold 300

namespace Zcm

open F32
open scoped RealInnerProductSpace

/-- quotient of computed numbers -/
theorem near_quotient {x y : F32} {X Y a b Q E : ℝ} (fx : x.IsFin = true) (fy : y.IsFin = true) (hx : |(x.val : ℝ) - X| ≤ a)
    (hy : |(y.val : ℝ) - Y| ≤ b) (hY : 0 < |Y|) (hb : b ≤ |Y| / 1024) (hQ : |X| / |Y| ≤ Q) (hE : 1.001 * (a + Q * b) / |Y| ≤ E)
    (h : Q + E ≤ 2 ^ 120) :
    (x / y).IsFin = true ∧ |((x / y).val : ℝ) - X / Y| ≤ E + (Q + E) / 2 ^ 24 + 1 / 2 ^ 150 := by
  have Y0 : Y ≠ 0 := abs_pos.1 hY
  have yl : |Y| * (1023 / 1024) ≤ |(y.val : ℝ)| := by
    have := abs_sub_abs_le_abs_sub Y y.val
    rw [abs_sub_comm] at this
    linarith
  have y0 : (y.val : ℝ) ≠ 0 := abs_pos.1 (lt_of_lt_of_le (by positivity) yl)
  have b0 : 0 ≤ b := (abs_nonneg _).trans hy
  have a0 : 0 ≤ a := (abs_nonneg _).trans hx
  have Q0 : 0 ≤ Q := le_trans (by positivity) hQ
  have k : |(x.val : ℝ) / y.val - X / Y| ≤ E := by
    have e : (x.val : ℝ) / y.val - X / Y = ((x.val - X) - X / Y * (y.val - Y)) / y.val := by field_simp; ring
    rw [e, abs_div]
    refine le_trans ?_ hE
    have n : |((x.val : ℝ) - X) - X / Y * (y.val - Y)| ≤ a + Q * b := by
      refine (abs_sub _ _).trans (add_le_add hx ?_)
      rw [abs_mul, abs_div]
      exact mul_le_mul hQ hy (abs_nonneg _) Q0
    calc |((x.val : ℝ) - X) - X / Y * (y.val - Y)| / |(y.val : ℝ)| ≤ (a + Q * b) / (|Y| * (1023 / 1024)) := by gcongr
      _ = (1024 / 1023) * (a + Q * b) / |Y| := by field_simp
      _ ≤ _ := by gcongr; norm_num
  have q : |(x.val : ℝ) / y.val| ≤ Q + E := by
    have := abs_add_le ((x.val : ℝ) / y.val - X / Y) (X / Y)
    rw [sub_add_cancel, abs_div X Y] at this
    linarith
  have yq : y.val ≠ 0 := by exact_mod_cast y0
  have f : (x / y).IsFin = true := by
    rw [div_fin fx fy yq]
    refine isFin_round ((Rat.cast_le (K := ℝ)).1 ?_)
    push_cast
    exact (q.trans h).trans (by norm_num)
  refine ⟨f, ?_⟩
  have r : |((x / y).val : ℝ) - (x.val : ℝ) / y.val| ≤ |(x.val : ℝ) / y.val| / 2 ^ 24 + 1 / 2 ^ 150 := by
    rw [div_fin fx fy yq] at f ⊢
    have := round_error_real f
    push_cast at this
    exact this
  have t := abs_sub_le ((x / y).val : ℝ) ((x.val : ℝ) / y.val) (X / Y)
  have : |(x.val : ℝ) / y.val| / 2 ^ 24 ≤ (Q + E) / 2 ^ 24 := by gcongr
  linarith

section

variable {n c o d : V3 F32}

theorem GoodRay.pos (h : GoodRay n c o d) : 0 < ‖exactly n‖ ∧ 0 < ‖exactly d‖ ∧ 0 < ‖exactly c - exactly o‖ ∧
    0 < facing (exactly n) (exactly d) ∧ facing (exactly n) (exactly d) ≤ 1 ∧
    |⟪exactly n, exactly d⟫| = facing (exactly n) (exactly d) * (‖exactly n‖ * ‖exactly d‖) := by
  have a : 0 < ‖exactly n‖ := lt_of_lt_of_le (by norm_num) h.n_ge
  have b : 0 < ‖exactly d‖ := lt_of_lt_of_le (by norm_num) h.d_ge
  refine ⟨a, b, lt_of_lt_of_le (by norm_num) h.far_ge, lt_of_lt_of_le (by norm_num) h.facing_ge, ?_, ?_⟩
  · unfold facing
    rw [div_le_one (by positivity)]
    exact abs_real_inner_le_norm _ _
  · unfold facing
    field_simp

/-- the time -/
theorem near_planeTime (h : GoodRay n c o d) :
    |planeTime (exactly n) (exactly c) (exactly o) (exactly d)| ≤
      ‖exactly c - exactly o‖ / (facing (exactly n) (exactly d) * ‖exactly d‖) ∧
    (V3.dot n (c - o) / V3.dot n d).IsFin = true ∧
    |((V3.dot n (c - o) / V3.dot n d).val : ℝ) - planeTime (exactly n) (exactly c) (exactly o) (exactly d)| ≤
      8.1 / 2 ^ 24 * (‖exactly c - exactly o‖ / (facing (exactly n) (exactly d) ^ 2 * ‖exactly d‖)) := by
  obtain ⟨n0, d0, D0, s0, s1, hY⟩ := h.pos
  have n1 := h.n_ge
  have n2 := h.n_le
  have d1 := h.d_ge
  have d2 := h.d_le
  have f1 := h.far_ge
  have f2 := h.far_le
  have sg := h.facing_ge
  have cs := near_sub (fun i => (h.fin i).2.1) (fun i => (h.fin i).2.2.1) (f2.trans (by norm_num))
  have nx := NearV.exact fun i => (h.fin i).1
  have dx := NearV.exact fun i => (h.fin i).2.2.2
  have X := nx.dot cs (A := ‖exactly n‖) (B := 1.0001 * ‖exactly c - exactly o‖) (by linarith) (by norm_num; linarith) (by
    calc ‖exactly n‖ * (1.0001 * ‖exactly c - exactly o‖) ≤ 2 ^ 10 * (1.0001 * 2 ^ 30) := by gcongr
      _ ≤ _ := by norm_num)
  have Y := nx.dot dx (A := ‖exactly n‖) (B := ‖exactly d‖) (by linarith) (by linarith) (by
    calc ‖exactly n‖ * ‖exactly d‖ ≤ 2 ^ 10 * 2 ^ 10 := by gcongr
      _ ≤ _ := by norm_num)
  have cX : |⟪exactly n, exactly c - exactly o⟫| ≤ ‖exactly n‖ * ‖exactly c - exactly o‖ := abs_real_inner_le_norm _ _
  unfold planeTime
  generalize V3.dot n (c - o) = x at *
  generalize V3.dot n d = y at *
  generalize ⟪exactly n, exactly c - exactly o⟫ = P at *
  generalize ⟪exactly n, exactly d⟫ = R at *
  generalize facing (exactly n) (exactly d) = σ at *
  generalize ‖exactly c - exactly o‖ = D at *
  generalize ‖exactly n‖ = N at *
  generalize ‖exactly d‖ = L at *
  have ND : 1 / 2 ^ 40 ≤ N * D := by
    calc (1 / 2 ^ 40 : ℝ) = 1 / 2 ^ 10 * (1 / 2 ^ 30) := by norm_num
      _ ≤ _ := by gcongr
  have NL : 1 / 2 ^ 20 ≤ N * L := by
    calc (1 / 2 ^ 20 : ℝ) = 1 / 2 ^ 10 * (1 / 2 ^ 10) := by norm_num
      _ ≤ _ := by gcongr
  have ex : |(x.val : ℝ) - P| ≤ 4.002 / 2 ^ 24 * (N * D) := by
    refine X.2.trans ?_
    rw [zero_mul, add_zero, show N * (1.0001 * D) = 1.0001 * (N * D) by ring, show N * (1 / 2 ^ 24 * D) = 1 / 2 ^ 24 * (N * D) by ring]
    norm_num at *
    linarith
  have ey : |(y.val : ℝ) - R| ≤ 3.002 / 2 ^ 24 * (N * L) := by
    refine Y.2.trans ?_
    rw [zero_mul, mul_zero, add_zero, add_zero]
    norm_num at *
    linarith
  have R0 : 0 < |R| := by rw [hY]; positivity
  have hQ : |P| / |R| ≤ D / (σ * L) := by
    rw [hY, div_le_div_iff₀ (by positivity) (by positivity)]
    calc |P| * (σ * L) ≤ N * D * (σ * L) := by gcongr
      _ = _ := by ring
  have Q1 : D / (σ * L) ≤ D / (σ ^ 2 * L) := by
    gcongr
    exact pow_le_of_le_one s0.le s1 two_ne_zero
  have Q2 : D / (σ ^ 2 * L) ≤ 2 ^ 60 := by
    rw [div_le_iff₀ (by positivity)]
    calc D ≤ 2 ^ 30 := f2
      _ = 2 ^ 60 * ((1 / 2 ^ 10) ^ 2 * (1 / 2 ^ 10)) := by norm_num
      _ ≤ _ := by gcongr
  have Q3 : 1 / 2 ^ 40 ≤ D / (σ ^ 2 * L) := by
    rw [le_div_iff₀ (by positivity)]
    calc 1 / 2 ^ 40 * (σ ^ 2 * L) ≤ 1 / 2 ^ 40 * (1 ^ 2 * 2 ^ 10) := by gcongr
      _ ≤ _ := by norm_num at f1 ⊢; linarith
  have q := near_quotient X.1 Y.1 ex ey R0 (Q := D / (σ * L)) (E := 7.02 / 2 ^ 24 * (D / (σ ^ 2 * L))) (by
      rw [hY]
      calc 3.002 / 2 ^ 24 * (N * L) ≤ 1 / 2 ^ 10 * (N * L) / 1024 := by
            have : 0 ≤ N * L := by positivity
            norm_num
            linarith
        _ ≤ _ := by gcongr) hQ (by
      have e : 1.001 * (4.002 / 2 ^ 24 * (N * D) + D / (σ * L) * (3.002 / 2 ^ 24 * (N * L))) / |R| =
          1.001 * (4.002 / 2 ^ 24 * (D / (σ * L)) + 3.002 / 2 ^ 24 * (D / (σ ^ 2 * L))) := by
        rw [hY]; field_simp
      rw [e]
      norm_num at Q1 Q3 ⊢
      linarith) (by norm_num at Q1 Q2 ⊢; linarith)
  refine ⟨by rw [abs_div]; exact hQ, q.1, q.2.trans ?_⟩
  norm_num at Q1 Q3 ⊢
  linarith

/-- the point -/
theorem near_planeHit (h : GoodRay n c o d) :
    NearV (o + d * (V3.dot n (c - o) / V3.dot n d)) (planeHit (exactly n) (exactly c) (exactly o) (exactly d))
      (1 / 2 ^ 24 * (‖exactly o‖ + 11 * (‖exactly c - exactly o‖ / facing (exactly n) (exactly d) ^ 2))) := by
  obtain ⟨n0, d0, D0, s0, s1, hY⟩ := h.pos
  have d1 := h.d_ge
  have d2 := h.d_le
  have f1 := h.far_ge
  have f2 := h.far_le
  have sg := h.facing_ge
  have o1 := h.o_le
  obtain ⟨tb, ft, et⟩ := near_planeTime h
  have dx := NearV.exact fun i => (h.fin i).2.2.2
  have ox := NearV.exact fun i => (h.fin i).2.2.1
  unfold planeHit
  have qn : ‖planeTime (exactly n) (exactly c) (exactly o) (exactly d) • exactly d‖ =
      |planeTime (exactly n) (exactly c) (exactly o) (exactly d)| * ‖exactly d‖ := by rw [norm_smul, Real.norm_eq_abs]
  have tri := norm_add_le (exactly o) (planeTime (exactly n) (exactly c) (exactly o) (exactly d) • exactly d)
  generalize planeTime (exactly n) (exactly c) (exactly o) (exactly d) = τ at *
  generalize V3.dot n (c - o) / V3.dot n d = s at *
  generalize facing (exactly n) (exactly d) = σ at *
  generalize ‖exactly c - exactly o‖ = D at *
  have K2 : D / σ ^ 2 ≤ 2 ^ 50 := by
    rw [div_le_iff₀ (by positivity)]
    calc D ≤ 2 ^ 50 * ((1 / 2 ^ 10) ^ 2) := f2.trans (by norm_num)
      _ ≤ _ := by gcongr
  have K3 : 1 / 2 ^ 30 ≤ D / σ ^ 2 := f1.trans (by
    rw [le_div_iff₀ (by positivity)]
    exact mul_le_of_le_one_right D0.le (pow_le_one₀ s0.le s1))
  have K1 : D / σ ≤ D / σ ^ 2 := by
    gcongr
    exact pow_le_of_le_one s0.le s1 two_ne_zero
  have e1 : D / (σ * ‖exactly d‖) * ‖exactly d‖ = D / σ := by field_simp
  have e2 : D / (σ ^ 2 * ‖exactly d‖) * ‖exactly d‖ = D / σ ^ 2 := by field_simp
  have w : D / (σ ^ 2 * ‖exactly d‖) ≤ 2 ^ 10 * (D / (σ * ‖exactly d‖)) := by
    have : D / (σ ^ 2 * ‖exactly d‖) = 1 / σ * (D / (σ * ‖exactly d‖)) := by field_simp
    rw [this]
    gcongr
    rw [div_le_iff₀ s0]
    norm_num at sg ⊢
    linarith
  have q0 : 0 ≤ D / (σ * ‖exactly d‖) := by positivity
  have m := dx.scale ft et (A := ‖exactly d‖) (B := 1.001 * (D / (σ * ‖exactly d‖))) (by linarith) (by
    norm_num at w tb ⊢; linarith) (by
    rw [mul_assoc, e1]; norm_num at K1 K2 ⊢; linarith)
  have m' := m.mono (f := 9.2 / 2 ^ 24 * (D / σ ^ 2)) (by
    rw [mul_zero, add_zero, mul_assoc 1.001, e1, mul_assoc (8.1 / 2 ^ 24), e2]
    norm_num at K1 K3 ⊢
    linarith)
  have p : |τ| * ‖exactly d‖ ≤ D / σ := by
    rw [← e1]; gcongr
  have a := ox.add m' (by rw [qn] at tri; norm_num at K1 K2 o1 ⊢; linarith)
  refine a.mono ?_
  rw [qn] at tri
  norm_num at K1 K3 ⊢
  linarith

end

end Zcm
