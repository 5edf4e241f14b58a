import Verif.Lemmas.F32Seen

/-!
# A point seen by a camera: the division by the fourth coordinate
-/

set_option exponentiation.threshold 300

namespace Zcm

open F32 WithLp
open scoped RealInnerProductSpace

/-- the division by a fourth coordinate that is itself inexact -/
theorem seen_div {x w : F32} {r d a b : ℝ} (hx : Near x r a) (hw : Near w d b) (d0 : 1 / 2 ^ 30 ≤ d) (hb : b ≤ 0.2 * d)
    (hr : |r| ≤ 2 ^ 100 * d) (ha : a ≤ 2 ^ 100 * d) :
    Near (x / w) (r / d) (1.2501 * (a + |r / d| * b) / d + 1.01 / 2 ^ 24 * |r / d| + 1 / 2 ^ 150) := by
  have dp : 0 < d := lt_of_lt_of_le (by norm_num) d0
  have a0 : 0 ≤ a := (abs_nonneg _).trans hx.2
  have b0 : 0 ≤ b := (abs_nonneg _).trans hw.2
  have wl : 0.8 * d ≤ (w.val : ℝ) := by linarith [(abs_le.1 hw.2).1]
  have wp : (0:ℝ) < w.val := lt_of_lt_of_le (by positivity) wl
  have wne : w.val ≠ 0 := by
    have : (w.val : ℝ) ≠ 0 := wp.ne'
    exact_mod_cast this
  have E := div_fin hx.1 hw.1 wne
  have n0 := abs_nonneg (r / d)
  have q1 : |((x.val / w.val : ℚ) : ℝ) - r / d| ≤ 1.25 * (a + |r / d| * b) / d := by
    push_cast
    have e : (x.val : ℝ) / w.val - r / d = ((x.val - r) - r / d * (w.val - d)) / w.val := by
      field_simp
      ring
    rw [e, abs_div, abs_of_pos wp, div_le_div_iff₀ wp dp]
    have t : |(x.val : ℝ) - r - r / d * (w.val - d)| ≤ a + |r / d| * b := by
      refine (abs_sub _ _).trans ?_
      rw [abs_mul]
      have := mul_le_mul_of_nonneg_left hw.2 n0
      linarith [hx.2]
    have s0 : 0 ≤ a + |r / d| * b := by positivity
    calc |(x.val : ℝ) - r - r / d * (w.val - d)| * d ≤ (a + |r / d| * b) * d := by gcongr
      _ = 1.25 * (a + |r / d| * b) * (0.8 * d) := by ring
      _ ≤ _ := by gcongr
  have rd : |r / d| ≤ 2 ^ 100 := by
    rw [abs_div, abs_of_pos dp, div_le_iff₀ dp]; exact hr
  have ad : 1.25 * (a + |r / d| * b) / d ≤ 2 ^ 102 := by
    rw [div_le_iff₀ dp]
    have : |r / d| * b ≤ 2 ^ 100 * (0.2 * d) := by gcongr
    have : (0:ℝ) ≤ 2 ^ 100 * d := by positivity
    linarith
  set Q : ℝ := ((x.val / w.val : ℚ) : ℝ) with hQ
  have q2 : |Q| ≤ |r / d| + 1.25 * (a + |r / d| * b) / d := by
    calc |Q| = |r / d + (Q - r / d)| := by congr 1; ring
      _ ≤ _ := (abs_add_le _ _).trans (by linarith)
  have f : (x / w).IsFin = true := by
    rw [E]
    apply isFin_round
    have : ((|x.val / w.val| : ℚ) : ℝ) ≤ (((2 ^ 24 - 1) * 2 ^ 104 : ℚ) : ℝ) := by
      rw [Rat.cast_abs, ← hQ]
      refine q2.trans ?_
      push_cast
      linarith
    exact Rat.cast_le.1 this
  refine ⟨f, ?_⟩
  rw [E] at f ⊢
  have R := round_error_real f
  rw [← hQ] at R
  have tri := abs_sub_le ((round (x.sgn ^^ w.sgn) (x.val / w.val)).val : ℝ) Q (r / d)
  have k : 1.25 * (a + |r / d| * b) / d * (1 + 1 / 2 ^ 24) ≤ 1.2501 * (a + |r / d| * b) / d := by
    rw [div_mul_eq_mul_div]
    have : 0 ≤ a + |r / d| * b := by positivity
    exact div_le_div_of_nonneg_right (by linarith) dp.le
  linarith

/-- the division of one coordinate -/
private theorem side_div {x w : F32} {K r d S σ : ℝ} (hx : Near x (K * r) (112 / 2 ^ 24 / σ * (|K| * S))) (hw : Near w d (49 / 2 ^ 24 * S))
    (d0 : 1 / 2 ^ 30 ≤ d) (near : S ≤ 2 ^ 16 * d) (far : d ≤ S) (hr : |r| ≤ S) (bK : 1 / 2 ^ 51 ≤ |K| ∧ |K| ≤ 2 ^ 45)
    (σ1 : 1 / 2 ^ 16 ≤ σ) (σ2 : σ ≤ 1) :
    Near (x / w) (K * r / d) (150 / 2 ^ 24 / σ * (S / d) * (|K| + |K * r / d|)) := by
  have σ0 : 0 < σ := lt_of_lt_of_le (by norm_num) σ1
  have dp : 0 < d := lt_of_lt_of_le (by norm_num) d0
  have Sp : 0 < S := dp.trans_le far
  have K0 := abs_nonneg K
  have i1 : 1 / 2 ^ 24 / σ ≤ 1 / 2 ^ 8 := by
    rw [div_le_iff₀ σ0]
    calc (1:ℝ) / 2 ^ 24 = 1 / 2 ^ 8 * (1 / 2 ^ 16) := by norm_num
      _ ≤ _ := by gcongr
  have i2 : 1 / 2 ^ 24 ≤ 1 / 2 ^ 24 / σ := by
    rw [le_div_iff₀ σ0]
    exact mul_le_of_le_one_right (by positivity) σ2
  have e112 : 112 / 2 ^ 24 / σ = 112 * (1 / 2 ^ 24 / σ) := by ring
  have e150 : 150 / 2 ^ 24 / σ = 150 * (1 / 2 ^ 24 / σ) := by ring
  have kS : |K| * S ≤ 2 ^ 45 * (2 ^ 16 * d) := by gcongr; exact bK.2
  have n := seen_div hx hw d0 (by linarith) (by
      rw [abs_mul]
      calc |K| * |r| ≤ |K| * S := by gcongr
        _ ≤ _ := kS.trans (by linarith)) (by
      calc 112 / 2 ^ 24 / σ * (|K| * S) ≤ 112 * (1 / 2 ^ 8) * (2 ^ 45 * (2 ^ 16 * d)) := by rw [e112]; gcongr
        _ ≤ _ := by linarith)
  refine ⟨n.1, n.2.trans ?_⟩
  rw [e112, e150]
  generalize 1 / 2 ^ 24 / σ = u at *
  have N0 := abs_nonneg (K * r / d)
  generalize |K * r / d| = N at *
  have u0 : 0 ≤ u := le_trans (by norm_num) i2
  obtain ⟨ρ, hρ⟩ : ∃ ρ, ρ = S / d := ⟨_, rfl⟩
  have ρ1 : 1 ≤ ρ := by rw [hρ, le_div_iff₀ dp]; linarith
  have eq : 1.2501 * (112 * u * (|K| * S) + N * (49 / 2 ^ 24 * S)) / d = 1.2501 * (112 * u * (|K| * ρ) + N * (49 / 2 ^ 24 * ρ)) := by
    rw [hρ]; ring
  rw [eq, ← hρ]
  have a1 : N * (1 / 2 ^ 24 * ρ) ≤ N * (u * ρ) := by gcongr
  have a2 : N * (1 / 2 ^ 24) ≤ N * (u * ρ) := by
    have : (1:ℝ) / 2 ^ 24 * 1 ≤ u * ρ := by gcongr
    have := mul_le_mul_of_nonneg_left this N0
    linarith
  have a3 : (1:ℝ) / 2 ^ 150 ≤ u * (|K| * ρ) := by
    calc (1:ℝ) / 2 ^ 150 ≤ 1 / 2 ^ 24 * (1 / 2 ^ 51 * 1) := by norm_num
      _ ≤ _ := by gcongr; exact bK.1
  have a4 : 0 ≤ u * (|K| * ρ) := by positivity
  have a5 : 0 ≤ N * (u * ρ) := by positivity
  linarith

/-- the division of the depth -/
private theorem deep_div {x w : F32} {A B s d S : ℝ} (hx : Near x (A * (s * d) + B) (49 / 2 ^ 24 * (|A| * S) + 15.1 / 2 ^ 24 * |B|))
    (hw : Near w d (49 / 2 ^ 24 * S)) (hs : |s| = 1) (d0 : 1 / 2 ^ 30 ≤ d) (near : S ≤ 2 ^ 16 * d) (far : d ≤ S) (bA : 1 ≤ |A| ∧ |A| ≤ 2 ^ 30)
    (bB : |B| ≤ 2 ^ 60) : Near (x / w) ((A * (s * d) + B) / d) (128 / 2 ^ 24 * (S / d) * (|A| + |B| / d)) := by
  have dp : 0 < d := lt_of_lt_of_le (by norm_num) d0
  have Sp : 0 < S := dp.trans_le far
  have A0 := abs_nonneg A
  have B0 := abs_nonneg B
  have top : |A * (s * d) + B| ≤ |A| * d + |B| := by
    refine (abs_add_le _ _).trans ?_
    rw [abs_mul, abs_mul, hs, one_mul, abs_of_pos dp]
  have Bd : |B| ≤ 2 ^ 90 * d := by
    calc |B| ≤ 2 ^ 90 * (1 / 2 ^ 30) := bB.trans (by norm_num)
      _ ≤ _ := by gcongr
  have Ad : |A| * d ≤ 2 ^ 30 * d := by gcongr; exact bA.2
  have AS : |A| * S ≤ 2 ^ 30 * (2 ^ 16 * d) := by gcongr; exact bA.2
  have n := seen_div hx hw d0 (by linarith) (top.trans (by linarith)) (by linarith)
  refine ⟨n.1, n.2.trans ?_⟩
  have G : |(A * (s * d) + B) / d| ≤ |A| + |B| / d := by
    rw [abs_div, abs_of_pos dp, div_le_iff₀ dp, add_mul, div_mul_cancel₀ _ dp.ne']
    exact top
  have N0 := abs_nonneg ((A * (s * d) + B) / d)
  generalize |(A * (s * d) + B) / d| = N at *
  obtain ⟨ρ, hρ⟩ : ∃ ρ, ρ = S / d := ⟨_, rfl⟩
  obtain ⟨b, hb⟩ : ∃ b, b = |B| / d := ⟨_, rfl⟩
  have ρ1 : 1 ≤ ρ := by rw [hρ, le_div_iff₀ dp]; linarith
  have b0 : 0 ≤ b := by rw [hb]; positivity
  have eq : 1.2501 * (49 / 2 ^ 24 * (|A| * S) + 15.1 / 2 ^ 24 * |B| + N * (49 / 2 ^ 24 * S)) / d =
      1.2501 * (49 / 2 ^ 24 * (|A| * ρ) + 15.1 / 2 ^ 24 * b + N * (49 / 2 ^ 24 * ρ)) := by
    rw [hρ, hb]; ring
  rw [eq, ← hρ, ← hb]
  rw [← hb] at G
  have a1 : N * ρ ≤ (|A| + b) * ρ := by gcongr
  have a2 : N ≤ N * ρ := le_mul_of_one_le_right N0 ρ1
  have a3 : b ≤ b * ρ := le_mul_of_one_le_right b0 ρ1
  have a4 : 1 * 1 ≤ |A| * ρ := by gcongr; exact bA.1
  have a5 : 0 ≤ b * ρ := by positivity
  linarith

/-- A point seen by a camera: the coordinates after the division. -/
theorem camera_point {P V : M4 F32} {p : V3 F32} {X Y A B s σ d : ℝ} {R : Fin 3 → Space} {eye : Space}
    (hP : ∀ c r, Near (entry P c r) (frustumMatrix X Y A B s r c) (7 / 2 ^ 24 * |frustumMatrix X Y A B s r c|))
    (hV : ViewOf V R eye σ p) (hs : s * s = 1) (fp : ∀ i, (coord p i).IsFin = true)
    (bX : 1 / 2 ^ 51 ≤ |X| ∧ |X| ≤ 2 ^ 45) (bY : 1 / 2 ^ 51 ≤ |Y| ∧ |Y| ≤ 2 ^ 45) (bA : 1 ≤ |A| ∧ |A| ≤ 2 ^ 30) (bB : |B| ≤ 2 ^ 60)
    (hp : ‖exactly p‖ ≤ 2 ^ 60) (he : ‖eye‖ ≤ 2 ^ 60) (hd : s * ⟪R 2, exactly p - eye⟫ = d) (d0 : 1 / 2 ^ 30 ≤ d)
    (near : ‖exactly p‖ + ‖eye‖ ≤ 2 ^ 16 * d) (q : V4 F32)
    (hq : q = (P * V) * V4.ofXYZ_W p (lit 1) ∨ q = P * (V * V4.ofXYZ_W p (lit 1))) :
    Near (coord q 3) d (49 / 2 ^ 24 * (‖exactly p‖ + ‖eye‖)) ∧
    Near (coord q 0 / coord q 3) (X * ⟪R 0, exactly p - eye⟫ / d)
      (150 / 2 ^ 24 / σ * ((‖exactly p‖ + ‖eye‖) / d) * (|X| + |X * ⟪R 0, exactly p - eye⟫ / d|)) ∧
    Near (coord q 1 / coord q 3) (Y * ⟪R 1, exactly p - eye⟫ / d)
      (150 / 2 ^ 24 / σ * ((‖exactly p‖ + ‖eye‖) / d) * (|Y| + |Y * ⟪R 1, exactly p - eye⟫ / d|)) ∧
    Near (coord q 2 / coord q 3) ((A * (s * d) + B) / d) (128 / 2 ^ 24 * ((‖exactly p‖ + ‖eye‖) / d) * (|A| + |B| / d)) := by
  have hs' : |s| = 1 := by
    rcases mul_self_eq_one_iff.1 hs with h | h <;> simp [h]
  have inn : ∀ i, |⟪R i, exactly p - eye⟫| ≤ ‖exactly p‖ + ‖eye‖ := fun i => by
    refine (abs_real_inner_le_norm _ _).trans ((mul_le_of_le_one_left (norm_nonneg _) (hV.unit i)).trans ?_)
    exact norm_sub_le _ _
  have far : d ≤ ‖exactly p‖ + ‖eye‖ := by
    rw [← hd]
    refine (le_abs_self _).trans ?_
    rw [abs_mul, hs', one_mul]
    exact inn 2
  obtain ⟨c0, c1, c2, c3⟩ := camera_clip hP hV hs' fp bX bY bA bB hp he (d0.trans far) q hq
  have e2 : ⟪R 2, exactly p - eye⟫ = s * d := by rw [← hd, ← mul_assoc, hs, one_mul]
  rw [hd] at c3
  rw [e2] at c2
  exact ⟨c3, side_div c0 c3 d0 near far (inn 0) bX hV.sine.1 hV.sine.2, side_div c1 c3 d0 near far (inn 1) bY hV.sine.1 hV.sine.2,
    deep_div c2 c3 hs' d0 near far bA bB⟩

end Zcm
