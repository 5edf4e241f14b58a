import Verif.Lemmas.F32Seen
import Verif.Lemmas.F32Proj
import Verif.Lemmas.F32Zero

/-!
# A view matrix followed by a matrix that scales and translates
-/

set_option exponentiation.threshold 300

namespace Zcm

open F32
open scoped RealInnerProductSpace

private theorem box_rows {X Y Z TX TY TZ : ℝ} (u : Fin 4 → ℝ) :
    (∑ i, boxMatrix X Y Z TX TY TZ 0 i * u i = X * u 0 + TX * u 3 ∧ ∑ i, |boxMatrix X Y Z TX TY TZ 0 i| * |u i| = |X| * |u 0| + |TX| * |u 3|) ∧
    (∑ i, boxMatrix X Y Z TX TY TZ 1 i * u i = Y * u 1 + TY * u 3 ∧ ∑ i, |boxMatrix X Y Z TX TY TZ 1 i| * |u i| = |Y| * |u 1| + |TY| * |u 3|) ∧
    (∑ i, boxMatrix X Y Z TX TY TZ 2 i * u i = Z * u 2 + TZ * u 3 ∧ ∑ i, |boxMatrix X Y Z TX TY TZ 2 i| * |u i| = |Z| * |u 2| + |TZ| * |u 3|) := by
  simp [boxMatrix, Fin.sum_univ_four]

private theorem near_seven {x : F32} {r : ℝ} (h : Near x r (4 / 2 ^ 24 * |r| + 1 / 2 ^ 150)) (hr : r = 0 ∨ 1 / 2 ^ 120 ≤ |r|) :
    Near x r (7 / 2 ^ 24 * |r|) := by
  refine ⟨h.1, ?_⟩
  rcases hr with rfl | hr
  · have e := h.2
    rw [abs_zero, mul_zero, zero_add, sub_zero] at e
    rw [abs_zero, mul_zero, sub_zero]
    have e' : |x.val| ≤ 1 / 2 ^ 150 := by
      rw [← Rat.cast_le (K := ℝ)]
      push_cast
      exact e
    have k : x.key = 0 := by
      by_contra c
      have c1 : (1 : ℚ) ≤ |(x.key : ℚ)| := by exact_mod_cast Int.one_le_abs c
      have v : |x.val| = |(x.key : ℚ)| / 2 ^ 149 := by
        unfold val; rw [abs_div, abs_of_pos (show (0 : ℚ) < 2 ^ 149 by positivity)]
      rw [v, div_le_iff₀ (by positivity)] at e'
      have : (1 : ℚ) / 2 ^ 150 * 2 ^ 149 < 1 := by norm_num
      linarith
    have v : x.val = 0 := by unfold val; rw [k]; simp
    rw [v]; simp
  · refine h.2.trans ?_
    norm_num at hr ⊢
    linarith

private theorem val_zero_of_near {x : F32} {r : ℝ} (h : Near x r 0) : (x.val : ℝ) = r := by
  have := abs_nonpos_iff.1 h.2
  linarith

private theorem isZ_of_near {x : F32} (h : Near x 0 0) : IsZ x := ⟨h.1, by exact_mod_cast val_zero_of_near h⟩

/-- the last row of a product with a matrix whose last row is (0, 0, 0, 1) -/
private theorem last_row {P : M4 F32} (hd : Diag P) (hw : P.c3.w = lit 1) {u : V4 F32} (fu : ∀ i, (coord u i).IsFin = true) :
    SameNumber (coord (P * u) 3) (coord u 3) := by
  have e : coord (P * u) 3 = (P.c0.w * u.x + P.c1.w * u.y) + (P.c2.w * u.z + P.c3.w * u.w) := rfl
  rw [e, hw, one_mul']
  exact (SameNumber.zAdd ((hd.h0w.mulL (fu 0)).add (hd.h1w.mulL (fu 1)))).trans (.zAdd (hd.h2w.mulL (fu 2)))

private theorem last_row_mul {P V : M4 F32} (hd : Diag P) (hw : P.c3.w = lit 1) (fV : ∀ c k, (entry V c k).IsFin = true) (c : Fin 4) :
    SameNumber (entry (P * V) c 3) (entry V c 3) := by
  have e : entry (P * V) c 3 = P.c0.w * entry V c 0 + P.c1.w * entry V c 1 + P.c2.w * entry V c 2 + P.c3.w * entry V c 3 := by
    fin_cases c <;> rfl
  rw [e, hw, one_mul']
  exact .zAdd (((hd.h0w.mulL (fV c 0)).add (hd.h1w.mulL (fV c 1))).add (hd.h2w.mulL (fV c 2)))

theorem camera_box {P V : M4 F32} {p : V3 F32} {X Y Z TX TY TZ σ : ℝ} {R : Fin 3 → Space} {eye : Space}
    (hP : ∀ c r, Near (entry P c r) (boxMatrix X Y Z TX TY TZ r c) (4 / 2 ^ 24 * |boxMatrix X Y Z TX TY TZ r c| + 1 / 2 ^ 150))
    (hd : Diag P) (hw : P.c3.w = lit 1) (hV : ViewOf V R eye σ p) (fp : ∀ i, (coord p i).IsFin = true)
    (bX : 1 / 2 ^ 51 ≤ |X| ∧ |X| ≤ 2 ^ 45) (bY : 1 / 2 ^ 51 ≤ |Y| ∧ |Y| ≤ 2 ^ 45) (bZ : 1 / 2 ^ 51 ≤ |Z| ∧ |Z| ≤ 2 ^ 45)
    (tX : (TX = 0 ∨ 1 / 2 ^ 120 ≤ |TX|) ∧ |TX| ≤ 2 ^ 60) (tY : (TY = 0 ∨ 1 / 2 ^ 120 ≤ |TY|) ∧ |TY| ≤ 2 ^ 60)
    (tZ : (TZ = 0 ∨ 1 / 2 ^ 120 ≤ |TZ|) ∧ |TZ| ≤ 2 ^ 60)
    (hp : ‖exactly p‖ ≤ 2 ^ 60) (he : ‖eye‖ ≤ 2 ^ 60) (low : 1 / 2 ^ 30 ≤ ‖exactly p‖ + ‖eye‖) (q : V4 F32)
    (hq : q = (P * V) * V4.ofXYZ_W p (lit 1) ∨ q = P * (V * V4.ofXYZ_W p (lit 1))) :
    Near (coord q 0) (X * ⟪R 0, exactly p - eye⟫ + TX) (112 / 2 ^ 24 / σ * (|X| * (‖exactly p‖ + ‖eye‖)) + 15.1 / 2 ^ 24 * |TX|) ∧
    Near (coord q 1) (Y * ⟪R 1, exactly p - eye⟫ + TY) (112 / 2 ^ 24 / σ * (|Y| * (‖exactly p‖ + ‖eye‖)) + 15.1 / 2 ^ 24 * |TY|) ∧
    Near (coord q 2) (Z * ⟪R 2, exactly p - eye⟫ + TZ) (49 / 2 ^ 24 * (|Z| * (‖exactly p‖ + ‖eye‖)) + 15.1 / 2 ^ 24 * |TZ|) ∧
    Near (coord q 3) 1 0 := by
  obtain ⟨lin, ⟨t0, t1, t2, t3⟩, ⟨w0, w1, w2, w3⟩, unit, σ1, σ2⟩ := hV
  have σ0 : 0 < σ := lt_of_lt_of_le (by norm_num) σ1
  have fV : ∀ c k, (entry V c k).IsFin = true := by
    intro c k
    refine Fin.lastCases ?_ (fun i => ?_) c
    · fin_cases k; exacts [t0.1, t1.1, t2.1, t3.1]
    · fin_cases k; exacts [(lin i).1.1, (lin i).2.1.1, (lin i).2.2.1.1, (lin i).2.2.2.1]
  have fw : ∀ i, (coord (V * V4.ofXYZ_W p (lit 1)) i).IsFin = true := by
    intro i; fin_cases i; exacts [w0.1, w1.1, w2.1, w3.1]
  have z : ∀ i : Fin 3, ((entry V i.castSucc 3).val : ℝ) = 0 := fun i => val_zero_of_near (lin i).2.2.2
  have big : ∀ {K : ℝ}, 1 / 2 ^ 51 ≤ |K| → (K = 0 ∨ 1 / 2 ^ 120 ≤ |K|) := fun h => .inr (le_trans (by norm_num) h)
  have hP7 : ∀ c r, Near (entry P c r) (boxMatrix X Y Z TX TY TZ r c) (7 / 2 ^ 24 * |boxMatrix X Y Z TX TY TZ r c|) := fun c r => by
    refine near_seven (hP c r) ?_
    fin_cases c <;> fin_cases r
    exacts [big bX.1, .inl rfl, .inl rfl, .inl rfl, .inl rfl, big bY.1, .inl rfl, .inl rfl, .inl rfl, .inl rfl, big bZ.1, .inl rfl,
      tX.1, tY.1, tZ.1, .inr (by simp [boxMatrix]; norm_num)]
  have sm : ∀ c : ℝ, 0 ≤ c → c ≤ 64 → c / 2 ^ 24 / σ ≤ 1 / 4 := fun c c0 c1 => by
    rw [div_le_iff₀ σ0]
    have : c / 2 ^ 24 ≤ 64 / 2 ^ 24 := by gcongr
    linarith
  have grow : ∀ c : ℝ, 0 ≤ c → c / 2 ^ 24 ≤ c / 2 ^ 24 / σ := fun c c0 => by
    rw [le_div_iff₀ σ0]
    exact mul_le_of_le_one_right (by positivity) σ2
  have i0 : 0 ≤ 1 / 2 ^ 24 / σ := by positivity
  have e45 : 45 / 2 ^ 24 / σ = 45 * (1 / 2 ^ 24 / σ) := by ring
  have e49 : 49 / 2 ^ 24 / σ = 49 * (1 / 2 ^ 24 / σ) := by ring
  have e55 : 55 / 2 ^ 24 / σ = 55 * (1 / 2 ^ 24 / σ) := by ring
  have e112 : 112 / 2 ^ 24 / σ = 112 * (1 / 2 ^ 24 / σ) := by ring
  have g1 := grow 1 zero_le_one
  have S0 : 0 < ‖exactly p‖ + ‖eye‖ := lt_of_lt_of_le (by norm_num) low
  have side : ∀ {k : Fin 4} {K T : ℝ} {Rk : Space}, (1 / 2 ^ 51 ≤ |K| ∧ |K| ≤ 2 ^ 45) → |T| ≤ 2 ^ 60 → ‖Rk‖ ≤ 1 →
      (∀ u : Fin 4 → ℝ, ∑ i, boxMatrix X Y Z TX TY TZ k i * u i = K * u k + T * u 3 ∧
        ∑ i, |boxMatrix X Y Z TX TY TZ k i| * |u i| = |K| * |u k| + |T| * |u 3|) →
      (∀ i : Fin 3, Near (entry V i.castSucc k) (Rk i) (45 / 2 ^ 24 / σ)) →
      Near (entry V 3 k) (-⟪Rk, eye⟫) (49 / 2 ^ 24 / σ * ‖eye‖ + 1 / 2 ^ 147) →
      Near (coord (V * V4.ofXYZ_W p (lit 1)) k) ⟪Rk, exactly p - eye⟫ (55 / 2 ^ 24 / σ * (‖exactly p‖ + ‖eye‖) + 1 / 2 ^ 145) →
      Near (coord q k) (K * ⟪Rk, exactly p - eye⟫ + T) (112 / 2 ^ 24 / σ * (|K| * (‖exactly p‖ + ‖eye‖)) + 15.1 / 2 ^ 24 * |T|) := by
    intro k K T Rk bK bT hR hE l t w
    have := camera_row (B := T) (fun c => hP7 c k) (fun u => (hE u).1) (fun u => (hE u).2) fV l t z (val_zero_of_near t3) fw w
      (val_zero_of_near w3) fp hR
      (by positivity) (sm 45 (by norm_num) (by norm_num)) (by positivity) (sm 49 (by norm_num) (by norm_num)) (by positivity)
      (sm 55 (by norm_num) (by norm_num)) (by rw [e45, e49]; linarith) (by rw [e45, e55]; linarith) bK.1 bK.2 bT hp he low q hq
    refine ⟨this.1, this.2.trans ?_⟩
    have c : 1.74 * (45 / 2 ^ 24 / σ) + 33 / 2 ^ 24 ≤ 112 / 2 ^ 24 / σ := by rw [e45, e112]; linarith
    refine add_le_add ?_ le_rfl
    calc |K| * (1.74 * (45 / 2 ^ 24 / σ) + 33 / 2 ^ 24) * (‖exactly p‖ + ‖eye‖) ≤ |K| * (112 / 2 ^ 24 / σ) * (‖exactly p‖ + ‖eye‖) := by gcongr
      _ = _ := by ring
  refine ⟨side bX tX.2 (unit 0) (fun u => (box_rows u).1) (fun i => (lin i).1) t0 w0,
    side bY tY.2 (unit 1) (fun u => (box_rows u).2.1) (fun i => (lin i).2.1) t1 w1, ?_, ?_⟩
  · have := camera_row (B := TZ) (fun c => hP7 c 2) (fun u => (box_rows u).2.2.1) (fun u => (box_rows u).2.2.2) fV (fun i => (lin i).2.2.1) t2 z
      (val_zero_of_near t3) fw w2 (val_zero_of_near w3) fp (unit 2) (by positivity) (by norm_num) (by positivity) (by norm_num)
      (by positivity) (by norm_num) (by norm_num) (by norm_num) bZ.1 bZ.2 tZ.2 hp he low q hq
    refine ⟨this.1, this.2.trans ?_⟩
    have : |Z| * (1.74 * (9 / 2 ^ 24) + 33 / 2 ^ 24) * (‖exactly p‖ + ‖eye‖) ≤ |Z| * (49 / 2 ^ 24) * (‖exactly p‖ + ‖eye‖) := by
      have : (1.74 * (9 / 2 ^ 24) + 33 / 2 ^ 24 : ℝ) ≤ 49 / 2 ^ 24 := by norm_num
      gcongr
    linarith
  · rcases hq with rfl | rfl
    · have e : coord (P * V * V4.ofXYZ_W p (lit 1)) 3 =
        (entry (P * V) 0 3 * p.x + entry (P * V) 1 3 * p.y) + (entry (P * V) 2 3 * p.z + entry (P * V) 3 3 * lit 1) := rfl
      have zz : ∀ i : Fin 3, IsZ (entry (P * V) i.castSucc 3) := fun i =>
        isZ_of_near (Near.same (last_row_mul hd hw fV i.castSucc) (lin i).2.2.2)
      rw [e, mul_one']
      refine Near.same ?_ (Near.same (last_row_mul hd hw fV 3) t3)
      exact (SameNumber.zAdd (((zz 0).mulL (fp 0)).add ((zz 1).mulL (fp 1)))).trans (.zAdd ((zz 2).mulL (fp 2)))
    · exact Near.same (last_row hd hw fw) w3

end Zcm
