import Verif.Lemmas.F32View
import Verif.Lemmas.F32Proj

/-!
# C102: lookAt in IEEE arithmetic

`Near x r e`: the float `x` is finite and within `e` of the exact number `r`.  `viewSide`, `viewUp`, `viewDir` are the
exact directions and `viewSine` is the sine of the angle between the direction of view and `up` (Spec/View.lean).
`entry m c r` is column `c`, row `r`.
-/

set_option exponentiation.threshold 300

namespace Zcm

open F32
open scoped RealInnerProductSpace

private theorem near_of {x : F32} {r e : ℝ} (h : x.IsFin = true ∧ |(x.val : ℝ) - r| ≤ e) : Near x r e := h

private theorem near_neg {x : F32} {r e : ℝ} (h : Near x r e) : Near (-x) (-r) e := by
  refine ⟨by rw [isFin_neg]; exact h.1, ?_⟩
  rw [val_neg]
  push_cast
  rw [neg_sub_neg, abs_sub_comm]
  exact h.2

private theorem near_nv {v : V3 F32} {r : Space} {e f : ℝ} (h : NearV v r e) (i : Fin 3) (hf : e ≤ f) : Near (coord v i) (r i) f :=
  Near.mono (h.apply i) hf

private theorem small {σ : ℝ} (h : 1 / 2 ^ 16 ≤ σ) : 45 / 2 ^ 24 / σ ≤ 0.2 := by
  rw [div_le_iff₀ (lt_of_lt_of_le (by norm_num) h)]
  linarith

private theorem grow {σ c : ℝ} (h : 0 < σ) (h1 : σ ≤ 1) (hc : 0 ≤ c) : c / 2 ^ 24 ≤ c / 2 ^ 24 / σ := by
  rw [le_div_iff₀ h]
  exact mul_le_of_le_one_right (by positivity) h1

private theorem view_facts {eye center up : V3 F32} (h : GoodView eye center up) :
    0 < viewSine (exactly eye) (exactly center) (exactly up) ∧ viewSine (exactly eye) (exactly center) (exactly up) ≤ 1 ∧
    ‖viewDir (exactly eye) (exactly center)‖ = 1 ∧ ‖viewSide (exactly eye) (exactly center) (exactly up)‖ = 1 ∧
    ‖viewUp (exactly eye) (exactly center) (exactly up)‖ ≤ 1 := by
  have s0 : 0 < viewSine (exactly eye) (exactly center) (exactly up) := lt_of_lt_of_le (by norm_num) h.sine_ge
  obtain ⟨a, -, b, c, d⟩ := exact_frame (norm_pos_iff.1 (lt_of_lt_of_le (by norm_num) h.dist_ge)) s0
    (norm_pos_iff.1 (lt_of_lt_of_le (by norm_num) h.up_ge))
  exact ⟨s0, d, a, b, c⟩

/-- the eye seen along a direction -/
private theorem eye_near {r eye : V3 F32} {R : Space} {c e' σ : ℝ} (hr : NearV r R (c / 2 ^ 24 / σ)) (hR : ‖R‖ ≤ 1)
    (he : c / 2 ^ 24 / σ ≤ 0.2) (h0 : 0 < σ) (h1 : σ ≤ 1) (hc : c + 4 ≤ e') (fe : ∀ i, (coord eye i).IsFin = true)
    (hE : ‖exactly eye‖ ≤ 2 ^ 60) :
    Near (V3.dot r eye) ⟪R, exactly eye⟫ (e' / 2 ^ 24 / σ * ‖exactly eye‖ + 1 / 2 ^ 147) := by
  obtain ⟨f, b⟩ := eye_dot hr hR he fe hE
  refine ⟨f, b.trans ?_⟩
  gcongr
  have := grow h0 h1 (c := 4) (by norm_num)
  calc c / 2 ^ 24 / σ + 3.61 / 2 ^ 24 ≤ c / 2 ^ 24 / σ + 4 / 2 ^ 24 / σ := by linarith
    _ = (c + 4) / 2 ^ 24 / σ := by ring
    _ ≤ _ := by gcongr

/-- a point seen along a direction -/
private theorem row_near {r p eye : V3 F32} {t : F32} {R : Space} {c e' e'' σ : ℝ} (hr : NearV r R (c / 2 ^ 24 / σ))
    (hR : ‖R‖ ≤ 1) (he : e' / 2 ^ 24 / σ ≤ 0.25) (he0 : c / 2 ^ 24 / σ ≤ 0.2) (h0 : 0 < σ) (h1 : σ ≤ 1) (hc : c + 4 ≤ e') (hc' : e' + 5.5 ≤ e'')
    (ht : Near t (-⟪R, exactly eye⟫) (e' / 2 ^ 24 / σ * ‖exactly eye‖ + 1 / 2 ^ 147)) (hE : ‖exactly eye‖ ≤ 2 ^ 60)
    (fp : ∀ i, (coord p i).IsFin = true) (hp : ‖exactly p‖ ≤ 2 ^ 60) :
    Near (r.x * p.x + r.y * p.y + (r.z * p.z + t * lit 1)) ⟪R, exactly p - exactly eye⟫
      (e'' / 2 ^ 24 / σ * (‖exactly p‖ + ‖exactly eye‖) + 1 / 2 ^ 145) := by
  have nE := norm_nonneg (exactly eye)
  have nP := norm_nonneg (exactly p)
  have bT : |-⟪R, exactly eye⟫| ≤ ‖exactly eye‖ := by
    rw [abs_neg]
    refine (abs_real_inner_le_norm _ _).trans ?_
    exact mul_le_of_le_one_left nE hR
  have d1 : e' / 2 ^ 24 / σ * ‖exactly eye‖ ≤ 0.25 * ‖exactly eye‖ := by gcongr
  obtain ⟨f, b⟩ := view_row hr hR he0 ht.1 ht.2 bT (by linarith) hE fp hp
  refine ⟨f, ?_⟩
  rw [inner_sub_right, sub_eq_add_neg]
  refine b.trans ?_
  have g := grow h0 h1 (c := 5.5) (by norm_num)
  have c1 : c / 2 ^ 24 / σ + 4 / 2 ^ 24 / σ ≤ e' / 2 ^ 24 / σ := by
    rw [← add_div, ← add_div]; gcongr
  have c2 : e' / 2 ^ 24 / σ + 5.5 / 2 ^ 24 / σ ≤ e'' / 2 ^ 24 / σ := by
    rw [← add_div, ← add_div]; gcongr
  have c3 : 0 ≤ 4 / 2 ^ 24 / σ := by positivity
  have m1 : (c / 2 ^ 24 / σ + 4.81 / 2 ^ 24) * ‖exactly p‖ ≤ e'' / 2 ^ 24 / σ * ‖exactly p‖ := by gcongr; linarith
  have m2 : (e' / 2 ^ 24 / σ + 5.5 / 2 ^ 24) * ‖exactly eye‖ ≤ e'' / 2 ^ 24 / σ * ‖exactly eye‖ := by gcongr; linarith
  linarith

private theorem axis_inner {eye center up : Space} (h : center - eye ≠ 0) :
    ⟪viewSide eye center up, center - eye⟫ = 0 ∧ ⟪viewUp eye center up, center - eye⟫ = 0 ∧
    ⟪viewDir eye center, center - eye⟫ = ‖center - eye‖ := by
  have e : center - eye = ‖center - eye‖ • viewDir eye center := (NormedSpace.norm_smul_normalize _).symm
  have n : ‖viewDir eye center‖ = 1 := NormedSpace.norm_normalize h
  refine ⟨?_, ?_, ?_⟩
  · rw [e, inner_smul_right]
    unfold viewSide NormedSpace.normalize
    rw [real_inner_smul_left, inner_cross3_left, mul_zero, mul_zero]
  · rw [e, inner_smul_right]
    unfold viewUp
    rw [inner_cross3_right, mul_zero]
  · conv_lhs => rw [e]
    rw [inner_smul_right, real_inner_self_eq_norm_sq, n]
    norm_num

private theorem rows_lookAtRH {eye center up : V3 F32} (h : GoodView eye center up) :
    let σ := viewSine (exactly eye) (exactly center) (exactly up)
    let S := V3.normalize (V3.cross (V3.normalize (center - eye)) up)
    let U := V3.cross (V3.normalize (V3.cross (V3.normalize (center - eye)) up)) (V3.normalize (center - eye))
    let F := -V3.normalize (center - eye)
    (NearV S (viewSide (exactly eye) (exactly center) (exactly up)) (45 / 2 ^ 24 / σ) ∧ NearV U (viewUp (exactly eye) (exactly center) (exactly up)) (45 / 2 ^ 24 / σ) ∧ NearV F (-viewDir (exactly eye) (exactly center)) (8.01 / 2 ^ 24 / 1)) ∧
    Near (-V3.dot S eye) (-⟪viewSide (exactly eye) (exactly center) (exactly up), exactly eye⟫) (49 / 2 ^ 24 / σ * ‖exactly eye‖ + 1 / 2 ^ 147) ∧
    Near (-V3.dot U eye) (-⟪viewUp (exactly eye) (exactly center) (exactly up), exactly eye⟫) (49 / 2 ^ 24 / σ * ‖exactly eye‖ + 1 / 2 ^ 147) ∧
    Near (V3.dot (V3.normalize (center - eye)) eye) (-⟪-viewDir (exactly eye) (exactly center), exactly eye⟫) (12.01 / 2 ^ 24 / 1 * ‖exactly eye‖ + 1 / 2 ^ 147) := by
  intro σ S U F
  obtain ⟨s0, s1, nf, ns, nu⟩ := view_facts h
  obtain ⟨f, ⟨a, a'⟩, b, b'⟩ := frame_near h
  have fe := fun i => (h.fin i).1
  have sm := small h.sine_ge
  have up' : 31 / 2 ^ 24 / σ ≤ 45 / 2 ^ 24 / σ := by gcongr; norm_num
  have hs : NearV S (viewSide (exactly eye) (exactly center) (exactly up)) (45 / 2 ^ 24 / σ) := a.mono up'
  have hu : NearV U (viewUp (exactly eye) (exactly center) (exactly up)) (45 / 2 ^ 24 / σ) := b
  have hf : NearV (V3.normalize (center - eye)) (viewDir (exactly eye) (exactly center)) (8.01 / 2 ^ 24 / 1) := by rw [div_one]; exact f
  have df := eye_near hf nf.le (by norm_num) one_pos le_rfl (e' := 12.01) (by norm_num) fe h.eye_le
  refine ⟨⟨hs, hu, hf.neg⟩, near_neg (eye_near hs (by rw [ns]) sm s0 s1 (by norm_num) fe h.eye_le),
    near_neg (eye_near hu nu sm s0 s1 (by norm_num) fe h.eye_le), ?_⟩
  · rw [inner_neg_left, neg_neg]; exact df

/-- C102, `lookAtRH`: the matrix. -/
theorem C102_lookAtRH_matrix (eye center up : V3 F32) (h : GoodView eye center up) :
    let σ := viewSine (exactly eye) (exactly center) (exactly up)
    let s := viewSide (exactly eye) (exactly center) (exactly up)
    let u := viewUp (exactly eye) (exactly center) (exactly up)
    let f := viewDir (exactly eye) (exactly center)
    let M := M4.lookAtRH eye center up
    (∀ i : Fin 3, Near (entry M i.castSucc 0) (s i) (45 / 2 ^ 24 / σ) ∧ Near (entry M i.castSucc 1) (u i) (45 / 2 ^ 24 / σ) ∧
      Near (entry M i.castSucc 2) (-f i) (9 / 2 ^ 24) ∧ Near (entry M i.castSucc 3) 0 0) ∧
    Near (entry M 3 0) (-⟪s, exactly eye⟫) (49 / 2 ^ 24 / σ * ‖exactly eye‖ + 1 / 2 ^ 147) ∧
    Near (entry M 3 1) (-⟪u, exactly eye⟫) (49 / 2 ^ 24 / σ * ‖exactly eye‖ + 1 / 2 ^ 147) ∧
    Near (entry M 3 2) (⟪f, exactly eye⟫) (13 / 2 ^ 24 * ‖exactly eye‖ + 1 / 2 ^ 147) ∧
    Near (entry M 3 3) 1 0 := by
  intro σ s u f M
  obtain ⟨⟨S, U, F⟩, ts, tu, tf⟩ := rows_lookAtRH h
  have z : Near (lit 0) 0 0 := near_z isZ_lit le_rfl
  refine ⟨fun i => ⟨?_, ?_, ?_, ?_⟩, ts, tu, ?_, near_exact isFin_lit_one lit_one_cast le_rfl⟩
  · have := near_nv S i le_rfl
    fin_cases i <;> exact this
  · have := near_nv U i le_rfl
    fin_cases i <;> exact this
  · have := near_nv F i (f := 9 / 2 ^ 24) (by norm_num)
    fin_cases i <;> exact this
  · fin_cases i <;> exact z
  · rw [inner_neg_left, neg_neg] at tf
    refine tf.mono ?_
    have := norm_nonneg (exactly eye)
    linarith

/-- C102, `lookAtRH`: where it sends a point. -/
theorem C102_lookAtRH (eye center up p : V3 F32) (h : GoodView eye center up) (fp : ∀ i, (coord p i).IsFin = true)
    (hp : ‖exactly p‖ ≤ 2 ^ 60) :
    let σ := viewSine (exactly eye) (exactly center) (exactly up)
    let s := viewSide (exactly eye) (exactly center) (exactly up)
    let u := viewUp (exactly eye) (exactly center) (exactly up)
    let f := viewDir (exactly eye) (exactly center)
    let q := M4.lookAtRH eye center up * V4.ofXYZ_W p (lit 1)
    let size := ‖exactly p‖ + ‖exactly eye‖
    Near (coord q 0) ⟪s, exactly p - exactly eye⟫ (55 / 2 ^ 24 / σ * size + 1 / 2 ^ 145) ∧
    Near (coord q 1) ⟪u, exactly p - exactly eye⟫ (55 / 2 ^ 24 / σ * size + 1 / 2 ^ 145) ∧
    Near (coord q 2) (-⟪f, exactly p - exactly eye⟫) (18 / 2 ^ 24 * size + 1 / 2 ^ 145) ∧ Near (coord q 3) 1 0 := by
  intro σ s u f q size
  obtain ⟨s0, s1, nf, ns, nu⟩ := view_facts h
  obtain ⟨⟨S, U, F⟩, ts, tu, tf⟩ := rows_lookAtRH h
  obtain ⟨rx, ry, rz, rw'⟩ := mulV_rows (M4.lookAtRH eye center up) (V4.ofXYZ_W p (lit 1))
  have sm := small h.sine_ge
  have sm' : 49 / 2 ^ 24 / σ ≤ 0.25 := by
    have := h.sine_ge
    rw [div_le_iff₀ s0]
    linarith
  have X := row_near S (by rw [ns]) sm' sm s0 s1 (by norm_num) (e'' := 55) (by norm_num) ts h.eye_le fp hp
  have Y := row_near U nu sm' sm s0 s1 (by norm_num) (e'' := 55) (by norm_num) tu h.eye_le fp hp
  have Z := row_near F (by rw [norm_neg, nf]) (by norm_num) (by norm_num) one_pos le_rfl (by norm_num) (e'' := 18) (by norm_num) tf h.eye_le fp hp
  refine ⟨?_, ?_, ?_, ?_⟩
  · show Near (M4.lookAtRH eye center up * V4.ofXYZ_W p (lit 1)).x _ _
    rw [rx]; exact X
  · show Near (M4.lookAtRH eye center up * V4.ofXYZ_W p (lit 1)).y _ _
    rw [ry]; exact Y
  · show Near (M4.lookAtRH eye center up * V4.ofXYZ_W p (lit 1)).z _ _
    rw [rz, ← div_one ((18 : ℝ) / 2 ^ 24)]
    rw [← inner_neg_left]
    exact Z
  · show Near (M4.lookAtRH eye center up * V4.ofXYZ_W p (lit 1)).w _ _
    rw [rw']
    have fx := fp 0
    have fy := fp 1
    have fz := fp 2
    refine Near.same ((same4_23 (isZ_lit.mulL fx) (isZ_lit.mulL fy)).trans (.zAdd (isZ_lit.mulL fz))) ?_
    show Near (lit 1 * lit 1) 1 0
    rw [mul_one']
    exact near_exact isFin_lit_one lit_one_cast le_rfl

/-- C102, `lookAtRH`: the eye goes to the origin and the centre to the axis of view, at its distance. -/
theorem C102_lookAtRH_axis (eye center up : V3 F32) (h : GoodView eye center up) (hc : ‖exactly center‖ ≤ 2 ^ 60) :
    let σ := viewSine (exactly eye) (exactly center) (exactly up)
    let e := M4.lookAtRH eye center up * V4.ofXYZ_W eye (lit 1)
    let c := M4.lookAtRH eye center up * V4.ofXYZ_W center (lit 1)
    (Near (coord e 0) 0 (110 / 2 ^ 24 / σ * ‖exactly eye‖ + 1 / 2 ^ 145) ∧
      Near (coord e 1) 0 (110 / 2 ^ 24 / σ * ‖exactly eye‖ + 1 / 2 ^ 145) ∧
      Near (coord e 2) 0 (36 / 2 ^ 24 * ‖exactly eye‖ + 1 / 2 ^ 145)) ∧
    Near (coord c 0) 0 (55 / 2 ^ 24 / σ * (‖exactly center‖ + ‖exactly eye‖) + 1 / 2 ^ 145) ∧
    Near (coord c 1) 0 (55 / 2 ^ 24 / σ * (‖exactly center‖ + ‖exactly eye‖) + 1 / 2 ^ 145) ∧
    Near (coord c 2) (-‖exactly center - exactly eye‖) (18 / 2 ^ 24 * (‖exactly center‖ + ‖exactly eye‖) + 1 / 2 ^ 145) := by
  intro σ e c
  obtain ⟨e0, e1, e2, -⟩ := C102_lookAtRH eye center up eye h (fun i => (h.fin i).1) h.eye_le
  obtain ⟨c0, c1, c2, -⟩ := C102_lookAtRH eye center up center h (fun i => (h.fin i).2.1) hc
  have d0 : exactly center - exactly eye ≠ 0 := norm_pos_iff.1 (lt_of_lt_of_le (by norm_num) h.dist_ge)
  obtain ⟨o1, o2, o3⟩ := axis_inner (up := exactly up) d0
  rw [sub_self, inner_zero_right] at e0 e1 e2
  rw [o1] at c0
  rw [o2] at c1
  rw [o3] at c2
  refine ⟨⟨e0.mono ?_, e1.mono ?_, (neg_zero (G := ℝ) ▸ e2).mono ?_⟩, c0, c1, c2⟩
  · exact le_of_eq (by ring)
  · exact le_of_eq (by ring)
  · exact le_of_eq (by ring)

private theorem rows_lookAtLH {eye center up : V3 F32} (h : GoodView eye center up) :
    let σ := viewSine (exactly eye) (exactly center) (exactly up)
    let S := V3.normalize (V3.cross up (V3.normalize (center - eye)))
    let U := V3.cross (V3.normalize (center - eye)) (V3.normalize (V3.cross up (V3.normalize (center - eye))))
    let F := V3.normalize (center - eye)
    (NearV S (-viewSide (exactly eye) (exactly center) (exactly up)) (45 / 2 ^ 24 / σ) ∧ NearV U (viewUp (exactly eye) (exactly center) (exactly up)) (45 / 2 ^ 24 / σ) ∧ NearV F (viewDir (exactly eye) (exactly center)) (8.01 / 2 ^ 24 / 1)) ∧
    Near (-V3.dot S eye) (-⟪-viewSide (exactly eye) (exactly center) (exactly up), exactly eye⟫) (49 / 2 ^ 24 / σ * ‖exactly eye‖ + 1 / 2 ^ 147) ∧
    Near (-V3.dot U eye) (-⟪viewUp (exactly eye) (exactly center) (exactly up), exactly eye⟫) (49 / 2 ^ 24 / σ * ‖exactly eye‖ + 1 / 2 ^ 147) ∧
    Near (-V3.dot (V3.normalize (center - eye)) eye) (-⟪viewDir (exactly eye) (exactly center), exactly eye⟫) (12.01 / 2 ^ 24 / 1 * ‖exactly eye‖ + 1 / 2 ^ 147) := by
  intro σ S U F
  obtain ⟨s0, s1, nf, ns, nu⟩ := view_facts h
  obtain ⟨f, ⟨a, a'⟩, b, b'⟩ := frame_near h
  have fe := fun i => (h.fin i).1
  have sm := small h.sine_ge
  have up' : 31 / 2 ^ 24 / σ ≤ 45 / 2 ^ 24 / σ := by gcongr; norm_num
  have hs : NearV S (-viewSide (exactly eye) (exactly center) (exactly up)) (45 / 2 ^ 24 / σ) := a'.mono up'
  have hu : NearV U (viewUp (exactly eye) (exactly center) (exactly up)) (45 / 2 ^ 24 / σ) := b'
  have hf : NearV (V3.normalize (center - eye)) (viewDir (exactly eye) (exactly center)) (8.01 / 2 ^ 24 / 1) := by rw [div_one]; exact f
  have df := eye_near hf nf.le (by norm_num) one_pos le_rfl (e' := 12.01) (by norm_num) fe h.eye_le
  refine ⟨⟨hs, hu, hf⟩, near_neg (eye_near hs (by rw [norm_neg, ns]) sm s0 s1 (by norm_num) fe h.eye_le),
    near_neg (eye_near hu nu sm s0 s1 (by norm_num) fe h.eye_le), ?_⟩
  · exact near_neg df

/-- C102, `lookAtLH`: the matrix. -/
theorem C102_lookAtLH_matrix (eye center up : V3 F32) (h : GoodView eye center up) :
    let σ := viewSine (exactly eye) (exactly center) (exactly up)
    let s := -viewSide (exactly eye) (exactly center) (exactly up)
    let u := viewUp (exactly eye) (exactly center) (exactly up)
    let f := viewDir (exactly eye) (exactly center)
    let M := M4.lookAtLH eye center up
    (∀ i : Fin 3, Near (entry M i.castSucc 0) (s i) (45 / 2 ^ 24 / σ) ∧ Near (entry M i.castSucc 1) (u i) (45 / 2 ^ 24 / σ) ∧
      Near (entry M i.castSucc 2) (f i) (9 / 2 ^ 24) ∧ Near (entry M i.castSucc 3) 0 0) ∧
    Near (entry M 3 0) (-⟪s, exactly eye⟫) (49 / 2 ^ 24 / σ * ‖exactly eye‖ + 1 / 2 ^ 147) ∧
    Near (entry M 3 1) (-⟪u, exactly eye⟫) (49 / 2 ^ 24 / σ * ‖exactly eye‖ + 1 / 2 ^ 147) ∧
    Near (entry M 3 2) (-⟪f, exactly eye⟫) (13 / 2 ^ 24 * ‖exactly eye‖ + 1 / 2 ^ 147) ∧
    Near (entry M 3 3) 1 0 := by
  intro σ s u f M
  obtain ⟨⟨S, U, F⟩, ts, tu, tf⟩ := rows_lookAtLH h
  have z : Near (lit 0) 0 0 := near_z isZ_lit le_rfl
  refine ⟨fun i => ⟨?_, ?_, ?_, ?_⟩, ts, tu, ?_, near_exact isFin_lit_one lit_one_cast le_rfl⟩
  · have := near_nv S i le_rfl
    fin_cases i <;> exact this
  · have := near_nv U i le_rfl
    fin_cases i <;> exact this
  · have := near_nv F i (f := 9 / 2 ^ 24) (by norm_num)
    fin_cases i <;> exact this
  · fin_cases i <;> exact z
  · refine tf.mono ?_
    have := norm_nonneg (exactly eye)
    linarith

/-- C102, `lookAtLH`: where it sends a point. -/
theorem C102_lookAtLH (eye center up p : V3 F32) (h : GoodView eye center up) (fp : ∀ i, (coord p i).IsFin = true)
    (hp : ‖exactly p‖ ≤ 2 ^ 60) :
    let σ := viewSine (exactly eye) (exactly center) (exactly up)
    let s := -viewSide (exactly eye) (exactly center) (exactly up)
    let u := viewUp (exactly eye) (exactly center) (exactly up)
    let f := viewDir (exactly eye) (exactly center)
    let q := M4.lookAtLH eye center up * V4.ofXYZ_W p (lit 1)
    let size := ‖exactly p‖ + ‖exactly eye‖
    Near (coord q 0) ⟪s, exactly p - exactly eye⟫ (55 / 2 ^ 24 / σ * size + 1 / 2 ^ 145) ∧
    Near (coord q 1) ⟪u, exactly p - exactly eye⟫ (55 / 2 ^ 24 / σ * size + 1 / 2 ^ 145) ∧
    Near (coord q 2) (⟪f, exactly p - exactly eye⟫) (18 / 2 ^ 24 * size + 1 / 2 ^ 145) ∧ Near (coord q 3) 1 0 := by
  intro σ s u f q size
  obtain ⟨s0, s1, nf, ns, nu⟩ := view_facts h
  obtain ⟨⟨S, U, F⟩, ts, tu, tf⟩ := rows_lookAtLH h
  obtain ⟨rx, ry, rz, rw'⟩ := mulV_rows (M4.lookAtLH eye center up) (V4.ofXYZ_W p (lit 1))
  have sm := small h.sine_ge
  have sm' : 49 / 2 ^ 24 / σ ≤ 0.25 := by
    have := h.sine_ge
    rw [div_le_iff₀ s0]
    linarith
  have X := row_near S (by rw [norm_neg, ns]) sm' sm s0 s1 (by norm_num) (e'' := 55) (by norm_num) ts h.eye_le fp hp
  have Y := row_near U nu sm' sm s0 s1 (by norm_num) (e'' := 55) (by norm_num) tu h.eye_le fp hp
  have Z := row_near F (by rw [nf]) (by norm_num) (by norm_num) one_pos le_rfl (by norm_num) (e'' := 18) (by norm_num) tf h.eye_le fp hp
  refine ⟨?_, ?_, ?_, ?_⟩
  · show Near (M4.lookAtLH eye center up * V4.ofXYZ_W p (lit 1)).x _ _
    rw [rx]; exact X
  · show Near (M4.lookAtLH eye center up * V4.ofXYZ_W p (lit 1)).y _ _
    rw [ry]; exact Y
  · show Near (M4.lookAtLH eye center up * V4.ofXYZ_W p (lit 1)).z _ _
    rw [rz, ← div_one ((18 : ℝ) / 2 ^ 24)]
    exact Z
  · show Near (M4.lookAtLH eye center up * V4.ofXYZ_W p (lit 1)).w _ _
    rw [rw']
    have fx := fp 0
    have fy := fp 1
    have fz := fp 2
    refine Near.same ((same4_23 (isZ_lit.mulL fx) (isZ_lit.mulL fy)).trans (.zAdd (isZ_lit.mulL fz))) ?_
    show Near (lit 1 * lit 1) 1 0
    rw [mul_one']
    exact near_exact isFin_lit_one lit_one_cast le_rfl

/-- C102, `lookAtLH`: the eye goes to the origin and the centre to the axis of view, at its distance. -/
theorem C102_lookAtLH_axis (eye center up : V3 F32) (h : GoodView eye center up) (hc : ‖exactly center‖ ≤ 2 ^ 60) :
    let σ := viewSine (exactly eye) (exactly center) (exactly up)
    let e := M4.lookAtLH eye center up * V4.ofXYZ_W eye (lit 1)
    let c := M4.lookAtLH eye center up * V4.ofXYZ_W center (lit 1)
    (Near (coord e 0) 0 (110 / 2 ^ 24 / σ * ‖exactly eye‖ + 1 / 2 ^ 145) ∧
      Near (coord e 1) 0 (110 / 2 ^ 24 / σ * ‖exactly eye‖ + 1 / 2 ^ 145) ∧
      Near (coord e 2) 0 (36 / 2 ^ 24 * ‖exactly eye‖ + 1 / 2 ^ 145)) ∧
    Near (coord c 0) 0 (55 / 2 ^ 24 / σ * (‖exactly center‖ + ‖exactly eye‖) + 1 / 2 ^ 145) ∧
    Near (coord c 1) 0 (55 / 2 ^ 24 / σ * (‖exactly center‖ + ‖exactly eye‖) + 1 / 2 ^ 145) ∧
    Near (coord c 2) (‖exactly center - exactly eye‖) (18 / 2 ^ 24 * (‖exactly center‖ + ‖exactly eye‖) + 1 / 2 ^ 145) := by
  intro σ e c
  obtain ⟨e0, e1, e2, -⟩ := C102_lookAtLH eye center up eye h (fun i => (h.fin i).1) h.eye_le
  obtain ⟨c0, c1, c2, -⟩ := C102_lookAtLH eye center up center h (fun i => (h.fin i).2.1) hc
  have d0 : exactly center - exactly eye ≠ 0 := norm_pos_iff.1 (lt_of_lt_of_le (by norm_num) h.dist_ge)
  obtain ⟨o1, o2, o3⟩ := axis_inner (up := exactly up) d0
  rw [sub_self, inner_zero_right] at e0 e1 e2
  rw [inner_neg_left, o1, neg_zero] at c0
  rw [o2] at c1
  rw [o3] at c2
  refine ⟨⟨e0.mono ?_, e1.mono ?_, e2.mono ?_⟩, c0, c1, c2⟩
  · exact le_of_eq (by ring)
  · exact le_of_eq (by ring)
  · exact le_of_eq (by ring)

/-! ### Non-vacuity: the eye at (1, 2, 2) looks at (2, 4, 4), and up is the y axis -/

private theorem litv : ((lit 0 : F32).val = 0 ∧ (lit 1 : F32).val = 1 ∧ (lit 2 : F32).val = 2 ∧ (lit 4 : F32).val = 4) ∧
    (lit 0 : F32).IsFin = true ∧ (lit 1 : F32).IsFin = true ∧ (lit 2 : F32).IsFin = true ∧ (lit 4 : F32).IsFin = true := by
  decide +kernel

example : GoodView ⟨lit 1, lit 2, lit 2⟩ ⟨lit 2, lit 4, lit 4⟩ ⟨lit 0, lit 1, lit 0⟩ := by
  obtain ⟨⟨v0, v1, v2, v4⟩, f0, f1, f2, f4⟩ := litv
  have e1 : exactly ⟨lit 1, lit 2, lit 2⟩ = !₂[1, 2, 2] := by
    ext i
    fin_cases i
    · show ((lit 1 : F32).val : ℝ) = 1; rw [v1]; norm_num
    · show ((lit 2 : F32).val : ℝ) = 2; rw [v2]; norm_num
    · show ((lit 2 : F32).val : ℝ) = 2; rw [v2]; norm_num
  have e2 : exactly ⟨lit 2, lit 4, lit 4⟩ = !₂[2, 4, 4] := by
    ext i
    fin_cases i
    · show ((lit 2 : F32).val : ℝ) = 2; rw [v2]; norm_num
    · show ((lit 4 : F32).val : ℝ) = 4; rw [v4]; norm_num
    · show ((lit 4 : F32).val : ℝ) = 4; rw [v4]; norm_num
  have e3 : exactly ⟨lit 0, lit 1, lit 0⟩ = !₂[0, 1, 0] := by
    ext i
    fin_cases i
    · show ((lit 0 : F32).val : ℝ) = 0; rw [v0]; norm_num
    · show ((lit 1 : F32).val : ℝ) = 1; rw [v1]; norm_num
    · show ((lit 0 : F32).val : ℝ) = 0; rw [v0]; norm_num
  have d : (!₂[2, 4, 4] : Space) - !₂[1, 2, 2] = !₂[1, 2, 2] := by
    ext i
    fin_cases i <;> norm_num
  have n1 : ‖(!₂[1, 2, 2] : Space)‖ = 3 := by
    rw [EuclideanSpace.norm_eq, Fin.sum_univ_three, Real.sqrt_eq_iff_mul_self_eq_of_pos (by norm_num)]
    norm_num [show (![1, 2, 2] : Fin 3 → ℝ) 2 = 2 from rfl]
  have n3 : ‖(!₂[0, 1, 0] : Space)‖ = 1 := by
    rw [EuclideanSpace.norm_eq, Fin.sum_univ_three, Real.sqrt_eq_iff_mul_self_eq_of_pos (by norm_num)]
    norm_num [show (![0, 1, 0] : Fin 3 → ℝ) 2 = 0 from rfl]
  have s : (1 : ℝ) ≤ 3 * viewSine !₂[1, 2, 2] !₂[2, 4, 4] !₂[0, 1, 0] := by
    have c := norm_cross3 (!₂[1, 2, 2] : Space) !₂[0, 1, 0]
    rw [n1, n3, mul_one] at c
    unfold viewSine
    rw [d, ← c]
    obtain ⟨-, -, z⟩ := cross3_apply (!₂[1, 2, 2] : Space) !₂[0, 1, 0]
    have := abs_apply_le (cross3 (!₂[1, 2, 2] : Space) !₂[0, 1, 0]) 2
    rw [z] at this
    refine le_trans ?_ this
    norm_num
  refine ⟨fun i => ?_, ?_, ?_, ?_, ?_, ?_, ?_⟩
  · fin_cases i
    · exact ⟨f1, f2, f0⟩
    · exact ⟨f2, f4, f1⟩
    · exact ⟨f2, f4, f0⟩
  · rw [e1, n1]; norm_num
  · rw [e1, e2, d, n1]; norm_num
  · rw [e1, e2, d, n1]; norm_num
  · rw [e3, n3]; norm_num
  · rw [e3, n3]; norm_num
  · rw [e1, e2, e3]; linarith

end Zcm
