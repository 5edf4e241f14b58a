import Verif.Lemmas.F32Vec3
import Verif.Lemmas.F32Diag
import Verif.Model.MatrixTransform

/-!
# The camera frame in binary32
-/

set_option exponentiation.threshold 300

namespace Zcm

open F32 NormedSpace InnerProductGeometry WithLp
open scoped Matrix RealInnerProductSpace

theorem NearV.neg {v : V3 F32} {r : Space} {e : ℝ} (h : NearV v r e) : NearV (-v) (-r) e := by
  have c : ∀ i, coord (-v) i = -coord v i := fun i => by fin_cases i <;> rfl
  refine ⟨fun i => by rw [c, isFin_neg]; exact h.1 i, ?_⟩
  have : exactly (-v) = -exactly v := by
    ext i
    rw [exactly_apply, c, val_neg]
    push_cast
    rfl
  rw [this, ← neg_sub', norm_neg]
  exact h.2

/-- the exact frame -/
theorem exact_frame {eye center up : Space} (hd : center - eye ≠ 0) (hs : 0 < viewSine eye center up) (hu : up ≠ 0) :
    ‖viewDir eye center‖ = 1 ∧ ‖cross3 (viewDir eye center) up‖ = ‖up‖ * viewSine eye center up ∧
    ‖viewSide eye center up‖ = 1 ∧ ‖viewUp eye center up‖ ≤ 1 ∧ viewSine eye center up ≤ 1 := by
  have f1 : ‖viewDir eye center‖ = 1 := norm_normalize hd
  have c : ‖cross3 (viewDir eye center) up‖ = ‖up‖ * viewSine eye center up := by
    rw [norm_cross3, f1, one_mul]
    unfold viewSine viewDir NormedSpace.normalize
    rw [angle_smul_left_of_pos _ _ (inv_pos.2 (norm_pos_iff.2 hd))]
  have u0 : 0 < ‖up‖ := norm_pos_iff.2 hu
  have s1 : ‖viewSide eye center up‖ = 1 := by
    refine norm_normalize (norm_pos_iff.1 ?_)
    rw [c]; positivity
  refine ⟨f1, c, s1, ?_, Real.sin_le_one _⟩
  refine (norm_cross3_le _ _).trans ?_
  rw [s1, f1, one_mul]

/-- the computed frame: direction, side (both orders of the cross product), and the third direction -/
theorem frame_near {eye center up : V3 F32} (h : GoodView eye center up) :
    let σ := viewSine (exactly eye) (exactly center) (exactly up)
    let f := V3.normalize (center - eye)
    NearV f (viewDir (exactly eye) (exactly center)) (8.01 / 2 ^ 24) ∧
    (NearV (V3.normalize (V3.cross f up)) (viewSide (exactly eye) (exactly center) (exactly up)) (31 / 2 ^ 24 / σ) ∧
      NearV (V3.normalize (V3.cross up f)) (-viewSide (exactly eye) (exactly center) (exactly up)) (31 / 2 ^ 24 / σ)) ∧
    NearV (V3.cross (V3.normalize (V3.cross f up)) f) (viewUp (exactly eye) (exactly center) (exactly up)) (45 / 2 ^ 24 / σ) ∧
    NearV (V3.cross f (V3.normalize (V3.cross up f))) (viewUp (exactly eye) (exactly center) (exactly up)) (45 / 2 ^ 24 / σ) := by
  intro σ f
  obtain ⟨fin, eye_le, d1, d2, u1, u2, s1⟩ := h
  have hd : exactly center - exactly eye ≠ 0 := norm_pos_iff.1 (lt_of_lt_of_le (by norm_num) d1)
  have hu : exactly up ≠ 0 := norm_pos_iff.1 (lt_of_lt_of_le (by norm_num) u1)
  have σ0 : 0 < σ := lt_of_lt_of_le (by norm_num) s1
  obtain ⟨nf, nc, ns, nu, s2⟩ := exact_frame hd σ0 hu
  have D := near_sub (fun i => (fin i).2.1) (fun i => (fin i).1) (d2.trans (by norm_num))
  have dp : 0 < ‖exactly center - exactly eye‖ := norm_pos_iff.2 hd
  have F : NearV f (viewDir (exactly eye) (exactly center)) (8.01 / 2 ^ 24) := by
    refine (D.normalize (le_trans (by norm_num) d1) (d2.trans (by norm_num)) (by linarith)).mono ?_
    rw [mul_div_assoc, mul_div_assoc, div_self dp.ne']
    norm_num
  have U := NearV.exact fun i => (fin i).2.2
  have up0 : 0 < ‖exactly up‖ := norm_pos_iff.2 hu
  have ab : (1 + 8.01 / 2 ^ 24) * ‖exactly up‖ ≤ 2 ^ 120 := by linarith
  have C : NearV (V3.cross f up) (cross3 (viewDir (exactly eye) (exactly center)) (exactly up)) (12.1 / 2 ^ 24 * ‖exactly up‖) := by
    refine (F.cross U (A := 1 + 8.01 / 2 ^ 24) (B := ‖exactly up‖) (by rw [nf]) (by rw [add_zero]) ab).mono ?_
    have : (1 : ℝ) / 2 ^ 147 ≤ 0.01 / 2 ^ 24 * (1 / 2 ^ 30) := by norm_num
    have : 0.01 / 2 ^ 24 * (1 / 2 ^ 30 : ℝ) ≤ 0.01 / 2 ^ 24 * ‖exactly up‖ := by gcongr
    rw [mul_zero, add_zero]
    linarith
  have C' : NearV (V3.cross up f) (-cross3 (viewDir (exactly eye) (exactly center)) (exactly up)) (12.1 / 2 ^ 24 * ‖exactly up‖) := by
    rw [← cross3_swap]
    refine (U.cross F (A := ‖exactly up‖) (B := 1 + 8.01 / 2 ^ 24) (by rw [add_zero]) (by rw [nf]) (by rw [mul_comm]; exact ab)).mono ?_
    have : (1 : ℝ) / 2 ^ 147 ≤ 0.01 / 2 ^ 24 * (1 / 2 ^ 30) := by norm_num
    have : 0.01 / 2 ^ 24 * (1 / 2 ^ 30 : ℝ) ≤ 0.01 / 2 ^ 24 * ‖exactly up‖ := by gcongr
    rw [zero_mul, add_zero]
    linarith
  have lo : 1 / 2 ^ 49 ≤ ‖exactly up‖ * σ := by
    calc (1 : ℝ) / 2 ^ 49 ≤ 1 / 2 ^ 30 * (1 / 2 ^ 16) := by norm_num
      _ ≤ _ := by gcongr
  have hi : ‖exactly up‖ * σ ≤ 2 ^ 62 := by
    calc ‖exactly up‖ * σ ≤ 2 ^ 60 * 1 := by gcongr
      _ ≤ _ := by norm_num
  have ratio : 12.1 / 2 ^ 24 * ‖exactly up‖ ≤ ‖exactly up‖ * σ / 4 := by
    have : ‖exactly up‖ * (12.1 / 2 ^ 24) ≤ ‖exactly up‖ * (σ / 4) :=
      mul_le_mul_of_nonneg_left (by linarith) up0.le
    linarith
  have err : 6.001 / 2 ^ 24 + 2 * (12.1 / 2 ^ 24 * ‖exactly up‖) / (‖exactly up‖ * σ) ≤ 31 / 2 ^ 24 / σ := by
    have e : 2 * (12.1 / 2 ^ 24 * ‖exactly up‖) / (‖exactly up‖ * σ) = 24.2 / 2 ^ 24 / σ := by field_simp; norm_num
    rw [e, le_div_iff₀ σ0, add_mul, div_mul_cancel₀ _ σ0.ne']
    have : 6.001 / 2 ^ 24 * σ ≤ 6.001 / 2 ^ 24 * 1 := by gcongr
    linarith
  have S : NearV (V3.normalize (V3.cross f up)) (viewSide (exactly eye) (exactly center) (exactly up)) (31 / 2 ^ 24 / σ) := by
    refine (C.normalize (by rw [nc]; exact lo) (by rw [nc]; exact hi) (by rw [nc]; exact ratio)).mono ?_
    rw [nc]; exact err
  have S' : NearV (V3.normalize (V3.cross up f)) (-viewSide (exactly eye) (exactly center) (exactly up)) (31 / 2 ^ 24 / σ) := by
    have := C'.normalize (by rw [norm_neg, nc]; exact lo) (by rw [norm_neg, nc]; exact hi) (by rw [norm_neg, nc]; exact ratio)
    rw [normalize_neg, norm_neg, nc] at this
    exact this.mono err
  have eσ : 31 / 2 ^ 24 / σ ≤ 0.122 := by
    rw [div_le_iff₀ σ0]
    calc (31 : ℝ) / 2 ^ 24 ≤ 0.122 * (1 / 2 ^ 16) := by norm_num
      _ ≤ _ := by gcongr
  have fin' : 4.002 / 2 ^ 24 * (1.122 * (1 + 8.01 / 2 ^ 24)) + 1 / 2 ^ 147 + 31 / 2 ^ 24 / σ * 1 + 1.122 * (8.01 / 2 ^ 24) ≤
      45 / 2 ^ 24 / σ := by
    have : 13.99 / 2 ^ 24 ≤ 13.99 / 2 ^ 24 / σ := by
      rw [le_div_iff₀ σ0]
      calc (13.99 : ℝ) / 2 ^ 24 * σ ≤ 13.99 / 2 ^ 24 * 1 := by gcongr
        _ = _ := mul_one _
    have e : (45 : ℝ) / 2 ^ 24 / σ = 31 / 2 ^ 24 / σ + 13.99 / 2 ^ 24 / σ + 0.01 / 2 ^ 24 / σ := by ring
    have p : 0 ≤ 0.01 / 2 ^ 24 / σ := by positivity
    rw [e]
    linarith
  refine ⟨F, ⟨S, S'⟩, ?_, ?_⟩
  · refine (S.cross F (A := 1.122) (B := 1 + 8.01 / 2 ^ 24) (by rw [ns]; linarith) (by rw [nf]) (by norm_num)).mono ?_
    rw [nf]
    exact fin'
  · have := F.cross S' (A := 1 + 8.01 / 2 ^ 24) (B := 1.122) (by rw [nf]) (by rw [norm_neg, ns]; linarith) (by norm_num)
    have e : cross3 (viewDir (exactly eye) (exactly center)) (-viewSide (exactly eye) (exactly center) (exactly up)) =
        viewUp (exactly eye) (exactly center) (exactly up) := by
      unfold viewUp
      rw [cross3_swap (viewDir _ _)]
      have := cross3_sub_right (viewDir (exactly eye) (exactly center)) 0 (viewSide (exactly eye) (exactly center) (exactly up))
      rw [zero_sub] at this
      rw [← this]
      have z : ∀ a : Space, cross3 a 0 = 0 := fun a => norm_eq_zero.1 (le_antisymm ((norm_cross3_le a 0).trans (by simp)) (norm_nonneg _))
      rw [z, zero_sub]
    rw [e, norm_neg, ns] at this
    refine this.mono ?_
    have q : 8.01 / 2 ^ 24 * (31 / 2 ^ 24 / σ) ≤ 8.01 / 2 ^ 24 * 0.122 := by gcongr
    linarith

/-- minus the dot product with the eye -/
theorem eye_dot {r eye : V3 F32} {R : Space} {e : ℝ} (hr : NearV r R e) (hR : ‖R‖ ≤ 1) (he : e ≤ 0.2)
    (fe : ∀ i, (coord eye i).IsFin = true) (hE : ‖exactly eye‖ ≤ 2 ^ 60) :
    (V3.dot r eye).IsFin = true ∧
    |((V3.dot r eye).val : ℝ) - ⟪R, exactly eye⟫| ≤ (e + 3.61 / 2 ^ 24) * ‖exactly eye‖ + 1 / 2 ^ 147 := by
  have n := norm_nonneg (exactly eye)
  obtain ⟨f, b⟩ := hr.dot (NearV.exact fe) (A := 1.2) (B := ‖exactly eye‖) (by linarith) (by rw [add_zero]) (by linarith)
  exact ⟨f, b.trans (by linarith)⟩

/-- a row of a view matrix, applied to a point -/
theorem view_row {r p : V3 F32} {t : F32} {R : Space} {T e δ N : ℝ} (hr : NearV r R e) (hR : ‖R‖ ≤ 1) (he : e ≤ 0.2)
    (ht : t.IsFin = true) (hT : |(t.val : ℝ) - T| ≤ δ) (bT : |T| ≤ N) (hδ : δ ≤ 0.3 * N + 1) (hN : N ≤ 2 ^ 60)
    (fp : ∀ i, (coord p i).IsFin = true) (hp : ‖exactly p‖ ≤ 2 ^ 60) :
    (r.x * p.x + r.y * p.y + (r.z * p.z + t * lit 1)).IsFin = true ∧
    |((r.x * p.x + r.y * p.y + (r.z * p.z + t * lit 1) : F32).val : ℝ) - (⟪R, exactly p⟫ + T)| ≤
      (e + 4.81 / 2 ^ 24) * ‖exactly p‖ + δ + 4.001 / 2 ^ 24 * (N + δ) + 1 / 2 ^ 146 := by
  obtain ⟨A, B⟩ := accurate4' r.x p.x r.y p.y r.z p.z t (lit 1)
  rw [Fin.sum_univ_four, Fin.sum_univ_four] at B
  rw [Fin.sum_univ_four] at A
  simp only [Matrix.cons_val_zero, Matrix.cons_val_one, Matrix.cons_val, val_lit_one, mul_one] at A B
  have cs := three_products_le (exactly r) (exactly p)
  have cs' : |(r.x.val : ℝ) * p.x.val| + |(r.y.val : ℝ) * p.y.val| + |(r.z.val : ℝ) * p.z.val| ≤ 1.2 * ‖exactly p‖ := by
    refine LE.le.trans cs ?_
    have := hr.norm_le
    gcongr
    linarith
  have tt : |(t.val : ℝ)| ≤ N + δ := by
    calc |(t.val : ℝ)| = |T + (t.val - T)| := by congr 1; ring
      _ ≤ _ := (abs_add_le _ _).trans (add_le_add bT hT)
  have n := norm_nonneg (exactly p)
  have sum : |(r.x.val : ℝ) * p.x.val| + |(r.y.val : ℝ) * p.y.val| + |(r.z.val : ℝ) * p.z.val| + |(t.val : ℝ)| ≤
      1.2 * ‖exactly p‖ + (N + δ) := add_le_add cs' tt
  have f : (r.x * p.x + r.y * p.y + (r.z * p.z + t * lit 1)).IsFin = true := by
    refine A (fun i => ?_) ?_
    · fin_cases i
      · exact ⟨hr.1 0, fp 0⟩
      · exact ⟨hr.1 1, fp 1⟩
      · exact ⟨hr.1 2, fp 2⟩
      · exact ⟨ht, isFin_lit_one⟩
    · have : ((|r.x.val * p.x.val| + |r.y.val * p.y.val| + |r.z.val * p.z.val| + |t.val| : ℚ) : ℝ) ≤ ((2 ^ 126 : ℚ) : ℝ) := by
        push_cast
        refine sum.trans ?_
        linarith
      exact Rat.cast_le.1 this
  refine ⟨f, ?_⟩
  have q := (Rat.cast_le (K := ℝ)).2 (B f)
  push_cast at q
  have e1 : ⟪exactly r, exactly p⟫ = (r.x.val : ℝ) * p.x.val + r.y.val * p.y.val + r.z.val * p.z.val := by
    rw [PiLp.inner_apply, Fin.sum_univ_three]
    simp only [RCLike.inner_apply, conj_trivial]
    show (p.x.val : ℝ) * r.x.val + p.y.val * r.y.val + p.z.val * r.z.val = _
    ring
  rw [← e1] at q
  have e2 : |⟪exactly r - R, exactly p⟫| ≤ e * ‖exactly p‖ :=
    (abs_real_inner_le_norm _ _).trans (by gcongr; exact hr.2)
  rw [inner_sub_left] at e2
  have c4 : ((1 + 1 / 2 ^ 24 : ℝ)) ^ 4 - 1 ≤ 4.001 / 2 ^ 24 := by norm_num
  have m := mul_le_mul c4 sum (by positivity) (by norm_num)
  have tri := abs_add_three (((r.x * p.x + r.y * p.y + (r.z * p.z + t * lit 1) : F32).val : ℝ) - (⟪exactly r, exactly p⟫ + t.val))
    (⟪exactly r, exactly p⟫ - ⟪R, exactly p⟫) (t.val - T)
  have ee : (((r.x * p.x + r.y * p.y + (r.z * p.z + t * lit 1) : F32).val : ℝ) - (⟪exactly r, exactly p⟫ + t.val)) +
    (⟪exactly r, exactly p⟫ - ⟪R, exactly p⟫) + (t.val - T) =
      ((r.x * p.x + r.y * p.y + (r.z * p.z + t * lit 1) : F32).val : ℝ) - (⟪R, exactly p⟫ + T) := by ring
  rw [ee] at tri
  have t4 : (4 : ℝ) / 2 ^ 149 ≤ 1 / 2 ^ 146 := by norm_num
  linarith

end Zcm
