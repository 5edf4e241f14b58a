import Verif.Spec.Sphere
import Verif.Lemmas.Arc
import Verif.Lemmas.F32Mix
import Verif.Lemmas.F32QuatChain
import Verif.Model.Quat

/-!
# Interpolation of quaternions in float arithmetic
-/

set_option exponentiation.threshold 300

namespace Zcm

open Quaternion F32 InnerProductGeometry
open scoped RealInnerProductSpace

/-! ### Norms from components -/

noncomputable def absQ (b : ℍ[ℝ]) : ℍ[ℝ] := ⟨|b.re|, |b.imI|, |b.imJ|, |b.imK|⟩

theorem norm_absQ (b : ℍ[ℝ]) : ‖absQ b‖ = ‖b‖ := by
  have : ‖absQ b‖ ^ 2 = ‖b‖ ^ 2 := by
    rw [norm_sq_quat, norm_sq_quat]; simp only [absQ, sq_abs]
  exact (sq_eq_sq₀ (norm_nonneg _) (norm_nonneg _)).1 this

theorem norm_mono_quat {a b : ℍ[ℝ]} (h0 : |a.re| ≤ b.re) (h1 : |a.imI| ≤ b.imI) (h2 : |a.imJ| ≤ b.imJ) (h3 : |a.imK| ≤ b.imK) :
    ‖a‖ ≤ ‖b‖ := by
  have : ‖a‖ ^ 2 ≤ ‖b‖ ^ 2 := by
    rw [norm_sq_quat, norm_sq_quat]
    have := sq_le_sq' (abs_le.1 h0).1 (abs_le.1 h0).2
    have := sq_le_sq' (abs_le.1 h1).1 (abs_le.1 h1).2
    have := sq_le_sq' (abs_le.1 h2).1 (abs_le.1 h2).2
    have := sq_le_sq' (abs_le.1 h3).1 (abs_le.1 h3).2
    linarith
  exact le_of_sq_le_sq this (norm_nonneg _)

def constQ (t : ℝ) : ℍ[ℝ] := ⟨t, t, t, t⟩

theorem norm_of_comp {a b c : ℍ[ℝ]} {E F t : ℝ} (hE : 0 ≤ E) (hF : 0 ≤ F) (ht : 0 ≤ t)
    (h0 : |a.re| ≤ E * |b.re| + F * |c.re| + t) (h1 : |a.imI| ≤ E * |b.imI| + F * |c.imI| + t)
    (h2 : |a.imJ| ≤ E * |b.imJ| + F * |c.imJ| + t) (h3 : |a.imK| ≤ E * |b.imK| + F * |c.imK| + t) :
    ‖a‖ ≤ E * ‖b‖ + F * ‖c‖ + 2 * t := by
  have m : ‖a‖ ≤ ‖E • absQ b + F • absQ c + constQ t‖ :=
    norm_mono_quat (by simp only [re_add, re_smul]; exact h0) (by simp only [imI_add, imI_smul]; exact h1)
      (by simp only [imJ_add, imJ_smul]; exact h2) (by simp only [imK_add, imK_smul]; exact h3)
  refine m.trans ((norm_add_le _ _).trans ?_)
  have n1 : ‖E • absQ b + F • absQ c‖ ≤ E * ‖b‖ + F * ‖c‖ := by
    refine (norm_add_le _ _).trans ?_
    rw [norm_smul, norm_smul, norm_absQ, norm_absQ, Real.norm_of_nonneg hE, Real.norm_of_nonneg hF]
  have n2 : ‖constQ t‖ ≤ 2 * t :=
    quat_norm_le ht (abs_of_nonneg ht).le (abs_of_nonneg ht).le (abs_of_nonneg ht).le (abs_of_nonneg ht).le
  linarith

theorem inner_quat (a b : ℍ[ℝ]) : ⟪a, b⟫ = a.re * b.re + a.imI * b.imI + a.imJ * b.imJ + a.imK * b.imK := by
  rw [Quaternion.inner_def]
  simp only [re_mul, re_star, imI_star, imJ_star, imK_star]
  ring

theorem four_products_le (a b : ℍ[ℝ]) : |a.imI * b.imI| + |a.imJ * b.imJ| + |a.imK * b.imK| + |a.re * b.re| ≤ ‖a‖ * ‖b‖ := by
  have h := (le_abs_self _).trans (abs_real_inner_le_norm (absQ a) (absQ b))
  rw [inner_quat, norm_absQ, norm_absQ] at h
  simp only [absQ] at h
  rw [abs_mul, abs_mul, abs_mul, abs_mul]
  linarith

/-- the dot product of quaternions -/
theorem near_dotQ {x y : Quat F32} (hx : x.Finite) (hy : y.Finite) (h : ‖exactQ x‖ * ‖exactQ y‖ ≤ 2 ^ 120) :
    Near (Quat.dot x y) ⟪exactQ x, exactQ y⟫ (4.001 / 2 ^ 24 * (‖exactQ x‖ * ‖exactQ y‖) + 1 / 2 ^ 147) := by
  obtain ⟨A, B⟩ := accurate4 x.x y.x x.y y.y x.z y.z x.w y.w
  have s := four_products_le (exactQ x) (exactQ y)
  simp only [exactQ] at s
  have s' : ((|x.x.val * y.x.val| + |x.y.val * y.y.val| + |x.z.val * y.z.val| + |x.w.val * y.w.val| : ℚ) : ℝ) ≤
      ‖exactQ x‖ * ‖exactQ y‖ := by push_cast; exact s
  have f : (Quat.dot x y).IsFin = true := by
    refine A (fun i => ?_) ?_
    · fin_cases i
      · exact ⟨hx 0, hy 0⟩
      · exact ⟨hx 1, hy 1⟩
      · exact ⟨hx 2, hy 2⟩
      · exact ⟨hx 3, hy 3⟩
    · rw [Fin.sum_univ_four]
      have : ((|x.x.val * y.x.val| + |x.y.val * y.y.val| + |x.z.val * y.z.val| + |x.w.val * y.w.val| : ℚ) : ℝ) ≤ ((2 ^ 126 : ℚ) : ℝ) :=
        (s'.trans h).trans (by norm_num)
      exact Rat.cast_le.1 this
  refine ⟨f, ?_⟩
  have b := B f
  rw [Fin.sum_univ_four, Fin.sum_univ_four] at b
  have b' : |((Quat.dot x y).val : ℝ) - (x.x.val * y.x.val + x.y.val * y.y.val + x.z.val * y.z.val + x.w.val * y.w.val)| ≤
      ((1 + 1 / 2 ^ 24) ^ 4 - 1) * (|x.x.val * y.x.val| + |x.y.val * y.y.val| + |x.z.val * y.z.val| + |x.w.val * y.w.val| : ℚ)
        + 4 / 2 ^ 149 := by
    have := (Rat.cast_le (K := ℝ)).2 b
    push_cast at this ⊢
    exact this
  have e : ⟪exactQ x, exactQ y⟫ = x.x.val * y.x.val + x.y.val * y.y.val + x.z.val * y.z.val + x.w.val * y.w.val := by
    rw [inner_quat]; simp only [exactQ]; ring
  rw [e]
  refine b'.trans ?_
  have c : ((1 + 1 / 2 ^ 24 : ℝ)) ^ 4 - 1 ≤ 4.001 / 2 ^ 24 := by norm_num
  have c0 : (0 : ℝ) ≤ (1 + 1 / 2 ^ 24 : ℝ) ^ 4 - 1 := by norm_num
  have n0 : 0 ≤ ‖exactQ x‖ * ‖exactQ y‖ := by positivity
  have := mul_le_mul c s' (by push_cast; positivity) (by norm_num)
  linarith

/-! ### The spherical branch -/

theorem val_round_nonneg {q : ℚ} (h : 0 ≤ q) (s : Bool) : 0 ≤ (F32.round s q).val := by
  have := le_key_round isFin_lit_zero (x := q) (by rw [val_lit_zero]; exact h) s
  have := key_le_iff.1 this
  rwa [val_lit_zero] at this

theorem mul_val_nonneg {a b : F32} (fa : a.IsFin = true) (fb : b.IsFin = true) (ha : 0 ≤ (a.val : ℝ)) (hb : 0 ≤ (b.val : ℝ)) :
    0 ≤ ((a * b).val : ℝ) := by
  have a' : 0 ≤ a.val := by exact_mod_cast ha
  have b' : 0 ≤ b.val := by exact_mod_cast hb
  rw [mul_fin fa fb]
  exact_mod_cast val_round_nonneg (mul_nonneg a' b') _

/-- the sine of a part of the angle -/
theorem sin_part [Libm F32] (hl : GoodArc) {a v : F32} {s : ℝ} (ha : Rel a s (1 / 2 ^ 24)) (a0 : 0 ≤ (a.val : ℝ)) (s0 : 0 ≤ s)
    (s1 : s ≤ 1) (fv : v.IsFin = true) (v0 : 0 ≤ (v.val : ℝ)) (v1 : (v.val : ℝ) ≤ 1.59) :
    Near (Libm.sinf (a * v)) (Real.sin (s * v.val)) (9.67 / 2 ^ 24 * (s * Real.sin v.val) + 1 / 2 ^ 139) := by
  have sv0 : 0 ≤ s * v.val := mul_nonneg s0 v0
  have sv1 : s * v.val ≤ 1.59 := (mul_le_of_le_one_left v0 s1).trans v1
  obtain ⟨f, e⟩ := Rel.mul' (g := 2.0001 / 2 ^ 24) ha (Rel.exact fv) (by norm_num) (by norm_num)
    (by rw [abs_of_nonneg sv0]; linarith)
  rw [abs_of_nonneg sv0] at e
  have p0 := mul_val_nonneg ha.fin fv a0 v0
  have eb := abs_le.1 e
  have p1 : ((a * v).val : ℝ) ≤ 1.6 := by linarith [eb.2]
  obtain ⟨fs, es⟩ := hl.1 _ f p0 p1
  refine ⟨fs, ?_⟩
  have l : |Real.sin ((a * v).val : ℝ) - Real.sin (s * v.val)| ≤ |((a * v).val : ℝ) - s * v.val| :=
    Real.abs_sin_sub_sin_le _ _
  have b := Real.sin_le p0
  have g := mul_le_mul_of_nonneg_left (le_sin_arc v0 (by linarith)) s0
  have t : |((Libm.sinf (a * v)).val : ℝ) - Real.sin (s * v.val)| ≤
      |((Libm.sinf (a * v)).val : ℝ) - Real.sin ((a * v).val : ℝ)| + |Real.sin ((a * v).val : ℝ) - Real.sin (s * v.val)| :=
    abs_sub_le _ _ _
  refine t.trans ?_
  linarith [eb.2]

theorem slerp_component {x z s1 s2 d : F32} {s t S1 S2 A : ℝ} (fx : x.IsFin = true) (fz : z.IsFin = true) (hx : |(x.val : ℝ)| ≤ 2)
    (hz : |(z.val : ℝ)| ≤ 2) (s0 : 0 ≤ s) (s1' : s ≤ 1) (t0 : 0 ≤ t) (t1 : t ≤ 1)
    (h1 : Near s1 S1 (9.67 / 2 ^ 24 * (s * A) + 1 / 2 ^ 139)) (h2 : Near s2 S2 (9.67 / 2 ^ 24 * (t * A) + 1 / 2 ^ 139))
    (b1 : |S1| ≤ 1.61 * (s * A)) (b2 : |S2| ≤ 1.61 * (t * A)) (hA : 1 / 2 ^ 13 ≤ A) (hA1 : A ≤ 1)
    (hd : Rel d A (4.01 / 2 ^ 24)) :
    Near ((x * s1 + z * s2) / d) ((x.val * S1 + z.val * S2) / A)
      (21.2 / 2 ^ 24 * (s * |(x.val : ℝ)| + t * |(z.val : ℝ)|) + 1 / 2 ^ 118) := by
  have A0 : 0 < A := lt_of_lt_of_le (by norm_num) hA
  -- the products
  have prod : ∀ {x s1 : F32} {s S1 : ℝ}, x.IsFin = true → |(x.val : ℝ)| ≤ 2 → 0 ≤ s → s ≤ 1 →
      Near s1 S1 (9.67 / 2 ^ 24 * (s * A) + 1 / 2 ^ 139) → |S1| ≤ 1.61 * (s * A) →
      Near (x * s1) (x.val * S1) (11.29 / 2 ^ 24 * (s * |(x.val : ℝ)| * A) + 1 / 2 ^ 137) ∧
      |x.val * S1| ≤ 1.61 * (s * |(x.val : ℝ)| * A) := by
    intro x s1 s S1 fx hx s0 s1' h1 b1
    have x0 := abs_nonneg (x.val : ℝ)
    have sA0 : 0 ≤ s * A := mul_nonneg s0 A0.le
    have sA1 : s * A ≤ 1 := mul_le_one₀ s1' A0.le hA1
    have a1 : |(s1.val : ℝ)| ≤ 1.6101 * (s * A) + 1 / 2 ^ 139 := by
      have : |(s1.val : ℝ)| ≤ |(s1.val : ℝ) - S1| + |S1| := by
        calc |(s1.val : ℝ)| = |(s1.val - S1) + S1| := by congr 1; ring
          _ ≤ _ := abs_add_le _ _
      linarith [h1.2]
    have xs : |(x.val : ℝ) * s1.val| ≤ 1.6101 * (s * |(x.val : ℝ)| * A) + 1 / 2 ^ 138 := by
      rw [abs_mul]
      have := mul_le_mul_of_nonneg_left a1 x0
      linarith
    have xb : s * |(x.val : ℝ)| * A ≤ 2 := by
      have := mul_le_mul sA1 hx x0 zero_le_one
      linarith
    obtain ⟨f, e⟩ := Rel.mul' (g := 1 / 2 ^ 24) (Rel.exact fx) (Rel.exact h1.1) (by norm_num) (by norm_num)
      (show |(x.val : ℝ) * s1.val| ≤ 2 ^ 126 by linarith)
    refine ⟨⟨f, ?_⟩, ?_⟩
    · have d : |(x.val : ℝ) * s1.val - x.val * S1| ≤ 9.67 / 2 ^ 24 * (s * |(x.val : ℝ)| * A) + 1 / 2 ^ 138 := by
        rw [← mul_sub, abs_mul]
        have := mul_le_mul_of_nonneg_left h1.2 x0
        linarith
      have t := abs_sub_le ((x * s1).val : ℝ) (x.val * s1.val) (x.val * S1)
      have nn : 0 ≤ s * |(x.val : ℝ)| * A := by positivity
      linarith
    · rw [abs_mul]
      have := mul_le_mul_of_nonneg_left b1 x0
      linarith
  obtain ⟨⟨f1, e1⟩, r1⟩ := prod fx hx s0 s1' h1 b1
  obtain ⟨⟨f2, e2⟩, r2⟩ := prod fz hz t0 t1 h2 b2
  have m0 : 0 ≤ s * |(x.val : ℝ)| + t * |(z.val : ℝ)| := by positivity
  have m4 : s * |(x.val : ℝ)| + t * |(z.val : ℝ)| ≤ 4 := by
    have := mul_le_mul s1' hx (abs_nonneg _) zero_le_one
    have := mul_le_mul t1 hz (abs_nonneg _) zero_le_one
    linarith
  set m : ℝ := s * |(x.val : ℝ)| + t * |(z.val : ℝ)| with hm
  have emA : s * |(x.val : ℝ)| * A + t * |(z.val : ℝ)| * A = m * A := by rw [hm]; ring
  have mA0 : 0 ≤ m * A := mul_nonneg m0 A0.le
  have mA4 : m * A ≤ 4 := by
    have := mul_le_mul m4 hA1 A0.le (by norm_num)
    linarith
  -- the sum
  obtain ⟨fn, en⟩ := add_close f1 f2 e1 e2 (by linarith)
  set R : ℝ := x.val * S1 + z.val * S2 with hR
  have bR : |R| ≤ 1.61 * (m * A) := (abs_add_le _ _).trans (by linarith)
  have en' : |((x * s1 + z * s2).val : ℝ) - R| ≤ 12.91 / 2 ^ 24 * (m * A) + 1 / 2 ^ 135 := by linarith
  set n := x * s1 + z * s2 with hn
  -- the quotient
  have ed := abs_le.1 hd.err
  rw [abs_of_pos A0] at ed
  have d0 : 0.99999 * A ≤ (d.val : ℝ) := by linarith [ed.1]
  have dp : 0 < (d.val : ℝ) := by linarith
  have quo : |(n.val : ℝ) / d.val - R / A| ≤ 19.4 / 2 ^ 24 * m + 1 / 2 ^ 120 := by
    have e : (n.val : ℝ) / d.val - R / A = (n.val - R) / d.val + R / A * ((A - d.val) / d.val) := by
      field_simp
      ring
    have q1 : |(n.val - R) / (d.val : ℝ)| ≤ 12.92 / 2 ^ 24 * m + 1 / 2 ^ 121 := by
      rw [abs_div, abs_of_pos dp, div_le_iff₀ dp]
      have k := mul_le_mul_of_nonneg_left d0 (show 0 ≤ 12.92 / 2 ^ 24 * m + 1 / 2 ^ 121 by positivity)
      have : 1 / 2 ^ 121 * (0.99999 * (1 / 2 ^ 13)) ≤ 1 / 2 ^ 121 * (0.99999 * A) := by gcongr
      linarith
    have q2 : |R / A| ≤ 1.61 * m := by
      rw [abs_div, abs_of_pos A0, div_le_iff₀ A0]; linarith
    have q3 : |(A - d.val) / (d.val : ℝ)| ≤ 4.0101 / 2 ^ 24 := by
      rw [abs_div, abs_of_pos dp, div_le_iff₀ dp, abs_sub_comm]
      have := hd.err
      rw [abs_of_pos A0] at this
      linarith
    rw [e]
    refine (abs_add_le _ _).trans ?_
    rw [abs_mul (R / A)]
    have := mul_le_mul q2 q3 (abs_nonneg _) (by positivity)
    linarith
  have bq : |(n.val : ℝ) / d.val| ≤ 1.6101 * m + 1 / 2 ^ 120 := by
    have q2 : |R / A| ≤ 1.61 * m := by
      rw [abs_div, abs_of_pos A0, div_le_iff₀ A0]; linarith
    have : |(n.val : ℝ) / d.val| ≤ |(n.val : ℝ) / d.val - R / A| + |R / A| := by
      calc |(n.val : ℝ) / d.val| = |((n.val : ℝ) / d.val - R / A) + R / A| := by congr 1; ring
        _ ≤ _ := abs_add_le _ _
    linarith
  obtain ⟨fr, er⟩ := Rel.div' (d := 0) (g := 1 / 2 ^ 24) (Rel.exact fn) (Rel.exact hd.fin) le_rfl le_rfl (by norm_num) dp.ne' (by norm_num)
    (by norm_num) (by norm_num) (show |(n.val : ℝ) / d.val| ≤ 2 ^ 126 by linarith)
  refine ⟨fr, ?_⟩
  have t := abs_sub_le ((n / d).val : ℝ) (n.val / d.val) (R / A)
  linarith

/-! ### Exact facts -/

/-- the combination of `X` and `Z` with the weights for the angle `θ` -/
noncomputable def arcSum (X Z : ℍ[ℝ]) (t θ : ℝ) : ℍ[ℝ] := arcWeight (1 - t) θ • X + arcWeight t θ • Z

theorem arcPoint_eq {X Z : ℍ[ℝ]} (hX : ‖X‖ = 1) (hZ : ‖Z‖ = 1) (t : ℝ) : arcPoint X Z t = arcSum X Z t (angle X Z) := by
  unfold arcPoint arcSum
  dsimp only
  split_ifs with h
  · rw [h, arcWeight_zero, arcWeight_zero]
    obtain ⟨-, r, hr, rfl⟩ := angle_eq_zero_iff.1 h
    rw [norm_smul, hX, mul_one, Real.norm_of_nonneg hr.le] at hZ
    rw [hZ, one_smul, ← add_smul, sub_add_cancel, one_smul]
  · rw [arcWeight_of_ne h, arcWeight_of_ne h]

theorem arcSum_close {X Z : ℍ[ℝ]} (hX : ‖X‖ = 1) (hZ : ‖Z‖ = 1) {t a b : ℝ} (t0 : 0 ≤ t) (t1 : t ≤ 1)
    (ha : a ∈ Set.Icc (0 : ℝ) 1.6) (hb : b ∈ Set.Icc (0 : ℝ) 1.6) :
    ‖arcSum X Z t a - arcSum X Z t b‖ ≤ 1.08 * |Real.cos a - Real.cos b| := by
  have e : arcSum X Z t a - arcSum X Z t b =
      (arcWeight (1 - t) a - arcWeight (1 - t) b) • X + (arcWeight t a - arcWeight t b) • Z := by
    unfold arcSum; module
  rw [e]
  refine (norm_add_le _ _).trans ?_
  rw [norm_smul, norm_smul, hX, hZ, Real.norm_eq_abs, Real.norm_eq_abs]
  have := arcWeight_close (s := 1 - t) (by linarith) (by linarith) ha hb
  have := arcWeight_close t0 t1 ha hb
  linarith

theorem arcSum_scale {X Z : ℍ[ℝ]} (hX : |‖X‖ - 1| ≤ 1 / 2 ^ 20) (hZ : |‖Z‖ - 1| ≤ 1 / 2 ^ 20) {t a : ℝ} (t0 : 0 ≤ t) (t1 : t ≤ 1)
    (ha : a ∈ Set.Icc (0 : ℝ) 1.6) :
    ‖arcSum X Z t a - arcSum (NormedSpace.normalize X) (NormedSpace.normalize Z) t a‖ ≤ 25.8 / 2 ^ 24 := by
  have d : ∀ {Y : ℍ[ℝ]}, |‖Y‖ - 1| ≤ 1 / 2 ^ 20 → ‖Y - NormedSpace.normalize Y‖ ≤ 1 / 2 ^ 20 := fun {Y} h => by
    have y0 : 0 < ‖Y‖ := by have := (abs_le.1 h).1; linarith
    have e : Y - NormedSpace.normalize Y = (‖Y‖ - 1) • NormedSpace.normalize Y := by
      rw [sub_smul, one_smul, NormedSpace.norm_smul_normalize]
    rw [e, norm_smul, NormedSpace.norm_normalize (norm_pos_iff.1 y0), mul_one]
    exact h
  have e : arcSum X Z t a - arcSum (NormedSpace.normalize X) (NormedSpace.normalize Z) t a =
      arcWeight (1 - t) a • (X - NormedSpace.normalize X) + arcWeight t a • (Z - NormedSpace.normalize Z) := by
    unfold arcSum; module
  obtain ⟨p0, p1⟩ := arcWeight_bounds (s := 1 - t) (by linarith) (by linarith) ha.1 ha.2
  obtain ⟨q0, q1⟩ := arcWeight_bounds t0 t1 ha.1 ha.2
  rw [e]
  refine (norm_add_le _ _).trans ?_
  rw [norm_smul, norm_smul, Real.norm_of_nonneg p0, Real.norm_of_nonneg q0]
  have := mul_le_mul p1 (d hX) (norm_nonneg _) (by nlinarith)
  have := mul_le_mul q1 (d hZ) (norm_nonneg _) (by nlinarith)
  linarith

/-! ### `slerp` after the sign has been settled -/

section
variable [Libm F32]

/-- the end of `slerp` -/
def slerpTail (x z : Quat F32) (c t : F32) : Quat F32 :=
  if c > lit 1 - epsilonf then
    Quat.wxyz (F.mix x.w z.w t) (F.mix x.x z.x t) (F.mix x.y z.y t) (F.mix x.z z.z t)
  else
    (F.sin ((lit 1 - t) * F.acos c) * x + F.sin (t * F.acos c) * z) / F.sin (F.acos c)

theorem slerp_tail (x y : Quat F32) (t : F32) : Quat.slerp x y t =
    if Quat.dot x y < lit 0 then slerpTail x (-y) (-(Quat.dot x y)) t else slerpTail x y (Quat.dot x y) t := by
  unfold Quat.slerp slerpTail
  dsimp only
  split_ifs <;> rfl

omit [Libm F32] in
theorem unit_bounds {q : Quat F32} (h : NearUnit q) : ‖exactQ q‖ ≤ 1 + 1 / 2 ^ 20 ∧ 1 - 1 / 2 ^ 20 ≤ ‖exactQ q‖ := by
  have := abs_le.1 h.2
  exact ⟨by linarith [this.2], by linarith [this.1]⟩

omit [Libm F32] in
theorem comp_le (a : ℍ[ℝ]) : |a.re| ≤ ‖a‖ ∧ |a.imI| ≤ ‖a‖ ∧ |a.imJ| ≤ ‖a‖ ∧ |a.imK| ≤ ‖a‖ := by
  have h := norm_sq_quat a
  refine ⟨?_, ?_, ?_, ?_⟩ <;> apply abs_le_of_sq_le_sq _ (norm_nonneg _) <;> rw [h] <;> nlinarith [sq_nonneg a.re, sq_nonneg a.imI, sq_nonneg a.imJ, sq_nonneg a.imK]

omit [Libm F32] in
/-- the linear branch -/
theorem slerp_linear {x z : Quat F32} {t : F32} (hx : NearUnit x) (hz : NearUnit z) (ft : t.IsFin = true)
    (t0 : 0 ≤ (t.val : ℝ)) (t1 : (t.val : ℝ) ≤ 1) :
    NearQ (Quat.wxyz (F.mix x.w z.w t) (F.mix x.x z.x t) (F.mix x.y z.y t) (F.mix x.z z.z t))
      (arcSum (exactQ x) (exactQ z) t.val 0) (5.1 / 2 ^ 24) := by
  obtain ⟨x1, x2⟩ := unit_bounds hx
  obtain ⟨z1, z2⟩ := unit_bounds hz
  have key : ∀ {a b : F32}, a.IsFin = true → b.IsFin = true → |(a.val : ℝ)| ≤ ‖exactQ x‖ → |(b.val : ℝ)| ≤ ‖exactQ z‖ →
      (F.mix a b t).IsFin = true ∧ |((F.mix a b t).val : ℝ) - ((1 - t.val) * a.val + t.val * b.val)| ≤
        (1 - t.val + 2.001) / 2 ^ 24 * |(a.val : ℝ)| + (t.val + 2.001) / 2 ^ 24 * |(b.val : ℝ)| + 1 / 2 ^ 149 := by
    intro a b fa fb ha hb
    obtain ⟨f, e⟩ := mix_near fa fb ft (by linarith) (by linarith) (abs_le.2 ⟨by linarith, t1⟩)
    refine ⟨f, ?_⟩
    have ew : wayFrom (a.val : ℝ) b.val t.val = (1 - t.val) * a.val + t.val * b.val := by unfold wayFrom; ring
    rw [ew] at e
    have a1 : |(1 - t.val) * (a.val : ℝ) + t.val * b.val| ≤ (1 - t.val) * |(a.val : ℝ)| + t.val * |(b.val : ℝ)| := by
      refine (abs_add_le _ _).trans ?_
      rw [abs_mul, abs_mul, abs_of_nonneg t0, abs_of_nonneg (show (0 : ℝ) ≤ 1 - t.val by linarith)]
    have a2 : |(t.val : ℝ) * (b.val - a.val)| ≤ |(a.val : ℝ)| + |(b.val : ℝ)| := by
      rw [abs_mul, abs_of_nonneg t0]
      have := mul_le_mul t1 (abs_sub (b.val : ℝ) a.val) (abs_nonneg _) zero_le_one
      linarith
    refine e.trans ?_
    linarith
  obtain ⟨c0, c1, c2, c3⟩ := comp_le (exactQ x)
  obtain ⟨d0, d1, d2, d3⟩ := comp_le (exactQ z)
  have k0 := key (hx.1 3) (hz.1 3) c0 d0
  have k1 := key (hx.1 0) (hz.1 0) c1 d1
  have k2 := key (hx.1 1) (hz.1 1) c2 d2
  have k3 := key (hx.1 2) (hz.1 2) c3 d3
  refine ⟨fun i => by fin_cases i <;> [exact k1.1; exact k2.1; exact k3.1; exact k0.1], ?_⟩
  unfold arcSum
  rw [arcWeight_zero, arcWeight_zero]
  have n := norm_of_comp (a := exactQ (Quat.wxyz (F.mix x.w z.w t) (F.mix x.x z.x t) (F.mix x.y z.y t) (F.mix x.z z.z t)) -
      ((1 - (t.val : ℝ)) • exactQ x + (t.val : ℝ) • exactQ z)) (b := exactQ x) (c := exactQ z)
      (E := (1 - t.val + 2.001) / 2 ^ 24) (F := (t.val + 2.001) / 2 ^ 24) (t := 1 / 2 ^ 149)
      (div_nonneg (by linarith) (by norm_num)) (div_nonneg (by linarith) (by norm_num)) (by norm_num)
      (by rw [re_sub, re_add, re_smul, re_smul]; exact k0.2) (by rw [imI_sub, imI_add, imI_smul, imI_smul]; exact k1.2)
      (by rw [imJ_sub, imJ_add, imJ_smul, imJ_smul]; exact k2.2) (by rw [imK_sub, imK_add, imK_smul, imK_smul]; exact k3.2)
  refine n.trans ?_
  have := mul_le_mul_of_nonneg_left x1 (show (0 : ℝ) ≤ (1 - t.val + 2.001) / 2 ^ 24 from div_nonneg (by linarith) (by norm_num))
  have := mul_le_mul_of_nonneg_left z1 (show (0 : ℝ) ≤ (t.val + 2.001) / 2 ^ 24 from div_nonneg (by linarith) (by norm_num))
  linarith

/-- the spherical branch, relative to the angle the computer found -/
theorem slerp_spherical (hl : GoodArc) {x z : Quat F32} {c t : F32} (hx : NearUnit x) (hz : NearUnit z) (ft : t.IsFin = true)
    (t0 : 0 ≤ (t.val : ℝ)) (t1 : (t.val : ℝ) ≤ 1) (fc : c.IsFin = true) (c0 : 0 ≤ (c.val : ℝ)) (c1 : (c.val : ℝ) ≤ 1 - 1 / 2 ^ 23) :
    ∃ φ : ℝ, φ ∈ Set.Icc (0 : ℝ) 1.6 ∧ |Real.cos φ - c.val| ≤ 6.4 / 2 ^ 24 ∧
      NearQ ((F.sin ((lit 1 - t) * F.acos c) * x + F.sin (t * F.acos c) * z) / F.sin (F.acos c))
        (arcSum (exactQ x) (exactQ z) t.val φ) (21.3 / 2 ^ 24) := by
  obtain ⟨x1, x2⟩ := unit_bounds hx
  obtain ⟨z1, z2⟩ := unit_bounds hz
  obtain ⟨fv, ev⟩ := hl.2 c fc c0 (by linarith)
  have a0 : Real.arccos (c.val : ℝ) ≤ Real.pi / 2 := Real.arccos_le_pi_div_two.2 c0
  have an := Real.arccos_nonneg (c.val : ℝ)
  have ca : Real.cos (Real.arccos (c.val : ℝ)) = c.val := Real.cos_arccos (by linarith) (by linarith)
  have al : 1 / 2 ^ 12 ≤ Real.arccos (c.val : ℝ) := by
    refine le_trans ?_ (Real.sin_le an)
    rw [Real.sin_arccos]
    refine Real.le_sqrt_of_sq_le ?_
    nlinarith
  have pi1 := Real.pi_lt_d2
  have evb := abs_le.1 ev
  change (F.acos c).IsFin = true at fv
  have F1 : F.acos c = Libm.acosf c := rfl
  rw [← F1] at ev evb
  set v := F.acos c with hv
  have v0 : 1 / 2 ^ 12 * 0.99 ≤ (v.val : ℝ) := by linarith [evb.1]
  have v0' : 0 ≤ (v.val : ℝ) := le_trans (by norm_num) v0
  have v1 : (v.val : ℝ) ≤ 1.59 := by linarith [evb.2]
  have A1 := Real.sin_le_one (v.val : ℝ)
  have A2 : 1 / 2 ^ 13 ≤ Real.sin (v.val : ℝ) := by
    have := le_sin_arc v0' (by linarith)
    linarith
  have lv : ((lit 1 : F32).val : ℝ) = 1 := by rw [val_lit_one]; norm_num
  have rs := rel_sub isFin_lit_one ft (by rw [lv, abs_of_nonneg (by linarith)]; linarith)
  rw [lv] at rs
  have sn : 0 ≤ ((lit 1 - t).val : ℝ) := by
    rw [sub_fin isFin_lit_one ft]
    have : (0 : ℚ) ≤ (lit 1 : F32).val - t.val := by
      rw [val_lit_one, sub_nonneg]; exact_mod_cast t1
    exact_mod_cast val_round_nonneg this _
  have h1 := sin_part hl rs sn (by linarith) (by linarith) fv v0' v1
  have h2 := sin_part hl ((Rel.exact ft).mono (by norm_num)) t0 t0 t1 fv v0' v1
  obtain ⟨fd, ed⟩ := hl.1 v fv v0' (by linarith)
  have rd : Rel (Libm.sinf v) (Real.sin v.val) (4.01 / 2 ^ 24) := by
    refine ⟨fd, ed.trans ?_⟩
    rw [abs_of_pos (by linarith)]
    linarith
  have bnd : ∀ s : ℝ, 0 ≤ s → s ≤ 1 → |Real.sin (s * v.val)| ≤ 1.61 * (s * Real.sin v.val) := fun s s0 s1 => by
    have q0 : 0 ≤ s * (v.val : ℝ) := mul_nonneg s0 v0'
    have q1 : s * (v.val : ℝ) ≤ v.val := mul_le_of_le_one_left v0' s1
    rw [abs_of_nonneg (Real.sin_nonneg_of_nonneg_of_le_pi q0 (by linarith [Real.pi_gt_three]))]
    have := Real.sin_le q0
    have := mul_le_mul_of_nonneg_left (le_sin_arc v0' (by linarith)) s0
    linarith
  refine ⟨v.val, ⟨v0', by linarith⟩, ?_, ?_⟩
  · have := (Real.abs_cos_sub_cos_le (v.val : ℝ) (Real.arccos c.val)).trans ev
    rw [ca] at this
    linarith
  have key : ∀ {a b : F32}, a.IsFin = true → b.IsFin = true → |(a.val : ℝ)| ≤ ‖exactQ x‖ → |(b.val : ℝ)| ≤ ‖exactQ z‖ →
      ((a * F.sin ((lit 1 - t) * v) + b * F.sin (t * v)) / F.sin v).IsFin = true ∧
      |(((a * F.sin ((lit 1 - t) * v) + b * F.sin (t * v)) / F.sin v).val : ℝ) -
        (arcWeight (1 - t.val) v.val * a.val + arcWeight t.val v.val * b.val)| ≤
        21.2 / 2 ^ 24 * (1 - t.val) * |(a.val : ℝ)| + 21.2 / 2 ^ 24 * t.val * |(b.val : ℝ)| + 1 / 2 ^ 118 := by
    intro a b fa fb ha hb
    obtain ⟨f, e⟩ := slerp_component fa fb (by linarith) (by linarith) (show (0 : ℝ) ≤ 1 - t.val by linarith) (by linarith) t0 t1 h1 h2
      (bnd _ (by linarith) (by linarith)) (bnd _ t0 t1) A2 A1 rd
    refine ⟨f, ?_⟩
    have vne : (v.val : ℝ) ≠ 0 := (lt_of_lt_of_le (by norm_num) v0).ne'
    rw [arcWeight_of_ne vne, arcWeight_of_ne vne]
    have e' : (a.val * Real.sin ((1 - t.val) * v.val) + b.val * Real.sin (t.val * v.val)) / Real.sin v.val =
        Real.sin ((1 - t.val) * v.val) / Real.sin v.val * a.val + Real.sin (t.val * v.val) / Real.sin v.val * b.val := by ring
    rw [e'] at e
    refine e.trans (le_of_eq ?_)
    ring
  obtain ⟨c0, c1, c2, c3⟩ := comp_le (exactQ x)
  obtain ⟨d0, d1, d2, d3⟩ := comp_le (exactQ z)
  have k0 := key (hx.1 3) (hz.1 3) c0 d0
  have k1 := key (hx.1 0) (hz.1 0) c1 d1
  have k2 := key (hx.1 1) (hz.1 1) c2 d2
  have k3 := key (hx.1 2) (hz.1 2) c3 d3
  refine ⟨fun i => by fin_cases i <;> [exact k1.1; exact k2.1; exact k3.1; exact k0.1], ?_⟩
  unfold arcSum
  have n := norm_of_comp (a := exactQ ((F.sin ((lit 1 - t) * v) * x + F.sin (t * v) * z) / F.sin v) -
      (arcWeight (1 - t.val) v.val • exactQ x + arcWeight t.val v.val • exactQ z)) (b := exactQ x) (c := exactQ z)
      (E := 21.2 / 2 ^ 24 * (1 - t.val)) (F := 21.2 / 2 ^ 24 * t.val) (t := 1 / 2 ^ 118)
      (mul_nonneg (by norm_num) (by linarith)) (mul_nonneg (by norm_num) (by linarith)) (by norm_num)
      (by rw [re_sub, re_add, re_smul, re_smul]; exact k0.2) (by rw [imI_sub, imI_add, imI_smul, imI_smul]; exact k1.2)
      (by rw [imJ_sub, imJ_add, imJ_smul, imJ_smul]; exact k2.2) (by rw [imK_sub, imK_add, imK_smul, imK_smul]; exact k3.2)
  refine n.trans ?_
  have := mul_le_mul_of_nonneg_left x1 (show (0 : ℝ) ≤ 21.2 / 2 ^ 24 * (1 - t.val) from mul_nonneg (by norm_num) (by linarith))
  have := mul_le_mul_of_nonneg_left z1 (show (0 : ℝ) ≤ 21.2 / 2 ^ 24 * t.val from mul_nonneg (by norm_num) (by linarith))
  linarith

omit [Libm F32] in
theorem cos_big : Real.cos 1.6 ≤ -0.01 := by
  have e : Real.cos 1.6 = -Real.sin (1.6 - Real.pi / 2) := by rw [Real.sin_sub_pi_div_two, neg_neg]
  have p1 := Real.pi_lt_d4
  have p2 := Real.pi_gt_d4
  have := Real.sin_gt_sub_cube (x := 1.6 - Real.pi / 2) (by linarith)
  have h : (1.6 - Real.pi / 2) ^ 3 ≤ 1 * (1.6 - Real.pi / 2) ^ 2 := by
    rw [pow_succ']; exact mul_le_mul_of_nonneg_right (by linarith) (sq_nonneg _)
  have h2 : (1.6 - Real.pi / 2) ^ 2 ≤ 0.04 ^ 2 := pow_le_pow_left₀ (by linarith) (by linarith) 2
  rw [e]
  linarith

/-- both branches -/
theorem slerpTail_near (hl : GoodArc) {x z : Quat F32} {c t : F32} (hx : NearUnit x) (hz : NearUnit z) (ft : t.IsFin = true)
    (t0 : 0 ≤ (t.val : ℝ)) (t1 : (t.val : ℝ) ≤ 1) (fc : c.IsFin = true) (c0 : 0 ≤ (c.val : ℝ))
    (hc : |(c.val : ℝ) - Real.cos (angle (exactQ x) (exactQ z))| ≤ 36.2 / 2 ^ 24) :
    NearQ (slerpTail x z c t) (arcPoint (NormedSpace.normalize (exactQ x)) (NormedSpace.normalize (exactQ z)) t.val) (94 / 2 ^ 24) := by
  have xp : 0 < ‖exactQ x‖ := lt_of_lt_of_le (by norm_num) (unit_bounds hx).2
  have zp : 0 < ‖exactQ z‖ := lt_of_lt_of_le (by norm_num) (unit_bounds hz).2
  have nX := NormedSpace.norm_normalize (norm_pos_iff.1 xp)
  have nZ := NormedSpace.norm_normalize (norm_pos_iff.1 zp)
  have en : angle (NormedSpace.normalize (exactQ x)) (NormedSpace.normalize (exactQ z)) = angle (exactQ x) (exactQ z) := by
    unfold NormedSpace.normalize
    rw [angle_smul_left_of_pos _ _ (inv_pos.2 xp), angle_smul_right_of_pos _ _ (inv_pos.2 zp)]
  rw [arcPoint_eq nX nZ, en]
  have hθ : angle (exactQ x) (exactQ z) ∈ Set.Icc (0 : ℝ) 1.6 := ⟨angle_nonneg _ _, by
    by_contra h
    have h1 := Real.cos_le_cos_of_nonneg_of_le_pi (by norm_num) (angle_le_pi (exactQ x) (exactQ z)) (not_le.1 h).le
    linarith [cos_big, (abs_le.1 hc).2]⟩
  set θ := angle (exactQ x) (exactQ z) with hθd
  have finish : ∀ {q : Quat F32} {φ : ℝ}, φ ∈ Set.Icc (0 : ℝ) 1.6 → |Real.cos φ - Real.cos θ| ≤ 42.6 / 2 ^ 24 →
      NearQ q (arcSum (exactQ x) (exactQ z) t.val φ) (21.3 / 2 ^ 24) →
      NearQ q (arcSum (NormedSpace.normalize (exactQ x)) (NormedSpace.normalize (exactQ z)) t.val θ) (94 / 2 ^ 24) := by
    intro q φ hφ h1 h2
    refine ⟨h2.1, ?_⟩
    have a := arcSum_scale hx.2 hz.2 t0 t1 hφ
    have b := arcSum_close nX nZ t0 t1 hφ hθ
    have u := norm_sub_le_norm_sub_add_norm_sub (exactQ q) (arcSum (exactQ x) (exactQ z) t.val φ)
      (arcSum (NormedSpace.normalize (exactQ x)) (NormedSpace.normalize (exactQ z)) t.val θ)
    have u' := norm_sub_le_norm_sub_add_norm_sub (arcSum (exactQ x) (exactQ z) t.val φ)
      (arcSum (NormedSpace.normalize (exactQ x)) (NormedSpace.normalize (exactQ z)) t.val φ)
      (arcSum (NormedSpace.normalize (exactQ x)) (NormedSpace.normalize (exactQ z)) t.val θ)
    linarith [h2.2]
  have kv : ((lit 1 - epsilonf : F32).IsFin = true) ∧ (lit 1 - epsilonf : F32).val = 1 - 1 / 2 ^ 23 := by decide +kernel
  unfold slerpTail
  split_ifs with hb
  · have cv : 1 - 1 / 2 ^ 23 ≤ (c.val : ℝ) := by
      have := key_le_iff.1 (le_of_lt (lt_iff.1 hb).2.2)
      rw [kv.2] at this
      have := (Rat.cast_le (K := ℝ)).2 this
      push_cast at this
      linarith
    have l := slerp_linear hx hz ft t0 t1
    refine finish (φ := 0) ⟨le_rfl, by norm_num⟩ ?_ ⟨l.1, l.2.trans (by norm_num)⟩
    rw [Real.cos_zero, abs_of_nonneg (by linarith [Real.cos_le_one θ])]
    linarith [(abs_le.1 hc).2]
  · have cv : (c.val : ℝ) ≤ 1 - 1 / 2 ^ 23 := by
      have : c.key ≤ (lit 1 - epsilonf : F32).key := by
        by_contra h
        exact hb ⟨isFin_ne_nan kv.1, isFin_ne_nan fc, not_le.1 h⟩
      have := key_le_iff.1 this
      rw [kv.2] at this
      have := (Rat.cast_le (K := ℝ)).2 this
      push_cast at this
      linarith
    obtain ⟨φ, hφ, h1, h2⟩ := slerp_spherical hl hx hz ft t0 t1 fc c0 cv
    refine finish hφ ?_ h2
    have := abs_sub_le (Real.cos φ) c.val (Real.cos θ)
    linarith

end

end Zcm
