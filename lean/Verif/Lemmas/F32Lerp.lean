import Verif.Lemmas.F32Persp
import Verif.Lemmas.F32QuatChain
import Verif.Lemmas.F32Slerp

/-!
# Lemmas: `lerp`, `nlerp` and `slerp` of quaternions in float arithmetic
-/

set_option exponentiation.threshold 300

namespace Zcm

open Quaternion InnerProductGeometry F32
open scoped RealInnerProductSpace

/-! ### `lerp` -/

theorem lerp_component {x y t : F32} (fx : x.IsFin = true) (fy : y.IsFin = true) (ft : t.IsFin = true)
    (hx : |(x.val : ℝ)| ≤ 2 ^ 120) (hy : |(y.val : ℝ)| ≤ 2 ^ 120) (t0 : 0 ≤ (t.val : ℝ)) (t1 : (t.val : ℝ) ≤ 1) :
    Near (x * (lit 1 - t) + y * t) ((1 - t.val) * x.val + t.val * y.val)
      (3.001 / 2 ^ 24 * ((1 - t.val) * |(x.val : ℝ)| + t.val * |(y.val : ℝ)|) + 1 / 2 ^ 148) := by
  have lv : ((lit 1 : F32).val : ℝ) = 1 := by rw [val_lit_one]; norm_num
  have rs := rel_sub isFin_lit_one ft (by rw [lv, abs_of_nonneg (by linarith)]; linarith)
  rw [lv] at rs
  have s0 : (0 : ℝ) ≤ 1 - t.val := by linarith
  have p : ∀ {a s : ℝ}, 0 ≤ s → s ≤ 1 → |a| ≤ 2 ^ 120 → |a * s| ≤ 2 ^ 120 := fun h0 h1 h => by
    rw [abs_mul, abs_of_nonneg h0]
    exact (mul_le_of_le_one_right (abs_nonneg _) h1).trans h
  obtain ⟨f1, e1⟩ := Rel.mul' (g := 2.0001 / 2 ^ 24) (Rel.exact fx) rs (by norm_num) (by norm_num)
    ((p s0 (by linarith) hx).trans (by norm_num))
  obtain ⟨f2, e2⟩ := Rel.mul' (g := 1 / 2 ^ 24) (Rel.exact fy) (Rel.exact ft) (by norm_num) (by norm_num)
    ((p t0 t1 hy).trans (by norm_num))
  have b1 := p s0 (by linarith) hx
  have b2 := p t0 t1 hy
  obtain ⟨f, e⟩ := add_close f1 f2 e1 e2 (by linarith)
  refine ⟨f, ?_⟩
  have e' : (x.val : ℝ) * (1 - t.val) + y.val * t.val = (1 - t.val) * x.val + t.val * y.val := by ring
  rw [e'] at e
  refine e.trans ?_
  rw [abs_mul, abs_mul, abs_of_nonneg s0, abs_of_nonneg t0]
  have := mul_nonneg (abs_nonneg (x.val : ℝ)) s0
  have := mul_nonneg (abs_nonneg (y.val : ℝ)) t0
  linarith

/-- the quaternion `lerp` returns -/
def lerpQ (x y : Quat F32) (t : F32) : Quat F32 := x * (lit 1 - t) + (y * t)

theorem lerp_ok (b : Build) (x y : Quat F32) {t : F32} (ft : t.IsFin = true) (t0 : 0 ≤ (t.val : ℝ)) (t1 : (t.val : ℝ) ≤ 1) :
    Quat.lerp b x y t = .ok (lerpQ x y t) := by
  have h0 : t ≥ lit 0 := le_of_val_le isFin_lit_zero ft (by rw [val_lit_zero]; simpa using t0)
  have h1 : t ≤ lit 1 := le_of_val_le ft isFin_lit_one (by rw [val_lit_one]; simpa using t1)
  unfold Quat.lerp
  rw [decide_eq_true h0, decide_eq_true h1]
  cases b <;> rfl

theorem lerpQ_near {x y : Quat F32} {t : F32} (fx : x.Finite) (fy : y.Finite) (ft : t.IsFin = true)
    (hx : ‖exactQ x‖ ≤ 2 ^ 120) (hy : ‖exactQ y‖ ≤ 2 ^ 120) (t0 : 0 ≤ (t.val : ℝ)) (t1 : (t.val : ℝ) ≤ 1) :
    NearQ (lerpQ x y t) (chordPoint (exactQ x) (exactQ y) t.val)
      (3.001 / 2 ^ 24 * ((1 - t.val) * ‖exactQ x‖ + t.val * ‖exactQ y‖) + 1 / 2 ^ 147) := by
  obtain ⟨c0, c1, c2, c3⟩ := comp_le (exactQ x)
  obtain ⟨d0, d1, d2, d3⟩ := comp_le (exactQ y)
  have key : ∀ {a b : F32}, a.IsFin = true → b.IsFin = true → |(a.val : ℝ)| ≤ ‖exactQ x‖ → |(b.val : ℝ)| ≤ ‖exactQ y‖ →
      (a * (lit 1 - t) + b * t).IsFin = true ∧ |((a * (lit 1 - t) + b * t).val : ℝ) - ((1 - t.val) * a.val + t.val * b.val)| ≤
        3.001 / 2 ^ 24 * (1 - t.val) * |(a.val : ℝ)| + 3.001 / 2 ^ 24 * t.val * |(b.val : ℝ)| + 1 / 2 ^ 148 := by
    intro a b fa fb ha hb
    obtain ⟨f, e⟩ := lerp_component fa fb ft (ha.trans hx) (hb.trans hy) t0 t1
    exact ⟨f, e.trans (le_of_eq (by ring))⟩
  have k0 := key (fx 3) (fy 3) c0 d0
  have k1 := key (fx 0) (fy 0) c1 d1
  have k2 := key (fx 1) (fy 1) c2 d2
  have k3 := key (fx 2) (fy 2) c3 d3
  refine ⟨fun i => by fin_cases i <;> [exact k1.1; exact k2.1; exact k3.1; exact k0.1], ?_⟩
  unfold chordPoint
  have n := norm_of_comp (a := exactQ (lerpQ x y t) - ((1 - (t.val : ℝ)) • exactQ x + (t.val : ℝ) • exactQ y))
      (b := exactQ x) (c := exactQ y) (E := 3.001 / 2 ^ 24 * (1 - t.val)) (F := 3.001 / 2 ^ 24 * t.val) (t := 1 / 2 ^ 148)
      (mul_nonneg (by norm_num) (by linarith)) (mul_nonneg (by norm_num) (by linarith)) (by norm_num)
      (by rw [re_sub, re_add, re_smul, re_smul]; exact k0.2) (by rw [imI_sub, imI_add, imI_smul, imI_smul]; exact k1.2)
      (by rw [imJ_sub, imJ_add, imJ_smul, imJ_smul]; exact k2.2) (by rw [imK_sub, imK_add, imK_smul, imK_smul]; exact k3.2)
  refine n.trans ?_
  linarith

/-! ### `nlerp` -/

theorem normalizeQ_close {a b : ℍ[ℝ]} (ha : a ≠ 0) (hb : b ≠ 0) :
    ‖NormedSpace.normalize a - NormedSpace.normalize b‖ ≤ 2 * ‖a - b‖ / ‖b‖ := by
  have pa := norm_pos_iff.2 ha
  have pb := norm_pos_iff.2 hb
  have e : NormedSpace.normalize a - NormedSpace.normalize b = ‖b‖⁻¹ • (a - b) + (‖a‖⁻¹ - ‖b‖⁻¹) • a := by
    unfold NormedSpace.normalize; module
  rw [e]
  refine (norm_add_le _ _).trans ?_
  rw [norm_smul, norm_smul, Real.norm_of_nonneg (inv_pos.2 pb).le, Real.norm_eq_abs]
  have e2 : |‖a‖⁻¹ - ‖b‖⁻¹| * ‖a‖ = |‖b‖ - ‖a‖| / ‖b‖ := by
    have : ‖a‖⁻¹ - ‖b‖⁻¹ = (‖b‖ - ‖a‖) / (‖a‖ * ‖b‖) := by field_simp
    rw [this, abs_div, abs_of_pos (mul_pos pa pb)]
    field_simp
  have h : |‖b‖ - ‖a‖| ≤ ‖a - b‖ := by rw [abs_sub_comm]; exact abs_norm_sub_norm_le a b
  rw [e2]
  have := div_le_div_of_nonneg_right h pb.le
  have e3 : ‖b‖⁻¹ * ‖a - b‖ = ‖a - b‖ / ‖b‖ := by field_simp
  rw [e3, mul_div_assoc]
  linarith

theorem nlerp_near {x y : Quat F32} {t : F32} (hx : NearUnit x) (hy : NearUnit y) (ft : t.IsFin = true)
    (t0 : 0 ≤ (t.val : ℝ)) (t1 : (t.val : ℝ) ≤ 1) (hc : 1 / 2 ^ 20 ≤ ‖chordPoint (exactQ x) (exactQ y) t.val‖) :
    NearUnit (Quat.normalize (lerpQ x y t)) ∧
    NearQ (Quat.normalize (lerpQ x y t)) (NormedSpace.normalize (chordPoint (exactQ x) (exactQ y) t.val))
      (1 / 2 ^ 20 + 6.1 / 2 ^ 24 / ‖chordPoint (exactQ x) (exactQ y) t.val‖) := by
  obtain ⟨x1, -⟩ := unit_bounds hx
  obtain ⟨y1, -⟩ := unit_bounds hy
  obtain ⟨f, e⟩ := lerpQ_near hx.1 hy.1 ft (by linarith) (by linarith) t0 t1
  set C := chordPoint (exactQ x) (exactQ y) t.val with hC
  have e' : ‖exactQ (lerpQ x y t) - C‖ ≤ 3.01 / 2 ^ 24 := by
    have := mul_le_mul_of_nonneg_left x1 (show (0 : ℝ) ≤ 1 - t.val by linarith)
    have := mul_le_mul_of_nonneg_left y1 t0
    linarith
  have C2 : ‖C‖ ≤ 2 := by
    rw [hC, chordPoint]
    refine (norm_add_le _ _).trans ?_
    rw [norm_smul, norm_smul, Real.norm_of_nonneg t0, Real.norm_of_nonneg (show (0 : ℝ) ≤ 1 - t.val by linarith)]
    have := mul_le_mul_of_nonneg_left x1 (show (0 : ℝ) ≤ 1 - t.val by linarith)
    have := mul_le_mul_of_nonneg_left y1 t0
    linarith
  have C0 : C ≠ 0 := norm_pos_iff.1 (lt_of_lt_of_le (by norm_num) hc)
  have l1 := norm_sub_norm_le C (exactQ (lerpQ x y t))
  rw [norm_sub_rev] at l1
  have l2 := norm_sub_norm_le (exactQ (lerpQ x y t)) C
  have r0 : 1 / 2 ^ 50 ≤ ‖exactQ (lerpQ x y t)‖ := by linarith
  obtain ⟨g1, g2, g3⟩ := renorm (lerpQ x y t) f r0 (by linarith)
  refine ⟨⟨g1, g2⟩, g1, ?_⟩
  have n := normalizeQ_close (norm_pos_iff.1 (lt_of_lt_of_le (by norm_num) r0)) C0
  have tr := norm_sub_le_norm_sub_add_norm_sub (exactQ (Quat.normalize (lerpQ x y t))) (NormedSpace.normalize (exactQ (lerpQ x y t)))
    (NormedSpace.normalize C)
  have g3' : ‖exactQ (Quat.normalize (lerpQ x y t)) - NormedSpace.normalize (exactQ (lerpQ x y t))‖ ≤ 1 / 2 ^ 20 := g3
  have d : 2 * ‖exactQ (lerpQ x y t) - C‖ / ‖C‖ ≤ 6.1 / 2 ^ 24 / ‖C‖ :=
    div_le_div_of_nonneg_right (by linarith) (norm_nonneg _)
  linarith

/-- a chord whose ends are within a right angle stays away from the centre -/
theorem chord_long {X Y : ℍ[ℝ]} {t : ℝ} (t0 : 0 ≤ t) (t1 : t ≤ 1) (hX : 0.999 ≤ ‖X‖) (hY : 0.999 ≤ ‖Y‖) (h : 0 ≤ ⟪X, Y⟫) :
    0.7 ≤ ‖chordPoint X Y t‖ := by
  refine le_of_sq_le_sq ?_ (norm_nonneg _)
  unfold chordPoint
  rw [norm_add_sq_real, norm_smul, norm_smul, inner_smul_left, inner_smul_right, mul_pow, mul_pow]
  simp only [Real.norm_eq_abs, sq_abs, conj_trivial]
  have a := mul_le_mul_of_nonneg_left (pow_le_pow_left₀ (by norm_num) hX 2) (sq_nonneg (1 - t))
  have b := mul_le_mul_of_nonneg_left (pow_le_pow_left₀ (by norm_num) hY 2) (sq_nonneg t)
  have c : 0 ≤ (1 - t) * (t * ⟪X, Y⟫) := mul_nonneg (by linarith) (mul_nonneg t0 h)
  nlinarith [sq_nonneg (t - 1 / 2)]

/-! ### `slerp` -/

theorem exactQ_neg' (y : Quat F32) : exactQ (-y) = -exactQ y := by
  have h : ∀ a : F32, ((-a).val : ℝ) = -(a.val : ℝ) := fun a => by rw [val_neg]; push_cast; rfl
  apply Quaternion.ext
  · exact h _
  · exact h _
  · exact h _
  · exact h _

theorem nearUnit_neg {y : Quat F32} (h : NearUnit y) : NearUnit (-y) := by
  refine ⟨fun i => ?_, by rw [exactQ_neg', norm_neg]; exact h.2⟩
  have : coord (-y) i = -coord y i := by fin_cases i <;> rfl
  rw [this, isFin_neg]
  exact h.1 i

theorem slerp_near [Libm F32] (hl : GoodArc) {x y : Quat F32} {t : F32} (hx : NearUnit x) (hy : NearUnit y) (ft : t.IsFin = true)
    (t0 : 0 ≤ (t.val : ℝ)) (t1 : (t.val : ℝ) ≤ 1) :
    ∃ Z, (Z = NormedSpace.normalize (exactQ y) ∨ Z = -NormedSpace.normalize (exactQ y)) ∧
      (1 / 2 ^ 21 ≤ |⟪NormedSpace.normalize (exactQ x), NormedSpace.normalize (exactQ y)⟫| →
        Z = nearer (NormedSpace.normalize (exactQ x)) (NormedSpace.normalize (exactQ y))) ∧
      NearQ (Quat.slerp x y t) (arcPoint (NormedSpace.normalize (exactQ x)) Z t.val) (94 / 2 ^ 24) := by
  obtain ⟨x1, x2⟩ := unit_bounds hx
  obtain ⟨y1, y2⟩ := unit_bounds hy
  have xp : 0 < ‖exactQ x‖ := lt_of_lt_of_le (by norm_num) x2
  have yp : 0 < ‖exactQ y‖ := lt_of_lt_of_le (by norm_num) y2
  have xy2 : ‖exactQ x‖ * ‖exactQ y‖ ≤ 1 + 32.001 / 2 ^ 24 := by
    have := mul_le_mul x1 y1 (norm_nonneg _) (by norm_num)
    linarith
  have xy1 : 1 - 32.001 / 2 ^ 24 ≤ ‖exactQ x‖ * ‖exactQ y‖ := by
    have := mul_le_mul x2 y2 (by norm_num) (norm_nonneg _)
    linarith
  obtain ⟨fd, ed⟩ := near_dotQ hx.1 hy.1 (by linarith)
  have ec : ⟪exactQ x, exactQ y⟫ = Real.cos (angle (exactQ x) (exactQ y)) * (‖exactQ x‖ * ‖exactQ y‖) :=
    (cos_angle_mul_norm_mul_norm _ _).symm
  have ei : ⟪NormedSpace.normalize (exactQ x), NormedSpace.normalize (exactQ y)⟫ = Real.cos (angle (exactQ x) (exactQ y)) := by
    unfold NormedSpace.normalize
    rw [real_inner_smul_left, real_inner_smul_right, ec]
    field_simp
  have cl := Real.cos_le_one (angle (exactQ x) (exactQ y))
  have cg := Real.neg_one_le_cos (angle (exactQ x) (exactQ y))
  set C := Real.cos (angle (exactQ x) (exactQ y)) with hC
  rw [ec] at ed
  have dd : |((Quat.dot x y).val : ℝ) - C * (‖exactQ x‖ * ‖exactQ y‖)| ≤ 4.01 / 2 ^ 24 := by linarith
  have near : |((Quat.dot x y).val : ℝ) - C| ≤ 36.2 / 2 ^ 24 := by
    have s : |C * (‖exactQ x‖ * ‖exactQ y‖) - C| ≤ 32.001 / 2 ^ 24 := by
      have : C * (‖exactQ x‖ * ‖exactQ y‖) - C = C * (‖exactQ x‖ * ‖exactQ y‖ - 1) := by ring
      rw [this, abs_mul]
      have a : |C| ≤ 1 := abs_le.2 ⟨cg, cl⟩
      have b : |‖exactQ x‖ * ‖exactQ y‖ - 1| ≤ 32.001 / 2 ^ 24 := abs_le.2 ⟨by linarith, by linarith⟩
      have := mul_le_mul a b (abs_nonneg _) zero_le_one
      linarith
    have := abs_sub_le ((Quat.dot x y).val : ℝ) (C * (‖exactQ x‖ * ‖exactQ y‖)) C
    linarith
  have nn : (-(Quat.dot x y)).val = -(Quat.dot x y).val := val_neg _
  rw [slerp_tail]
  split_ifs with hs
  · have d0 : ((Quat.dot x y).val : ℝ) ≤ 0 := by
      have := key_le_iff.1 (le_of_lt (lt_iff.1 hs).2.2)
      rw [val_lit_zero] at this
      exact_mod_cast this
    have hn : NormedSpace.normalize (exactQ (-y)) = -NormedSpace.normalize (exactQ y) := by
      rw [exactQ_neg', NormedSpace.normalize_neg]
    refine ⟨-NormedSpace.normalize (exactQ y), Or.inr rfl, fun h => ?_, ?_⟩
    · rw [ei] at h
      have : C < 0 := by
        by_contra hc
        rw [abs_of_nonneg (not_lt.1 hc)] at h
        have := mul_le_mul h xy1 (by norm_num) (not_lt.1 hc)
        linarith [(abs_le.1 dd).1]
      rw [nearer, ei, if_pos this]
    · rw [← hn]
      refine slerpTail_near hl hx (nearUnit_neg hy) ft t0 t1 (by rw [isFin_neg]; exact fd) ?_ ?_
      · rw [nn]; push_cast; linarith
      · rw [exactQ_neg', angle_neg_right, Real.cos_pi_sub, nn, ← hC]
        push_cast
        rw [show -((Quat.dot x y).val : ℝ) - -C = -((Quat.dot x y).val - C) by ring, abs_neg]
        exact near
  · have d0 : 0 ≤ ((Quat.dot x y).val : ℝ) := by
      by_contra h
      refine hs ⟨isFin_ne_nan fd, isFin_ne_nan isFin_lit_zero, ?_⟩
      by_contra h2
      have := key_le_iff.1 (not_lt.1 h2)
      rw [val_lit_zero] at this
      exact h (by exact_mod_cast this)
    refine ⟨NormedSpace.normalize (exactQ y), Or.inl rfl, fun h => ?_, ?_⟩
    · rw [ei] at h
      have : ¬C < 0 := by
        intro hc
        rw [abs_of_neg hc] at h
        have := mul_le_mul h xy1 (by norm_num) (neg_nonneg.2 hc.le)
        linarith [(abs_le.1 dd).2]
      rw [nearer, ei, if_neg this]
    · exact slerpTail_near hl hx hy ft t0 t1 fd d0 near

/-! ### The exact arc -/

theorem arc_facts {X Y : ℍ[ℝ]} (hX : ‖X‖ = 1) (hY : ‖Y‖ = 1) (h : angle X Y < Real.pi) (t : ℝ) :
    ‖arcPoint X Y t‖ = 1 ∧ ⟪X, arcPoint X Y t⟫ = Real.cos (t * angle X Y) ∧ ⟪arcPoint X Y t, Y⟫ = Real.cos ((1 - t) * angle X Y) := by
  have ip : ⟪X, Y⟫ = Real.cos (angle X Y) := by
    have := cos_angle_mul_norm_mul_norm X Y
    rw [hX, hY] at this; linarith
  have xx : ⟪X, X⟫ = 1 := by rw [real_inner_self_eq_norm_sq, hX]; norm_num
  have yy : ⟪Y, Y⟫ = 1 := by rw [real_inner_self_eq_norm_sq, hY]; norm_num
  unfold arcPoint
  dsimp only
  split_ifs with h0
  · rw [h0] at ip ⊢
    refine ⟨hX, ?_, ?_⟩
    · rw [xx]; simp
    · rw [ip]; simp
  set θ := angle X Y with hθ
  have p : 0 < θ := lt_of_le_of_ne (angle_nonneg _ _) (Ne.symm h0)
  have sp : 0 < Real.sin θ := Real.sin_pos_of_pos_of_lt_pi p h
  have sc := Real.sin_sq_add_cos_sq θ
  have sub1 : Real.sin ((1 - t) * θ) = Real.sin θ * Real.cos (t * θ) - Real.cos θ * Real.sin (t * θ) := by
    rw [← Real.sin_sub]; ring_nf
  have sub2 : Real.cos ((1 - t) * θ) = Real.cos θ * Real.cos (t * θ) + Real.sin θ * Real.sin (t * θ) := by
    rw [← Real.cos_sub]; ring_nf
  have sct := Real.sin_sq_add_cos_sq (t * θ)
  have i1 : ⟪X, (Real.sin ((1 - t) * θ) / Real.sin θ) • X + (Real.sin (t * θ) / Real.sin θ) • Y⟫ = Real.cos (t * θ) := by
    rw [inner_add_right, real_inner_smul_right, real_inner_smul_right, xx, ip, sub1]
    field_simp
    ring
  have i2 : ⟪(Real.sin ((1 - t) * θ) / Real.sin θ) • X + (Real.sin (t * θ) / Real.sin θ) • Y, Y⟫ = Real.cos ((1 - t) * θ) := by
    rw [inner_add_left, real_inner_smul_left, real_inner_smul_left, yy, ip, sub1, sub2]
    field_simp
    linear_combination (-Real.sin (t * θ)) * sc
  refine ⟨?_, i1, i2⟩
  have n : ‖(Real.sin ((1 - t) * θ) / Real.sin θ) • X + (Real.sin (t * θ) / Real.sin θ) • Y‖ ^ 2 = 1 := by
    rw [← real_inner_self_eq_norm_sq]
    nth_rw 1 [inner_add_left]
    rw [real_inner_smul_left, real_inner_smul_left, i1, real_inner_comm, i2, sub1, sub2]
    field_simp
    linear_combination (Real.sin θ) * sct
  exact (sq_eq_sq₀ (norm_nonneg _) zero_le_one).1 (by rw [n]; norm_num)

/-! ### A C library that is good enough -/

@[instance_reducible]
noncomputable def arcLibm : Libm F32 where
  expf := id
  logf := id
  log2f := id
  powf x _ := x
  cbrtf := id
  sinf x := closeFloat (Real.sin x.val)
  cosf := id
  tanf := id
  asinf := id
  acosf x := closeFloat (Real.arccos x.val)
  atanf := id
  atan2f x _ := x
  sinhf := id
  coshf := id
  tanhf := id
  asinhf := id
  acoshf := id
  atanhf := id

theorem arcLibm_good : @GoodArc arcLibm := by
  constructor
  · intro x _ h0 h1
    have s0 := Real.sin_nonneg_of_nonneg_of_le_pi h0 (by linarith [Real.pi_gt_three])
    have s1 := Real.sin_le_one (x.val : ℝ)
    obtain ⟨f, e⟩ := closeFloat_close (y := Real.sin x.val) (by rw [abs_of_nonneg s0]; linarith)
    refine ⟨f, e.trans ?_⟩
    rw [abs_of_nonneg s0]
    linarith
  · intro x fx h0 h1
    have a0 := Real.arccos_nonneg (x.val : ℝ)
    have a1 := Real.arccos_le_pi (x.val : ℝ)
    have al : 1 / 2 ^ 13 ≤ Real.arccos (x.val : ℝ) := by
      have hx : (x.val : ℝ) ≤ 1 - 1 / 2 ^ 25 := by
        by_contra h
        have hq : (1 - 1 / 2 ^ 25 : ℚ) ≤ x.val := by
          have : ((1 - 1 / 2 ^ 25 : ℚ) : ℝ) ≤ x.val := by push_cast; linarith
          exact_mod_cast this
        have k := key_round_mono hq false false
        rw [key_round_val fx, show F32.round false (1 - 1 / 2 ^ 25) = lit 1 by decide +kernel] at k
        have := key_le_iff.1 k
        rw [val_lit_one] at this
        have := (Rat.cast_le (K := ℝ)).2 this
        push_cast at this
        linarith
      refine le_trans ?_ (Real.sin_le a0)
      rw [Real.sin_arccos]
      refine Real.le_sqrt_of_sq_le ?_
      nlinarith
    obtain ⟨f, e⟩ := closeFloat_close (y := Real.arccos x.val) (by rw [abs_of_nonneg a0]; linarith [Real.pi_le_four])
    refine ⟨f, e.trans ?_⟩
    rw [abs_of_nonneg a0]
    linarith

end Zcm
