import Verif.Lemmas.F32SeenDiv
import Verif.Props.C101
import Verif.Props.C102
import Verif.Spec.Sight

/-!
# C120: a point seen through `lookAt` and `perspective`, in IEEE arithmetic

`Near x r e`: the float `x` is finite and within `e` of the exact number `r`.  `viewSide`, `viewUp`, `viewDir`, `viewSine` are exact
(Spec/View.lean), `depth01` and `depth11` are the exact depths (Spec/Clip.lean), and `InSight` says which points are meant
(Spec/Sight.lean).
-/

set_option exponentiation.threshold 300

namespace Zcm

open F32
open scoped RealInnerProductSpace

private theorem norms {eye center up : V3 F32} (h : GoodView eye center up) :
    ‖viewDir (exactly eye) (exactly center)‖ = 1 ∧ ‖viewSide (exactly eye) (exactly center) (exactly up)‖ = 1 ∧
    ‖viewUp (exactly eye) (exactly center) (exactly up)‖ ≤ 1 ∧ viewSine (exactly eye) (exactly center) (exactly up) ≤ 1 := by
  have s0 : 0 < viewSine (exactly eye) (exactly center) (exactly up) := lt_of_lt_of_le (by norm_num) h.sine_ge
  obtain ⟨a, -, b, c, d⟩ := exact_frame (norm_pos_iff.1 (lt_of_lt_of_le (by norm_num) h.dist_ge)) s0
    (norm_pos_iff.1 (lt_of_lt_of_le (by norm_num) h.up_ge))
  exact ⟨a, b, c, d⟩

theorem viewOf_RH {eye center up p : V3 F32} (h : GoodView eye center up) (fp : ∀ i, (coord p i).IsFin = true)
    (hp : ‖exactly p‖ ≤ 2 ^ 60) :
    ViewOf (M4.lookAtRH eye center up) ![viewSide (exactly eye) (exactly center) (exactly up),
      viewUp (exactly eye) (exactly center) (exactly up), -viewDir (exactly eye) (exactly center)] (exactly eye)
      (viewSine (exactly eye) (exactly center) (exactly up)) p := by
  obtain ⟨nd, ns, nu, s1⟩ := norms h
  obtain ⟨m, t0, t1, t2, t3⟩ := C102_lookAtRH_matrix eye center up h
  obtain ⟨i0, i1, i2, i3⟩ := C102_lookAtRH eye center up p h fp hp
  refine ⟨m, ⟨t0, t1, ?_, t3⟩, ⟨i0, i1, ?_, i3⟩, ?_, h.sine_ge, s1⟩
  · show Near _ (-⟪-viewDir (exactly eye) (exactly center), exactly eye⟫) _
    rw [inner_neg_left, neg_neg]; exact t2
  · show Near _ ⟪-viewDir (exactly eye) (exactly center), exactly p - exactly eye⟫ _
    rw [inner_neg_left]; exact i2
  · intro i; fin_cases i
    · exact ns.le
    · exact nu
    · exact (norm_neg _).trans_le nd.le

theorem viewOf_LH {eye center up p : V3 F32} (h : GoodView eye center up) (fp : ∀ i, (coord p i).IsFin = true)
    (hp : ‖exactly p‖ ≤ 2 ^ 60) :
    ViewOf (M4.lookAtLH eye center up) ![-viewSide (exactly eye) (exactly center) (exactly up),
      viewUp (exactly eye) (exactly center) (exactly up), viewDir (exactly eye) (exactly center)] (exactly eye)
      (viewSine (exactly eye) (exactly center) (exactly up)) p := by
  obtain ⟨nd, ns, nu, s1⟩ := norms h
  obtain ⟨m, t0, t1, t2, t3⟩ := C102_lookAtLH_matrix eye center up h
  obtain ⟨i0, i1, i2, i3⟩ := C102_lookAtLH eye center up p h fp hp
  refine ⟨m, ⟨t0, t1, t2, t3⟩, ⟨i0, i1, i2, i3⟩, ?_, h.sine_ge, s1⟩
  · intro i; fin_cases i
    · exact (norm_neg _).trans_le ns.le
    · exact nu
    · exact nd.le

/-- the numbers of a lens -/
private theorem lens_bounds [Libm F32] (hl : GoodTan) {fovy aspect n f : F32} (h : Lens fovy aspect n f) :
    (0 < 1 / (aspect.val * Real.tan (fovy.val / 2)) ∧ 0 < 1 / Real.tan (fovy.val / 2)) ∧
    (1 / 2 ^ 51 ≤ |1 / (aspect.val * Real.tan (fovy.val / 2))| ∧ |1 / (aspect.val * Real.tan (fovy.val / 2))| ≤ 2 ^ 45) ∧
    (1 / 2 ^ 51 ≤ |1 / Real.tan (fovy.val / 2)| ∧ |1 / Real.tan (fovy.val / 2)| ≤ 2 ^ 45) ∧
    ((0 : ℝ) < n.val ∧ (n.val : ℝ) < f.val) ∧
    (1 ≤ (f.val : ℝ) / (f.val - n.val) ∧ (f.val : ℝ) / (f.val - n.val) ≤ 2 ^ 30) ∧
    (1 ≤ ((f.val : ℝ) + n.val) / (f.val - n.val) ∧ ((f.val : ℝ) + n.val) / (f.val - n.val) ≤ 2 ^ 30) ∧
    (f.val : ℝ) * n.val / (f.val - n.val) ≤ 2 ^ 60 ∧ 2 * (f.val : ℝ) * n.val / (f.val - n.val) ≤ 2 ^ 60 := by
  obtain ⟨t1, -, -⟩ := focal hl h
  obtain ⟨-, -, -, n0, nf, gap⟩ := depth_coefs h
  obtain ⟨s1, s2, s3, s4, s5, s6⟩ := lens_sizes t1 h.aspect_ge n0 nf h.far_le gap
  have t0 : 0 < Real.tan (fovy.val / 2) := lt_of_lt_of_le (by norm_num) t1
  have a0 : (0:ℝ) < aspect.val := lt_of_lt_of_le (by norm_num) h.aspect_ge
  have w0 := sub_pos.2 nf
  refine ⟨⟨by positivity, by positivity⟩, ⟨?_, s1⟩, ⟨?_, s2⟩, ⟨n0, nf⟩, ⟨?_, s3⟩, ⟨?_, s4⟩, s5, s6⟩
  · rw [abs_of_pos (by positivity)]
    refine one_div_le_one_div_of_le (by positivity) ?_
    calc (aspect.val : ℝ) * Real.tan (fovy.val / 2) ≤ 2 ^ 20 * 2 ^ 30 := by
          exact mul_le_mul h.aspect_le h.tan_le t0.le (by norm_num)
      _ ≤ _ := by norm_num
  · rw [abs_of_pos (by positivity)]
    exact one_div_le_one_div_of_le t0 (h.tan_le.trans (by norm_num))
  · rw [le_div_iff₀ w0]; linarith
  · rw [le_div_iff₀ w0]; linarith

private theorem screen {K r d : ℝ} (c : ℝ) (hK : K = 1 / c) : K * r / d = r / c / d := by rw [hK]; ring

private theorem depths {n f d : ℝ} (hn : 0 < n) (h : n < f) (hd : 0 < d) :
    (f / (f - n) * (1 * d) + -(f * n) / (f - n)) / d = depth01 n f d ∧
    (-f / (f - n) * (-1 * d) + -(f * n) / (f - n)) / d = depth01 n f d ∧
    ((f + n) / (f - n) * (1 * d) + -(2 * f * n) / (f - n)) / d = depth11 n f d ∧
    (-(f + n) / (f - n) * (-1 * d) + -(2 * f * n) / (f - n)) / d = depth11 n f d := by
  have w : f - n ≠ 0 := (sub_pos.2 h).ne'
  refine ⟨?_, ?_, ?_, ?_⟩
  · unfold depth01; field_simp; ring
  · unfold depth01; field_simp; ring
  · unfold depth11 depth01; field_simp; ring
  · unfold depth11 depth01; field_simp; ring

private theorem sizes {n f d : ℝ} (hn : 0 < n) (h : n < f) (hd : 0 < d) :
    (|f / (f - n)| = f / (f - n) ∧ |-f / (f - n)| = f / (f - n) ∧ |(f + n) / (f - n)| = (f + n) / (f - n) ∧
      |-(f + n) / (f - n)| = (f + n) / (f - n)) ∧
    (|-(f * n) / (f - n)| = f * n / (f - n) ∧ |-(2 * f * n) / (f - n)| = 2 * f * n / (f - n)) ∧
    f / (f - n) + f * n / (f - n) / d = f * (d + n) / (d * (f - n)) ∧
    (f + n) / (f - n) + 2 * f * n / (f - n) / d = ((f + n) * d + 2 * f * n) / (d * (f - n)) := by
  have w := sub_pos.2 h
  have f0 : 0 < f := hn.trans h
  have e1 : ∀ x : ℝ, 0 < x → |x / (f - n)| = x / (f - n) := fun x hx => abs_of_pos (by positivity)
  have e2 : ∀ x : ℝ, 0 < x → |-x / (f - n)| = x / (f - n) := fun x hx => by rw [neg_div, abs_neg, e1 x hx]
  refine ⟨⟨e1 _ f0, e2 _ f0, e1 _ (by positivity), e2 _ (by positivity)⟩, ⟨e2 _ (by positivity), e2 _ (by positivity)⟩, ?_, ?_⟩
  · field_simp
  · field_simp

/-- C120, `perspectiveRH_ZO` after `lookAtRH`: a point lands where the geometry says, in whichever order the two matrices are applied. -/
theorem C120_RH_ZO [Libm F32] (hl : GoodTan) (b : Build) (fovy aspect zNear zFar : F32) (h : Lens fovy aspect zNear zFar)
    (eye center up p : V3 F32) (hv : GoodView eye center up) (hp : InSight eye center p) :
    let n : ℝ := zNear.val
    let f : ℝ := zFar.val
    let t : ℝ := Real.tan (fovy.val / 2)
    let o := exactly p - exactly eye
    let d : ℝ := ⟪viewDir (exactly eye) (exactly center), o⟫
    let x : ℝ := ⟪viewSide (exactly eye) (exactly center) (exactly up), o⟫ / (aspect.val * t) / d
    let y : ℝ := ⟪viewUp (exactly eye) (exactly center) (exactly up), o⟫ / t / d
    let σ := viewSine (exactly eye) (exactly center) (exactly up)
    let size := ‖exactly p‖ + ‖exactly eye‖
    ∃ P, M4.perspectiveRH_ZO b fovy aspect zNear zFar = .ok P ∧
      ∀ q : V4 F32, q = (P * M4.lookAtRH eye center up) * V4.ofXYZ_W p (lit 1) ∨
          q = P * (M4.lookAtRH eye center up * V4.ofXYZ_W p (lit 1)) →
        Near (coord q 3) d (49 / 2 ^ 24 * size) ∧
        Near (coord q 0 / coord q 3) x (150 / 2 ^ 24 / σ * (size / d) * (1 / (aspect.val * t) + |x|)) ∧
        Near (coord q 1 / coord q 3) y (150 / 2 ^ 24 / σ * (size / d) * (1 / t + |y|)) ∧
        Near (coord q 2 / coord q 3) (depth01 n f d) (128 / 2 ^ 24 * (size / d) * (f * (d + n) / (d * (f - n)))) := by
  intro n f t o d x y σ size
  obtain ⟨P, hP, hE, -⟩ := C101_perspectiveRH_ZO hl b fovy aspect zNear zFar h
  obtain ⟨⟨X0, Y0⟩, bX, bY, ⟨n0, nf⟩, a1, a2, b1, b2⟩ := lens_bounds hl h
  have d0 : 0 < d := lt_of_lt_of_le (by norm_num) hp.ahead
  obtain ⟨e1, e2, e3, e4⟩ := depths n0 nf d0
  obtain ⟨⟨z1, z2, z3, z4⟩, ⟨w1, w2⟩, g1, g2⟩ := sizes n0 nf d0
  refine ⟨P, hP, fun q hq => ?_⟩
  have key := camera_point hE (viewOf_RH hv hp.fin hp.size_le) (by norm_num) hp.fin bX bY
    (by rw [z2]; exact a1) (by rw [w1]; exact b1) hp.size_le hv.eye_le (d := d)
    (by show (-1) * ⟪-viewDir (exactly eye) (exactly center), o⟫ = d; rw [inner_neg_left]; ring) hp.ahead hp.near q hq
  rw [e2, z2, w1, g1, screen _ rfl, screen _ rfl, abs_of_pos X0, abs_of_pos Y0] at key
  exact key

/-- C120, `perspectiveRH_NO` after `lookAtRH`: a point lands where the geometry says, in whichever order the two matrices are applied. -/
theorem C120_RH_NO [Libm F32] (hl : GoodTan) (b : Build) (fovy aspect zNear zFar : F32) (h : Lens fovy aspect zNear zFar)
    (eye center up p : V3 F32) (hv : GoodView eye center up) (hp : InSight eye center p) :
    let n : ℝ := zNear.val
    let f : ℝ := zFar.val
    let t : ℝ := Real.tan (fovy.val / 2)
    let o := exactly p - exactly eye
    let d : ℝ := ⟪viewDir (exactly eye) (exactly center), o⟫
    let x : ℝ := ⟪viewSide (exactly eye) (exactly center) (exactly up), o⟫ / (aspect.val * t) / d
    let y : ℝ := ⟪viewUp (exactly eye) (exactly center) (exactly up), o⟫ / t / d
    let σ := viewSine (exactly eye) (exactly center) (exactly up)
    let size := ‖exactly p‖ + ‖exactly eye‖
    ∃ P, M4.perspectiveRH_NO b fovy aspect zNear zFar = .ok P ∧
      ∀ q : V4 F32, q = (P * M4.lookAtRH eye center up) * V4.ofXYZ_W p (lit 1) ∨
          q = P * (M4.lookAtRH eye center up * V4.ofXYZ_W p (lit 1)) →
        Near (coord q 3) d (49 / 2 ^ 24 * size) ∧
        Near (coord q 0 / coord q 3) x (150 / 2 ^ 24 / σ * (size / d) * (1 / (aspect.val * t) + |x|)) ∧
        Near (coord q 1 / coord q 3) y (150 / 2 ^ 24 / σ * (size / d) * (1 / t + |y|)) ∧
        Near (coord q 2 / coord q 3) (depth11 n f d) (128 / 2 ^ 24 * (size / d) * (((f + n) * d + 2 * f * n) / (d * (f - n)))) := by
  intro n f t o d x y σ size
  obtain ⟨P, hP, hE, -⟩ := C101_perspectiveRH_NO hl b fovy aspect zNear zFar h
  obtain ⟨⟨X0, Y0⟩, bX, bY, ⟨n0, nf⟩, a1, a2, b1, b2⟩ := lens_bounds hl h
  have d0 : 0 < d := lt_of_lt_of_le (by norm_num) hp.ahead
  obtain ⟨e1, e2, e3, e4⟩ := depths n0 nf d0
  obtain ⟨⟨z1, z2, z3, z4⟩, ⟨w1, w2⟩, g1, g2⟩ := sizes n0 nf d0
  refine ⟨P, hP, fun q hq => ?_⟩
  have key := camera_point hE (viewOf_RH hv hp.fin hp.size_le) (by norm_num) hp.fin bX bY
    (by rw [z4]; exact a2) (by rw [w2]; exact b2) hp.size_le hv.eye_le (d := d)
    (by show (-1) * ⟪-viewDir (exactly eye) (exactly center), o⟫ = d; rw [inner_neg_left]; ring) hp.ahead hp.near q hq
  rw [e4, z4, w2, g2, screen _ rfl, screen _ rfl, abs_of_pos X0, abs_of_pos Y0] at key
  exact key

/-- C120, `perspectiveLH_ZO` after `lookAtLH`: a point lands where the geometry says, in whichever order the two matrices are applied. -/
theorem C120_LH_ZO [Libm F32] (hl : GoodTan) (b : Build) (fovy aspect zNear zFar : F32) (h : Lens fovy aspect zNear zFar)
    (eye center up p : V3 F32) (hv : GoodView eye center up) (hp : InSight eye center p) :
    let n : ℝ := zNear.val
    let f : ℝ := zFar.val
    let t : ℝ := Real.tan (fovy.val / 2)
    let o := exactly p - exactly eye
    let d : ℝ := ⟪viewDir (exactly eye) (exactly center), o⟫
    let x : ℝ := ⟪-viewSide (exactly eye) (exactly center) (exactly up), o⟫ / (aspect.val * t) / d
    let y : ℝ := ⟪viewUp (exactly eye) (exactly center) (exactly up), o⟫ / t / d
    let σ := viewSine (exactly eye) (exactly center) (exactly up)
    let size := ‖exactly p‖ + ‖exactly eye‖
    ∃ P, M4.perspectiveLH_ZO b fovy aspect zNear zFar = .ok P ∧
      ∀ q : V4 F32, q = (P * M4.lookAtLH eye center up) * V4.ofXYZ_W p (lit 1) ∨
          q = P * (M4.lookAtLH eye center up * V4.ofXYZ_W p (lit 1)) →
        Near (coord q 3) d (49 / 2 ^ 24 * size) ∧
        Near (coord q 0 / coord q 3) x (150 / 2 ^ 24 / σ * (size / d) * (1 / (aspect.val * t) + |x|)) ∧
        Near (coord q 1 / coord q 3) y (150 / 2 ^ 24 / σ * (size / d) * (1 / t + |y|)) ∧
        Near (coord q 2 / coord q 3) (depth01 n f d) (128 / 2 ^ 24 * (size / d) * (f * (d + n) / (d * (f - n)))) := by
  intro n f t o d x y σ size
  obtain ⟨P, hP, hE, -⟩ := C101_perspectiveLH_ZO hl b fovy aspect zNear zFar h
  obtain ⟨⟨X0, Y0⟩, bX, bY, ⟨n0, nf⟩, a1, a2, b1, b2⟩ := lens_bounds hl h
  have d0 : 0 < d := lt_of_lt_of_le (by norm_num) hp.ahead
  obtain ⟨e1, e2, e3, e4⟩ := depths n0 nf d0
  obtain ⟨⟨z1, z2, z3, z4⟩, ⟨w1, w2⟩, g1, g2⟩ := sizes n0 nf d0
  refine ⟨P, hP, fun q hq => ?_⟩
  have key := camera_point hE (viewOf_LH hv hp.fin hp.size_le) (by norm_num) hp.fin bX bY
    (by rw [z1]; exact a1) (by rw [w1]; exact b1) hp.size_le hv.eye_le (d := d)
    (by show 1 * ⟪viewDir (exactly eye) (exactly center), o⟫ = d; rw [one_mul]) hp.ahead hp.near q hq
  rw [e1, z1, w1, g1, screen _ rfl, screen _ rfl, abs_of_pos X0, abs_of_pos Y0] at key
  exact key

/-- C120, `perspectiveLH_NO` after `lookAtLH`: a point lands where the geometry says, in whichever order the two matrices are applied. -/
theorem C120_LH_NO [Libm F32] (hl : GoodTan) (b : Build) (fovy aspect zNear zFar : F32) (h : Lens fovy aspect zNear zFar)
    (eye center up p : V3 F32) (hv : GoodView eye center up) (hp : InSight eye center p) :
    let n : ℝ := zNear.val
    let f : ℝ := zFar.val
    let t : ℝ := Real.tan (fovy.val / 2)
    let o := exactly p - exactly eye
    let d : ℝ := ⟪viewDir (exactly eye) (exactly center), o⟫
    let x : ℝ := ⟪-viewSide (exactly eye) (exactly center) (exactly up), o⟫ / (aspect.val * t) / d
    let y : ℝ := ⟪viewUp (exactly eye) (exactly center) (exactly up), o⟫ / t / d
    let σ := viewSine (exactly eye) (exactly center) (exactly up)
    let size := ‖exactly p‖ + ‖exactly eye‖
    ∃ P, M4.perspectiveLH_NO b fovy aspect zNear zFar = .ok P ∧
      ∀ q : V4 F32, q = (P * M4.lookAtLH eye center up) * V4.ofXYZ_W p (lit 1) ∨
          q = P * (M4.lookAtLH eye center up * V4.ofXYZ_W p (lit 1)) →
        Near (coord q 3) d (49 / 2 ^ 24 * size) ∧
        Near (coord q 0 / coord q 3) x (150 / 2 ^ 24 / σ * (size / d) * (1 / (aspect.val * t) + |x|)) ∧
        Near (coord q 1 / coord q 3) y (150 / 2 ^ 24 / σ * (size / d) * (1 / t + |y|)) ∧
        Near (coord q 2 / coord q 3) (depth11 n f d) (128 / 2 ^ 24 * (size / d) * (((f + n) * d + 2 * f * n) / (d * (f - n)))) := by
  intro n f t o d x y σ size
  obtain ⟨P, hP, hE, -⟩ := C101_perspectiveLH_NO hl b fovy aspect zNear zFar h
  obtain ⟨⟨X0, Y0⟩, bX, bY, ⟨n0, nf⟩, a1, a2, b1, b2⟩ := lens_bounds hl h
  have d0 : 0 < d := lt_of_lt_of_le (by norm_num) hp.ahead
  obtain ⟨e1, e2, e3, e4⟩ := depths n0 nf d0
  obtain ⟨⟨z1, z2, z3, z4⟩, ⟨w1, w2⟩, g1, g2⟩ := sizes n0 nf d0
  refine ⟨P, hP, fun q hq => ?_⟩
  have key := camera_point hE (viewOf_LH hv hp.fin hp.size_le) (by norm_num) hp.fin bX bY
    (by rw [z3]; exact a2) (by rw [w2]; exact b2) hp.size_le hv.eye_le (d := d)
    (by show 1 * ⟪viewDir (exactly eye) (exactly center), o⟫ = d; rw [one_mul]) hp.ahead hp.near q hq
  rw [e3, z3, w2, g2, screen _ rfl, screen _ rfl, abs_of_pos X0, abs_of_pos Y0] at key
  exact key

private theorem centre_ahead {eye center up : V3 F32} (h : GoodView eye center up) :
    ⟪viewDir (exactly eye) (exactly center), exactly center - exactly eye⟫ = ‖exactly center - exactly eye‖ ∧
    ⟪viewSide (exactly eye) (exactly center) (exactly up), exactly center - exactly eye⟫ = 0 ∧
    ⟪viewUp (exactly eye) (exactly center) (exactly up), exactly center - exactly eye⟫ = 0 := by
  have d0 : exactly center - exactly eye ≠ 0 := norm_pos_iff.1 (lt_of_lt_of_le (by norm_num) h.dist_ge)
  have e : exactly center - exactly eye = ‖exactly center - exactly eye‖ • viewDir (exactly eye) (exactly center) :=
    (NormedSpace.norm_smul_normalize _).symm
  have n : ‖viewDir (exactly eye) (exactly center)‖ = 1 := NormedSpace.norm_normalize d0
  refine ⟨?_, ?_, ?_⟩
  · conv_lhs => rw [e]
    rw [inner_smul_right, real_inner_self_eq_norm_sq, n]
    norm_num
  · rw [e, inner_smul_right]
    unfold viewSide NormedSpace.normalize
    rw [real_inner_smul_left, inner_cross3_left, mul_zero, mul_zero]
  · rw [e, inner_smul_right]
    unfold viewUp
    rw [inner_cross3_right, mul_zero]

/-- C120, `perspectiveRH_ZO` after `lookAtRH`: the point looked at lands in the middle of the screen, at the depth of its distance. -/
theorem C120_RH_ZO_center [Libm F32] (hl : GoodTan) (b : Build) (fovy aspect zNear zFar : F32) (h : Lens fovy aspect zNear zFar)
    (eye center up : V3 F32) (hv : GoodView eye center up) (hc : ‖exactly center‖ ≤ 2 ^ 60)
    (far : 1 / 2 ^ 30 ≤ ‖exactly center - exactly eye‖)
    (near : ‖exactly center‖ + ‖exactly eye‖ ≤ 2 ^ 16 * ‖exactly center - exactly eye‖) :
    let n : ℝ := zNear.val
    let f : ℝ := zFar.val
    let t : ℝ := Real.tan (fovy.val / 2)
    let d : ℝ := ‖exactly center - exactly eye‖
    let σ := viewSine (exactly eye) (exactly center) (exactly up)
    let size := ‖exactly center‖ + ‖exactly eye‖
    ∃ P, M4.perspectiveRH_ZO b fovy aspect zNear zFar = .ok P ∧
      ∀ q : V4 F32, q = (P * M4.lookAtRH eye center up) * V4.ofXYZ_W center (lit 1) ∨
          q = P * (M4.lookAtRH eye center up * V4.ofXYZ_W center (lit 1)) →
        Near (coord q 3) d (49 / 2 ^ 24 * size) ∧
        Near (coord q 0 / coord q 3) 0 (150 / 2 ^ 24 / σ * (size / d) * (1 / (aspect.val * t))) ∧
        Near (coord q 1 / coord q 3) 0 (150 / 2 ^ 24 / σ * (size / d) * (1 / t)) ∧
        Near (coord q 2 / coord q 3) (depth01 n f d) (128 / 2 ^ 24 * (size / d) * (f * (d + n) / (d * (f - n)))) := by
  intro n f t d σ size
  obtain ⟨c1, c2, c3⟩ := centre_ahead hv
  obtain ⟨P, hP, k⟩ := C120_RH_ZO hl b fovy aspect zNear zFar h eye center up center hv
    ⟨fun i => (hv.fin i).2.1, hc, by rw [c1]; exact far, by rw [c1]; exact near⟩
  refine ⟨P, hP, fun q hq => ?_⟩
  have := k q hq
  rw [c1, c2, c3, zero_div, zero_div, zero_div, zero_div, abs_zero, add_zero, add_zero] at this
  exact this

/-- C120, `perspectiveRH_NO` after `lookAtRH`: the point looked at lands in the middle of the screen, at the depth of its distance. -/
theorem C120_RH_NO_center [Libm F32] (hl : GoodTan) (b : Build) (fovy aspect zNear zFar : F32) (h : Lens fovy aspect zNear zFar)
    (eye center up : V3 F32) (hv : GoodView eye center up) (hc : ‖exactly center‖ ≤ 2 ^ 60)
    (far : 1 / 2 ^ 30 ≤ ‖exactly center - exactly eye‖)
    (near : ‖exactly center‖ + ‖exactly eye‖ ≤ 2 ^ 16 * ‖exactly center - exactly eye‖) :
    let n : ℝ := zNear.val
    let f : ℝ := zFar.val
    let t : ℝ := Real.tan (fovy.val / 2)
    let d : ℝ := ‖exactly center - exactly eye‖
    let σ := viewSine (exactly eye) (exactly center) (exactly up)
    let size := ‖exactly center‖ + ‖exactly eye‖
    ∃ P, M4.perspectiveRH_NO b fovy aspect zNear zFar = .ok P ∧
      ∀ q : V4 F32, q = (P * M4.lookAtRH eye center up) * V4.ofXYZ_W center (lit 1) ∨
          q = P * (M4.lookAtRH eye center up * V4.ofXYZ_W center (lit 1)) →
        Near (coord q 3) d (49 / 2 ^ 24 * size) ∧
        Near (coord q 0 / coord q 3) 0 (150 / 2 ^ 24 / σ * (size / d) * (1 / (aspect.val * t))) ∧
        Near (coord q 1 / coord q 3) 0 (150 / 2 ^ 24 / σ * (size / d) * (1 / t)) ∧
        Near (coord q 2 / coord q 3) (depth11 n f d) (128 / 2 ^ 24 * (size / d) * (((f + n) * d + 2 * f * n) / (d * (f - n)))) := by
  intro n f t d σ size
  obtain ⟨c1, c2, c3⟩ := centre_ahead hv
  obtain ⟨P, hP, k⟩ := C120_RH_NO hl b fovy aspect zNear zFar h eye center up center hv
    ⟨fun i => (hv.fin i).2.1, hc, by rw [c1]; exact far, by rw [c1]; exact near⟩
  refine ⟨P, hP, fun q hq => ?_⟩
  have := k q hq
  rw [c1, c2, c3, zero_div, zero_div, zero_div, zero_div, abs_zero, add_zero, add_zero] at this
  exact this

/-- C120, `perspectiveLH_ZO` after `lookAtLH`: the point looked at lands in the middle of the screen, at the depth of its distance. -/
theorem C120_LH_ZO_center [Libm F32] (hl : GoodTan) (b : Build) (fovy aspect zNear zFar : F32) (h : Lens fovy aspect zNear zFar)
    (eye center up : V3 F32) (hv : GoodView eye center up) (hc : ‖exactly center‖ ≤ 2 ^ 60)
    (far : 1 / 2 ^ 30 ≤ ‖exactly center - exactly eye‖)
    (near : ‖exactly center‖ + ‖exactly eye‖ ≤ 2 ^ 16 * ‖exactly center - exactly eye‖) :
    let n : ℝ := zNear.val
    let f : ℝ := zFar.val
    let t : ℝ := Real.tan (fovy.val / 2)
    let d : ℝ := ‖exactly center - exactly eye‖
    let σ := viewSine (exactly eye) (exactly center) (exactly up)
    let size := ‖exactly center‖ + ‖exactly eye‖
    ∃ P, M4.perspectiveLH_ZO b fovy aspect zNear zFar = .ok P ∧
      ∀ q : V4 F32, q = (P * M4.lookAtLH eye center up) * V4.ofXYZ_W center (lit 1) ∨
          q = P * (M4.lookAtLH eye center up * V4.ofXYZ_W center (lit 1)) →
        Near (coord q 3) d (49 / 2 ^ 24 * size) ∧
        Near (coord q 0 / coord q 3) 0 (150 / 2 ^ 24 / σ * (size / d) * (1 / (aspect.val * t))) ∧
        Near (coord q 1 / coord q 3) 0 (150 / 2 ^ 24 / σ * (size / d) * (1 / t)) ∧
        Near (coord q 2 / coord q 3) (depth01 n f d) (128 / 2 ^ 24 * (size / d) * (f * (d + n) / (d * (f - n)))) := by
  intro n f t d σ size
  obtain ⟨c1, c2, c3⟩ := centre_ahead hv
  obtain ⟨P, hP, k⟩ := C120_LH_ZO hl b fovy aspect zNear zFar h eye center up center hv
    ⟨fun i => (hv.fin i).2.1, hc, by rw [c1]; exact far, by rw [c1]; exact near⟩
  refine ⟨P, hP, fun q hq => ?_⟩
  have := k q hq
  rw [c1, inner_neg_left, c2, c3, neg_zero, zero_div, zero_div, zero_div, zero_div, abs_zero, add_zero, add_zero] at this
  exact this

/-- C120, `perspectiveLH_NO` after `lookAtLH`: the point looked at lands in the middle of the screen, at the depth of its distance. -/
theorem C120_LH_NO_center [Libm F32] (hl : GoodTan) (b : Build) (fovy aspect zNear zFar : F32) (h : Lens fovy aspect zNear zFar)
    (eye center up : V3 F32) (hv : GoodView eye center up) (hc : ‖exactly center‖ ≤ 2 ^ 60)
    (far : 1 / 2 ^ 30 ≤ ‖exactly center - exactly eye‖)
    (near : ‖exactly center‖ + ‖exactly eye‖ ≤ 2 ^ 16 * ‖exactly center - exactly eye‖) :
    let n : ℝ := zNear.val
    let f : ℝ := zFar.val
    let t : ℝ := Real.tan (fovy.val / 2)
    let d : ℝ := ‖exactly center - exactly eye‖
    let σ := viewSine (exactly eye) (exactly center) (exactly up)
    let size := ‖exactly center‖ + ‖exactly eye‖
    ∃ P, M4.perspectiveLH_NO b fovy aspect zNear zFar = .ok P ∧
      ∀ q : V4 F32, q = (P * M4.lookAtLH eye center up) * V4.ofXYZ_W center (lit 1) ∨
          q = P * (M4.lookAtLH eye center up * V4.ofXYZ_W center (lit 1)) →
        Near (coord q 3) d (49 / 2 ^ 24 * size) ∧
        Near (coord q 0 / coord q 3) 0 (150 / 2 ^ 24 / σ * (size / d) * (1 / (aspect.val * t))) ∧
        Near (coord q 1 / coord q 3) 0 (150 / 2 ^ 24 / σ * (size / d) * (1 / t)) ∧
        Near (coord q 2 / coord q 3) (depth11 n f d) (128 / 2 ^ 24 * (size / d) * (((f + n) * d + 2 * f * n) / (d * (f - n)))) := by
  intro n f t d σ size
  obtain ⟨c1, c2, c3⟩ := centre_ahead hv
  obtain ⟨P, hP, k⟩ := C120_LH_NO hl b fovy aspect zNear zFar h eye center up center hv
    ⟨fun i => (hv.fin i).2.1, hc, by rw [c1]; exact far, by rw [c1]; exact near⟩
  refine ⟨P, hP, fun q hq => ?_⟩
  have := k q hq
  rw [c1, inner_neg_left, c2, c3, neg_zero, zero_div, zero_div, zero_div, zero_div, abs_zero, add_zero, add_zero] at this
  exact this

/-- C120, orders: multiplying the matrices first or applying them one after the other gives nearly the same place on the screen. -/
theorem C120_orders [Libm F32] (hl : GoodTan) (b : Build) (fovy aspect zNear zFar : F32) (h : Lens fovy aspect zNear zFar)
    (eye center up p : V3 F32) (hv : GoodView eye center up) (hp : InSight eye center p) :
    let t : ℝ := Real.tan (fovy.val / 2)
    let o := exactly p - exactly eye
    let d : ℝ := ⟪viewDir (exactly eye) (exactly center), o⟫
    let x : ℝ := ⟪viewSide (exactly eye) (exactly center) (exactly up), o⟫ / (aspect.val * t) / d
    let y : ℝ := ⟪viewUp (exactly eye) (exactly center) (exactly up), o⟫ / t / d
    let σ := viewSine (exactly eye) (exactly center) (exactly up)
    let size := ‖exactly p‖ + ‖exactly eye‖
    ∃ P, M4.perspectiveRH_NO b fovy aspect zNear zFar = .ok P ∧
      let q := (P * M4.lookAtRH eye center up) * V4.ofXYZ_W p (lit 1)
      let r := P * (M4.lookAtRH eye center up * V4.ofXYZ_W p (lit 1))
      |((coord q 0 / coord q 3).val : ℝ) - (coord r 0 / coord r 3).val| ≤
          300 / 2 ^ 24 / σ * (size / d) * (1 / (aspect.val * t) + |x|) ∧
        |((coord q 1 / coord q 3).val : ℝ) - (coord r 1 / coord r 3).val| ≤ 300 / 2 ^ 24 / σ * (size / d) * (1 / t + |y|) := by
  intro t o d x y σ size
  obtain ⟨P, hP, k⟩ := C120_RH_NO hl b fovy aspect zNear zFar h eye center up p hv hp
  refine ⟨P, hP, ?_⟩
  intro q r
  obtain ⟨-, x1, y1, -⟩ := k q (.inl rfl)
  obtain ⟨-, x2, y2, -⟩ := k r (.inr rfl)
  have two : ∀ {u v c e : ℝ}, |u - c| ≤ 150 / 2 ^ 24 / σ * (size / d) * e → |v - c| ≤ 150 / 2 ^ 24 / σ * (size / d) * e →
      |u - v| ≤ 300 / 2 ^ 24 / σ * (size / d) * e := fun {u v c e} h1 h2 => by
    rw [abs_sub_comm] at h2
    have := (abs_sub_le u c v).trans (add_le_add h1 h2)
    exact this.trans (le_of_eq (by ring))
  exact ⟨two x1.2 x2.2, two y1.2 y2.2⟩

/-! ## Non-vacuity: a camera at (1, 2, 2) looking at (2, 4, 4) sees (2, 4, 5) (`Lens`, `GoodView`, `GoodTan`: see C101, C102) -/

example : InSight ⟨lit 1, lit 2, lit 2⟩ ⟨lit 2, lit 4, lit 4⟩ ⟨lit 2, lit 4, lit 5⟩ := by
  have v1 : (lit 1 : F32).val = 1 := by decide +kernel
  have v2 : (lit 2 : F32).val = 2 := by decide +kernel
  have v4 : (lit 4 : F32).val = 4 := by decide +kernel
  have v5 : (lit 5 : F32).val = 5 := by decide +kernel
  have e1 : exactly ⟨lit 1, lit 2, lit 2⟩ = !₂[1, 2, 2] := by
    ext i
    fin_cases i
    · show ((lit 1 : F32).val : ℝ) = 1; rw [v1]; norm_num
    · show ((lit 2 : F32).val : ℝ) = 2; rw [v2]; norm_num
    · show ((lit 2 : F32).val : ℝ) = 2; rw [v2]; norm_num
  have e2 : exactly ⟨lit 2, lit 4, lit 4⟩ = !₂[2, 4, 4] := by
    ext i
    fin_cases i
    · show ((lit 2 : F32).val : ℝ) = 2; rw [v2]; norm_num
    · show ((lit 4 : F32).val : ℝ) = 4; rw [v4]; norm_num
    · show ((lit 4 : F32).val : ℝ) = 4; rw [v4]; norm_num
  have e3 : exactly ⟨lit 2, lit 4, lit 5⟩ = !₂[2, 4, 5] := by
    ext i
    fin_cases i
    · show ((lit 2 : F32).val : ℝ) = 2; rw [v2]; norm_num
    · show ((lit 4 : F32).val : ℝ) = 4; rw [v4]; norm_num
    · show ((lit 5 : F32).val : ℝ) = 5; rw [v5]; norm_num
  have n1 : ‖(!₂[1, 2, 2] : Space)‖ = 3 := by
    rw [EuclideanSpace.norm_eq, Fin.sum_univ_three, Real.sqrt_eq_iff_mul_self_eq_of_pos (by norm_num)]
    norm_num [show (![1, 2, 2] : Fin 3 → ℝ) 2 = 2 from rfl]
  have n3 : ‖(!₂[2, 4, 5] : Space)‖ ≤ 7 := by
    rw [EuclideanSpace.norm_eq, Fin.sum_univ_three, Real.sqrt_le_left (by norm_num)]
    norm_num [show (![2, 4, 5] : Fin 3 → ℝ) 2 = 5 from rfl]
  have d1 : (!₂[2, 4, 4] : Space) - !₂[1, 2, 2] = !₂[1, 2, 2] := by ext i; fin_cases i <;> norm_num
  have d2 : (!₂[2, 4, 5] : Space) - !₂[1, 2, 2] = !₂[1, 2, 3] := by ext i; fin_cases i <;> norm_num
  have d : ⟪viewDir (exactly ⟨lit 1, lit 2, lit 2⟩) (exactly ⟨lit 2, lit 4, lit 4⟩),
      exactly ⟨lit 2, lit 4, lit 5⟩ - exactly ⟨lit 1, lit 2, lit 2⟩⟫ = 11 / 3 := by
    rw [e1, e2, e3, d2]
    unfold viewDir NormedSpace.normalize
    rw [d1, n1, real_inner_smul_left]
    have : ⟪(!₂[1, 2, 2] : Space), !₂[1, 2, 3]⟫ = 11 := by
      rw [PiLp.inner_apply, Fin.sum_univ_three]
      norm_num [show (![1, 2, 2] : Fin 3 → ℝ) 2 = 2 from rfl, show (![1, 2, 3] : Fin 3 → ℝ) 2 = 3 from rfl]
    rw [this]; norm_num
  refine ⟨fun i => ?_, by rw [e3]; exact n3.trans (by norm_num), by rw [d]; norm_num, ?_⟩
  · fin_cases i <;> decide +kernel
  · rw [d, e1, e3, n1]; linarith

end Zcm
