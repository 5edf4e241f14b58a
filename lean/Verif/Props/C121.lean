import Verif.Lemmas.F32Order
import Verif.Props.C101
import Verif.Props.C120

/-!
# C121: projections and the order of points, in IEEE arithmetic

`x ≤ y` and `x < y` compare floats as the hardware does.  `Sides`, `Coordinate`, `Lens`, `InFront` (Spec/Clip.lean), `GoodView`
(Spec/View.lean), `InSight` (Spec/Sight.lean): finite, nothing absurdly large or small.
-/

set_option exponentiation.threshold 300

namespace Zcm

open F32
open scoped RealInnerProductSpace

private theorem width {lo hi : F32} (h : Sides lo hi) (lt : lo < hi) : (0 : ℝ) < hi.val - lo.val ∧ (hi.val : ℝ) - lo.val ≤ 2 ^ 61 := by
  have : lo.val < hi.val := key_lt_iff.1 lt.2.2
  exact ⟨sub_pos.2 (Rat.cast_lt.2 this), (le_abs_self _).trans h.width.1⟩

private theorem scale_pos {lo hi : F32} {a : ℝ} (h : Sides lo hi) (lt : lo < hi) (ha : 1 ≤ a) : 1 / 2 ^ 62 ≤ a / (hi.val - lo.val) := by
  obtain ⟨w0, w1⟩ := width h lt
  rw [le_div_iff₀ w0]
  linarith

private theorem four_fin {v : V4 F32} {a b c d e f g k : ℝ} (h : Near (coord v 0) a b ∧ Near (coord v 1) c d ∧ Near (coord v 2) e f ∧ Near (coord v 3) g k) :
    ∀ i, (coord v i).IsFin = true := by
  obtain ⟨h0, h1, h2, h3⟩ := h
  intro i
  fin_cases i
  exacts [h0.1, h1.1, h2.1, h3.1]

/-- C121, `ortho`: the order of points along each axis is never reversed; a larger z (nearer to the viewer) gives a smaller depth. -/
theorem C121_ortho (left right bottom top : F32) (hx : Sides left right) (hy : Sides bottom top)
    (lx : left < right) (ly : bottom < top) (p q : V3 F32) (hp : ∀ i, Coordinate (coord p i)) (hq : ∀ i, Coordinate (coord q i)) :
    let u := M4.ortho left right bottom top * V4.ofXYZ_W p (lit 1)
    let v := M4.ortho left right bottom top * V4.ofXYZ_W q (lit 1)
    (p.x ≤ q.x → coord u 0 ≤ coord v 0) ∧ (p.y ≤ q.y → coord u 1 ≤ coord v 1) ∧ (p.z ≤ q.z → coord v 2 ≤ coord u 2) := by
  intro u v
  obtain ⟨o1, o2, o3, o4⟩ := box_order (by constructor <;> exact isZ_lit) rfl (C101_ortho_matrix left right bottom top hx hy)
    (scale_pos hx lx (by norm_num)) (scale_pos hy ly (by norm_num)) (fun i => (hp i).1) (fun i => (hq i).1)
    (four_fin (C101_ortho left right bottom top hx hy p hp)) (four_fin (C101_ortho left right bottom top hx hy q hq))
  exact ⟨o1, o2, o4 (by norm_num)⟩

/-- C121, `orthoLH_ZO`: the order of points along each axis is never reversed; a larger z gives a larger depth. -/
theorem C121_orthoLH_ZO (left right bottom top zNear zFar : F32) (hx : Sides left right) (hy : Sides bottom top) (hz : Sides zNear zFar) (lz : zNear < zFar)
    (lx : left < right) (ly : bottom < top) (p q : V3 F32) (hp : ∀ i, Coordinate (coord p i)) (hq : ∀ i, Coordinate (coord q i)) :
    let u := M4.orthoLH_ZO left right bottom top zNear zFar * V4.ofXYZ_W p (lit 1)
    let v := M4.orthoLH_ZO left right bottom top zNear zFar * V4.ofXYZ_W q (lit 1)
    (p.x ≤ q.x → coord u 0 ≤ coord v 0) ∧ (p.y ≤ q.y → coord u 1 ≤ coord v 1) ∧ (p.z ≤ q.z → coord u 2 ≤ coord v 2) := by
  intro u v
  obtain ⟨o1, o2, o3, o4⟩ := box_order (by constructor <;> exact isZ_lit) rfl (C101_orthoLH_ZO_matrix left right bottom top zNear zFar hx hy hz)
    (scale_pos hx lx (by norm_num)) (scale_pos hy ly (by norm_num)) (fun i => (hp i).1) (fun i => (hq i).1)
    (four_fin (C101_orthoLH_ZO left right bottom top zNear zFar hx hy hz p hp)) (four_fin (C101_orthoLH_ZO left right bottom top zNear zFar hx hy hz q hq))
  exact ⟨o1, o2, o3 (scale_pos hz lz (by norm_num))⟩

/-- C121, `orthoRH_ZO`: the order of points along each axis is never reversed; a larger z (nearer to the viewer) gives a smaller depth. -/
theorem C121_orthoRH_ZO (left right bottom top zNear zFar : F32) (hx : Sides left right) (hy : Sides bottom top) (hz : Sides zNear zFar) (lz : zNear < zFar)
    (lx : left < right) (ly : bottom < top) (p q : V3 F32) (hp : ∀ i, Coordinate (coord p i)) (hq : ∀ i, Coordinate (coord q i)) :
    let u := M4.orthoRH_ZO left right bottom top zNear zFar * V4.ofXYZ_W p (lit 1)
    let v := M4.orthoRH_ZO left right bottom top zNear zFar * V4.ofXYZ_W q (lit 1)
    (p.x ≤ q.x → coord u 0 ≤ coord v 0) ∧ (p.y ≤ q.y → coord u 1 ≤ coord v 1) ∧ (p.z ≤ q.z → coord v 2 ≤ coord u 2) := by
  intro u v
  obtain ⟨o1, o2, o3, o4⟩ := box_order (by constructor <;> exact isZ_lit) rfl (C101_orthoRH_ZO_matrix left right bottom top zNear zFar hx hy hz)
    (scale_pos hx lx (by norm_num)) (scale_pos hy ly (by norm_num)) (fun i => (hp i).1) (fun i => (hq i).1)
    (four_fin (C101_orthoRH_ZO left right bottom top zNear zFar hx hy hz p hp)) (four_fin (C101_orthoRH_ZO left right bottom top zNear zFar hx hy hz q hq))
  exact ⟨o1, o2, o4 (by rw [← neg_div, neg_neg]; exact scale_pos hz lz (by norm_num))⟩

/-- C121, `orthoLH_NO`: the order of points along each axis is never reversed; a larger z gives a larger depth. -/
theorem C121_orthoLH_NO (left right bottom top zNear zFar : F32) (hx : Sides left right) (hy : Sides bottom top) (hz : Sides zNear zFar) (lz : zNear < zFar)
    (lx : left < right) (ly : bottom < top) (p q : V3 F32) (hp : ∀ i, Coordinate (coord p i)) (hq : ∀ i, Coordinate (coord q i)) :
    let u := M4.orthoLH_NO left right bottom top zNear zFar * V4.ofXYZ_W p (lit 1)
    let v := M4.orthoLH_NO left right bottom top zNear zFar * V4.ofXYZ_W q (lit 1)
    (p.x ≤ q.x → coord u 0 ≤ coord v 0) ∧ (p.y ≤ q.y → coord u 1 ≤ coord v 1) ∧ (p.z ≤ q.z → coord u 2 ≤ coord v 2) := by
  intro u v
  obtain ⟨o1, o2, o3, o4⟩ := box_order (by constructor <;> exact isZ_lit) rfl (C101_orthoLH_NO_matrix left right bottom top zNear zFar hx hy hz)
    (scale_pos hx lx (by norm_num)) (scale_pos hy ly (by norm_num)) (fun i => (hp i).1) (fun i => (hq i).1)
    (four_fin (C101_orthoLH_NO left right bottom top zNear zFar hx hy hz p hp)) (four_fin (C101_orthoLH_NO left right bottom top zNear zFar hx hy hz q hq))
  exact ⟨o1, o2, o3 (scale_pos hz lz (by norm_num))⟩

/-- C121, `orthoRH_NO`: the order of points along each axis is never reversed; a larger z (nearer to the viewer) gives a smaller depth. -/
theorem C121_orthoRH_NO (left right bottom top zNear zFar : F32) (hx : Sides left right) (hy : Sides bottom top) (hz : Sides zNear zFar) (lz : zNear < zFar)
    (lx : left < right) (ly : bottom < top) (p q : V3 F32) (hp : ∀ i, Coordinate (coord p i)) (hq : ∀ i, Coordinate (coord q i)) :
    let u := M4.orthoRH_NO left right bottom top zNear zFar * V4.ofXYZ_W p (lit 1)
    let v := M4.orthoRH_NO left right bottom top zNear zFar * V4.ofXYZ_W q (lit 1)
    (p.x ≤ q.x → coord u 0 ≤ coord v 0) ∧ (p.y ≤ q.y → coord u 1 ≤ coord v 1) ∧ (p.z ≤ q.z → coord v 2 ≤ coord u 2) := by
  intro u v
  obtain ⟨o1, o2, o3, o4⟩ := box_order (by constructor <;> exact isZ_lit) rfl (C101_orthoRH_NO_matrix left right bottom top zNear zFar hx hy hz)
    (scale_pos hx lx (by norm_num)) (scale_pos hy ly (by norm_num)) (fun i => (hp i).1) (fun i => (hq i).1)
    (four_fin (C101_orthoRH_NO left right bottom top zNear zFar hx hy hz p hp)) (four_fin (C101_orthoRH_NO left right bottom top zNear zFar hx hy hz q hq))
  exact ⟨o1, o2, o4 (by rw [← neg_div, neg_neg]; exact scale_pos hz lz (by norm_num))⟩

private theorem lens_planes {fovy aspect n f : F32} (h : Lens fovy aspect n f) : (0 : ℝ) < n.val ∧ (n.val : ℝ) < f.val := by
  obtain ⟨-, -, -, n0, nf, -⟩ := depth_coefs h
  exact ⟨n0, nf⟩

private theorem gap_ZO {n f d d' : ℝ} (hn : 0 < n) (h : n < f) (h0 : 0 < d) (h1 : 0 < d')
    (g : 8 / 2 ^ 24 * (2 * (d * d') / n + d + d') ≤ d' - d) :
    depth01 n f d + (7 / 2 ^ 24 * (f * (d + n) / (d * (f - n))) + 1 / 2 ^ 117) <
      depth01 n f d' - (7 / 2 ^ 24 * (f * (d' + n) / (d' * (f - n))) + 1 / 2 ^ 117) := by
  have G := depth_gap hn h h0 h1
  have w := sub_pos.2 h
  have F1 : 1 ≤ f / (f - n) := by rw [le_div_iff₀ w]; linarith
  have e1 : ∀ x : ℝ, 0 < x → f * (x + n) / (x * (f - n)) = f / (f - n) * (1 + n / x) := fun x hx => by field_simp
  rw [e1 d h0, e1 d' h1]
  generalize f / (f - n) = F at *
  have k : 8 / 2 ^ 24 * (2 + n / d + n / d') ≤ n * (d' - d) / (d * d') := by
    rw [le_div_iff₀ (by positivity)]
    have := mul_le_mul_of_nonneg_left g hn.le
    refine le_trans (le_of_eq ?_) this
    field_simp
    ring
  have a0 : 0 < n / d := by positivity
  have a1 : 0 < n / d' := by positivity
  generalize n / d = a at *
  generalize n / d' = b at *
  generalize n * (d' - d) / (d * d') = c at *
  have m1 : F * (8 / 2 ^ 24 * (2 + a + b)) ≤ F * c := by gcongr
  have m2 : 0 < F * (a + b) := by positivity
  linarith

private theorem gap_NO {n f d d' : ℝ} (hn : 0 < n) (h : n < f) (h0 : 0 < d) (h1 : 0 < d')
    (g : 8 / 2 ^ 24 * (2 * (d * d') / n + d + d') ≤ d' - d) :
    depth11 n f d + (7 / 2 ^ 24 * (((f + n) * d + 2 * f * n) / (d * (f - n))) + 1 / 2 ^ 117) <
      depth11 n f d' - (7 / 2 ^ 24 * (((f + n) * d' + 2 * f * n) / (d' * (f - n))) + 1 / 2 ^ 117) := by
  have k := gap_ZO hn h h0 h1 g
  have w := sub_pos.2 h
  have e : ∀ x : ℝ, 0 < x → ((f + n) * x + 2 * f * n) / (x * (f - n)) ≤ 2 * (f * (x + n) / (x * (f - n))) := fun x hx => by
    rw [← mul_div_assoc]
    refine div_le_div_of_nonneg_right ?_ (by positivity)
    have := mul_le_mul_of_nonneg_right h.le hx.le
    linarith
  have := e d h0
  have := e d' h1
  unfold depth11
  linarith

private theorem far_ZO {n f d d' S S' : ℝ} (hn : 0 < n) (h : n < f) (h0 : 0 < d) (h1 : 0 < d') (s0 : 0 < S) (s1 : 0 ≤ S')
    (g : 129 / 2 ^ 24 * (S * (d + n) * (d' / d) + S' * (d' + n) * (d / d')) ≤ n * (d' - d)) :
    depth01 n f d + 128 / 2 ^ 24 * (S / d) * (f * (d + n) / (d * (f - n))) <
      depth01 n f d' - 128 / 2 ^ 24 * (S' / d') * (f * (d' + n) / (d' * (f - n))) := by
  have G := depth_gap hn h h0 h1
  have w := sub_pos.2 h
  have F1 : 1 ≤ f / (f - n) := by rw [le_div_iff₀ w]; linarith
  have e1 : ∀ x : ℝ, 0 < x → f * (x + n) / (x * (f - n)) = f / (f - n) * ((x + n) / x) := fun x hx => by field_simp
  rw [e1 d h0, e1 d' h1]
  generalize f / (f - n) = F at *
  have k : 129 / 2 ^ 24 * (S / d * ((d + n) / d) + S' / d' * ((d' + n) / d')) ≤ n * (d' - d) / (d * d') := by
    rw [le_div_iff₀ (by positivity)]
    refine le_trans (le_of_eq ?_) g
    field_simp
  have a0 : 0 < S / d * ((d + n) / d) := by positivity
  have a1 : 0 ≤ S' / d' * ((d' + n) / d') := by positivity
  have e2 : 128 / 2 ^ 24 * (S / d) * (F * ((d + n) / d)) = 128 / 2 ^ 24 * (F * (S / d * ((d + n) / d))) := by ring
  have e3 : 128 / 2 ^ 24 * (S' / d') * (F * ((d' + n) / d')) = 128 / 2 ^ 24 * (F * (S' / d' * ((d' + n) / d'))) := by ring
  rw [e2, e3]
  generalize S / d * ((d + n) / d) = a at *
  generalize S' / d' * ((d' + n) / d') = b at *
  generalize n * (d' - d) / (d * d') = c at *
  have m1 : F * (129 / 2 ^ 24 * (a + b)) ≤ F * c := by gcongr
  have m2 : 0 < F * a := by positivity
  have m3 : 0 ≤ F * b := by positivity
  linarith

private theorem far_NO {n f d d' S S' : ℝ} (hn : 0 < n) (h : n < f) (h0 : 0 < d) (h1 : 0 < d') (s0 : 0 < S) (s1 : 0 ≤ S')
    (g : 129 / 2 ^ 24 * (S * (d + n) * (d' / d) + S' * (d' + n) * (d / d')) ≤ n * (d' - d)) :
    depth11 n f d + 128 / 2 ^ 24 * (S / d) * (((f + n) * d + 2 * f * n) / (d * (f - n))) <
      depth11 n f d' - 128 / 2 ^ 24 * (S' / d') * (((f + n) * d' + 2 * f * n) / (d' * (f - n))) := by
  have k := far_ZO hn h h0 h1 s0 s1 g
  have w := sub_pos.2 h
  have e : ∀ x T : ℝ, 0 < x → 0 ≤ T → 128 / 2 ^ 24 * (T / x) * (((f + n) * x + 2 * f * n) / (x * (f - n))) ≤
      2 * (128 / 2 ^ 24 * (T / x) * (f * (x + n) / (x * (f - n)))) := fun x T hx hT => by
    have : ((f + n) * x + 2 * f * n) / (x * (f - n)) ≤ 2 * (f * (x + n) / (x * (f - n))) := by
      rw [← mul_div_assoc]
      refine div_le_div_of_nonneg_right ?_ (by positivity)
      have := mul_le_mul_of_nonneg_right h.le hx.le
      linarith
    refine (mul_le_mul_of_nonneg_left this (by positivity)).trans (le_of_eq (by ring))
  have := e d S h0 s0.le
  have := e d' S' h1 s1
  unfold depth11
  linarith

/-- C121, `perspectiveLH_ZO`: at equal depth left and right, below and above are never swapped and the computed depths are equal; of two
points whose distances differ enough, the nearer one gets the smaller depth. -/
theorem C121_perspectiveLH_ZO [Libm F32] (hl : GoodTan) (b : Build) (fovy aspect zNear zFar : F32)
    (h : Lens fovy aspect zNear zFar) :
    ∃ M, M4.perspectiveLH_ZO b fovy aspect zNear zFar = .ok M ∧
      ∀ p q : V3 F32, InFront p p.z.val → InFront q q.z.val →
        let u := M * V4.ofXYZ_W p (lit 1)
        let v := M * V4.ofXYZ_W q (lit 1)
        let n : ℝ := zNear.val
        let d : ℝ := p.z.val
        let d' : ℝ := q.z.val
        (p.z = q.z → (p.x ≤ q.x → coord u 0 / coord u 3 ≤ coord v 0 / coord v 3) ∧
          (p.y ≤ q.y → coord u 1 / coord u 3 ≤ coord v 1 / coord v 3) ∧
          (coord u 2 / coord u 3).val = (coord v 2 / coord v 3).val) ∧
        (8 / 2 ^ 24 * (2 * (d * d') / n + d + d') ≤ d' - d → coord u 2 / coord u 3 < coord v 2 / coord v 3) := by
  obtain ⟨M, hM, hE, pt⟩ := C101_perspectiveLH_ZO hl b fovy aspect zNear zFar h
  refine ⟨M, hM, fun p q hp hq => ?_⟩
  intro u v n d d'
  obtain ⟨n0, nf⟩ := lens_planes h
  have d0 : 0 < d := lt_of_lt_of_le (by norm_num) hp.2.2.2.1
  have d0' : 0 < d' := lt_of_lt_of_le (by norm_num) hq.2.2.2.1
  obtain ⟨kp, -, -, zp⟩ := pt p hp
  obtain ⟨kq, -, -, zq⟩ := pt q hq
  refine ⟨fun e => ?_, fun g => near_lt zp zq (gap_ZO n0 nf d0 d0' g)⟩
  have fp : ∀ i, (coord p i).IsFin = true := fun i => by fin_cases i; exacts [hp.1.1, hp.1.2.1, hp.1.2.2]
  have fq : ∀ i, (coord q i).IsFin = true := fun i => by fin_cases i; exacts [hq.1.1, hq.1.2.1, hq.1.2.2]
  obtain ⟨t1, -, -⟩ := focal hl h
  have t0 : 0 < Real.tan (fovy.val / 2) := lt_of_lt_of_le (by norm_num) t1
  have a0 : (0:ℝ) < aspect.val := lt_of_lt_of_le (by norm_num) h.aspect_ge
  have wq := kq.2.2.2
  rw [← e] at wq
  exact frust_order hE (by positivity) (by positivity) fp fq d0 e (four_fin kp) (four_fin kq) kp.2.2.2 wq

/-- C121, `perspectiveLH_NO`: at equal depth left and right, below and above are never swapped and the computed depths are equal; of two
points whose distances differ enough, the nearer one gets the smaller depth. -/
theorem C121_perspectiveLH_NO [Libm F32] (hl : GoodTan) (b : Build) (fovy aspect zNear zFar : F32)
    (h : Lens fovy aspect zNear zFar) :
    ∃ M, M4.perspectiveLH_NO b fovy aspect zNear zFar = .ok M ∧
      ∀ p q : V3 F32, InFront p p.z.val → InFront q q.z.val →
        let u := M * V4.ofXYZ_W p (lit 1)
        let v := M * V4.ofXYZ_W q (lit 1)
        let n : ℝ := zNear.val
        let d : ℝ := p.z.val
        let d' : ℝ := q.z.val
        (p.z = q.z → (p.x ≤ q.x → coord u 0 / coord u 3 ≤ coord v 0 / coord v 3) ∧
          (p.y ≤ q.y → coord u 1 / coord u 3 ≤ coord v 1 / coord v 3) ∧
          (coord u 2 / coord u 3).val = (coord v 2 / coord v 3).val) ∧
        (8 / 2 ^ 24 * (2 * (d * d') / n + d + d') ≤ d' - d → coord u 2 / coord u 3 < coord v 2 / coord v 3) := by
  obtain ⟨M, hM, hE, pt⟩ := C101_perspectiveLH_NO hl b fovy aspect zNear zFar h
  refine ⟨M, hM, fun p q hp hq => ?_⟩
  intro u v n d d'
  obtain ⟨n0, nf⟩ := lens_planes h
  have d0 : 0 < d := lt_of_lt_of_le (by norm_num) hp.2.2.2.1
  have d0' : 0 < d' := lt_of_lt_of_le (by norm_num) hq.2.2.2.1
  obtain ⟨kp, -, -, zp⟩ := pt p hp
  obtain ⟨kq, -, -, zq⟩ := pt q hq
  refine ⟨fun e => ?_, fun g => near_lt zp zq (gap_NO n0 nf d0 d0' g)⟩
  have fp : ∀ i, (coord p i).IsFin = true := fun i => by fin_cases i; exacts [hp.1.1, hp.1.2.1, hp.1.2.2]
  have fq : ∀ i, (coord q i).IsFin = true := fun i => by fin_cases i; exacts [hq.1.1, hq.1.2.1, hq.1.2.2]
  obtain ⟨t1, -, -⟩ := focal hl h
  have t0 : 0 < Real.tan (fovy.val / 2) := lt_of_lt_of_le (by norm_num) t1
  have a0 : (0:ℝ) < aspect.val := lt_of_lt_of_le (by norm_num) h.aspect_ge
  have wq := kq.2.2.2
  rw [← e] at wq
  exact frust_order hE (by positivity) (by positivity) fp fq d0 e (four_fin kp) (four_fin kq) kp.2.2.2 wq

/-- C121, `perspectiveRH_ZO`: at equal depth left and right, below and above are never swapped and the computed depths are equal; of two
points whose distances differ enough, the nearer one gets the smaller depth. -/
theorem C121_perspectiveRH_ZO [Libm F32] (hl : GoodTan) (b : Build) (fovy aspect zNear zFar : F32)
    (h : Lens fovy aspect zNear zFar) :
    ∃ M, M4.perspectiveRH_ZO b fovy aspect zNear zFar = .ok M ∧
      ∀ p q : V3 F32, InFront p (-p.z.val) → InFront q (-q.z.val) →
        let u := M * V4.ofXYZ_W p (lit 1)
        let v := M * V4.ofXYZ_W q (lit 1)
        let n : ℝ := zNear.val
        let d : ℝ := (-p.z.val)
        let d' : ℝ := (-q.z.val)
        (p.z = q.z → (p.x ≤ q.x → coord u 0 / coord u 3 ≤ coord v 0 / coord v 3) ∧
          (p.y ≤ q.y → coord u 1 / coord u 3 ≤ coord v 1 / coord v 3) ∧
          (coord u 2 / coord u 3).val = (coord v 2 / coord v 3).val) ∧
        (8 / 2 ^ 24 * (2 * (d * d') / n + d + d') ≤ d' - d → coord u 2 / coord u 3 < coord v 2 / coord v 3) := by
  obtain ⟨M, hM, hE, pt⟩ := C101_perspectiveRH_ZO hl b fovy aspect zNear zFar h
  refine ⟨M, hM, fun p q hp hq => ?_⟩
  intro u v n d d'
  obtain ⟨n0, nf⟩ := lens_planes h
  have d0 : 0 < d := lt_of_lt_of_le (by norm_num) hp.2.2.2.1
  have d0' : 0 < d' := lt_of_lt_of_le (by norm_num) hq.2.2.2.1
  obtain ⟨kp, -, -, zp⟩ := pt p hp
  obtain ⟨kq, -, -, zq⟩ := pt q hq
  refine ⟨fun e => ?_, fun g => near_lt zp zq (gap_ZO n0 nf d0 d0' g)⟩
  have fp : ∀ i, (coord p i).IsFin = true := fun i => by fin_cases i; exacts [hp.1.1, hp.1.2.1, hp.1.2.2]
  have fq : ∀ i, (coord q i).IsFin = true := fun i => by fin_cases i; exacts [hq.1.1, hq.1.2.1, hq.1.2.2]
  obtain ⟨t1, -, -⟩ := focal hl h
  have t0 : 0 < Real.tan (fovy.val / 2) := lt_of_lt_of_le (by norm_num) t1
  have a0 : (0:ℝ) < aspect.val := lt_of_lt_of_le (by norm_num) h.aspect_ge
  have wq := kq.2.2.2
  rw [← e] at wq
  exact frust_order hE (by positivity) (by positivity) fp fq d0 e (four_fin kp) (four_fin kq) kp.2.2.2 wq

/-- C121, `perspectiveRH_NO`: at equal depth left and right, below and above are never swapped and the computed depths are equal; of two
points whose distances differ enough, the nearer one gets the smaller depth. -/
theorem C121_perspectiveRH_NO [Libm F32] (hl : GoodTan) (b : Build) (fovy aspect zNear zFar : F32)
    (h : Lens fovy aspect zNear zFar) :
    ∃ M, M4.perspectiveRH_NO b fovy aspect zNear zFar = .ok M ∧
      ∀ p q : V3 F32, InFront p (-p.z.val) → InFront q (-q.z.val) →
        let u := M * V4.ofXYZ_W p (lit 1)
        let v := M * V4.ofXYZ_W q (lit 1)
        let n : ℝ := zNear.val
        let d : ℝ := (-p.z.val)
        let d' : ℝ := (-q.z.val)
        (p.z = q.z → (p.x ≤ q.x → coord u 0 / coord u 3 ≤ coord v 0 / coord v 3) ∧
          (p.y ≤ q.y → coord u 1 / coord u 3 ≤ coord v 1 / coord v 3) ∧
          (coord u 2 / coord u 3).val = (coord v 2 / coord v 3).val) ∧
        (8 / 2 ^ 24 * (2 * (d * d') / n + d + d') ≤ d' - d → coord u 2 / coord u 3 < coord v 2 / coord v 3) := by
  obtain ⟨M, hM, hE, pt⟩ := C101_perspectiveRH_NO hl b fovy aspect zNear zFar h
  refine ⟨M, hM, fun p q hp hq => ?_⟩
  intro u v n d d'
  obtain ⟨n0, nf⟩ := lens_planes h
  have d0 : 0 < d := lt_of_lt_of_le (by norm_num) hp.2.2.2.1
  have d0' : 0 < d' := lt_of_lt_of_le (by norm_num) hq.2.2.2.1
  obtain ⟨kp, -, -, zp⟩ := pt p hp
  obtain ⟨kq, -, -, zq⟩ := pt q hq
  refine ⟨fun e => ?_, fun g => near_lt zp zq (gap_NO n0 nf d0 d0' g)⟩
  have fp : ∀ i, (coord p i).IsFin = true := fun i => by fin_cases i; exacts [hp.1.1, hp.1.2.1, hp.1.2.2]
  have fq : ∀ i, (coord q i).IsFin = true := fun i => by fin_cases i; exacts [hq.1.1, hq.1.2.1, hq.1.2.2]
  obtain ⟨t1, -, -⟩ := focal hl h
  have t0 : 0 < Real.tan (fovy.val / 2) := lt_of_lt_of_le (by norm_num) t1
  have a0 : (0:ℝ) < aspect.val := lt_of_lt_of_le (by norm_num) h.aspect_ge
  have wq := kq.2.2.2
  rw [← e] at wq
  exact frust_order hE (by positivity) (by positivity) fp fq d0 e (four_fin kp) (four_fin kq) kp.2.2.2 wq

/-- C121, `perspectiveLH_ZO` after `lookAtLH`: of two points whose distances along the direction of view differ enough, the nearer one
gets the smaller depth, in whichever order the two matrices are applied. -/
theorem C121_cameraLH_ZO [Libm F32] (hl : GoodTan) (b : Build) (fovy aspect zNear zFar : F32) (h : Lens fovy aspect zNear zFar)
    (eye center up p q : V3 F32) (hv : GoodView eye center up) (hp : InSight eye center p) (hq : InSight eye center q) :
    let n : ℝ := zNear.val
    let d : ℝ := ⟪viewDir (exactly eye) (exactly center), exactly p - exactly eye⟫
    let d' : ℝ := ⟪viewDir (exactly eye) (exactly center), exactly q - exactly eye⟫
    let S := ‖exactly p‖ + ‖exactly eye‖
    let S' := ‖exactly q‖ + ‖exactly eye‖
    129 / 2 ^ 24 * (S * (d + n) * (d' / d) + S' * (d' + n) * (d / d')) ≤ n * (d' - d) →
    ∃ P, M4.perspectiveLH_ZO b fovy aspect zNear zFar = .ok P ∧
      ∀ u v : V4 F32, (u = (P * M4.lookAtLH eye center up) * V4.ofXYZ_W p (lit 1) ∨ u = P * (M4.lookAtLH eye center up * V4.ofXYZ_W p (lit 1))) →
        (v = (P * M4.lookAtLH eye center up) * V4.ofXYZ_W q (lit 1) ∨ v = P * (M4.lookAtLH eye center up * V4.ofXYZ_W q (lit 1))) →
        coord u 2 / coord u 3 < coord v 2 / coord v 3 := by
  intro n d d' S S' g
  obtain ⟨n0, nf⟩ := lens_planes h
  have d0 : 0 < d := lt_of_lt_of_le (by norm_num) hp.ahead
  have d0' : 0 < d' := lt_of_lt_of_le (by norm_num) hq.ahead
  have s0 : 0 < S := by
    refine d0.trans_le ?_
    refine (real_inner_le_norm _ _).trans ((mul_le_of_le_one_left (norm_nonneg _) ?_).trans (norm_sub_le _ _))
    exact (NormedSpace.norm_normalize (norm_pos_iff.1 (lt_of_lt_of_le (by norm_num) hv.dist_ge))).le
  have s1 : 0 ≤ S' := by positivity
  obtain ⟨P, hP, kp⟩ := C120_LH_ZO hl b fovy aspect zNear zFar h eye center up p hv hp
  obtain ⟨P', hP', kq⟩ := C120_LH_ZO hl b fovy aspect zNear zFar h eye center up q hv hq
  cases hP.symm.trans hP'
  refine ⟨P, hP, fun u v hu hv' => ?_⟩
  obtain ⟨-, -, -, zp⟩ := kp u hu
  obtain ⟨-, -, -, zq⟩ := kq v hv'
  exact near_lt zp zq (far_ZO n0 nf d0 d0' s0 s1 g)

/-- C121, `perspectiveLH_NO` after `lookAtLH`: of two points whose distances along the direction of view differ enough, the nearer one
gets the smaller depth, in whichever order the two matrices are applied. -/
theorem C121_cameraLH_NO [Libm F32] (hl : GoodTan) (b : Build) (fovy aspect zNear zFar : F32) (h : Lens fovy aspect zNear zFar)
    (eye center up p q : V3 F32) (hv : GoodView eye center up) (hp : InSight eye center p) (hq : InSight eye center q) :
    let n : ℝ := zNear.val
    let d : ℝ := ⟪viewDir (exactly eye) (exactly center), exactly p - exactly eye⟫
    let d' : ℝ := ⟪viewDir (exactly eye) (exactly center), exactly q - exactly eye⟫
    let S := ‖exactly p‖ + ‖exactly eye‖
    let S' := ‖exactly q‖ + ‖exactly eye‖
    129 / 2 ^ 24 * (S * (d + n) * (d' / d) + S' * (d' + n) * (d / d')) ≤ n * (d' - d) →
    ∃ P, M4.perspectiveLH_NO b fovy aspect zNear zFar = .ok P ∧
      ∀ u v : V4 F32, (u = (P * M4.lookAtLH eye center up) * V4.ofXYZ_W p (lit 1) ∨ u = P * (M4.lookAtLH eye center up * V4.ofXYZ_W p (lit 1))) →
        (v = (P * M4.lookAtLH eye center up) * V4.ofXYZ_W q (lit 1) ∨ v = P * (M4.lookAtLH eye center up * V4.ofXYZ_W q (lit 1))) →
        coord u 2 / coord u 3 < coord v 2 / coord v 3 := by
  intro n d d' S S' g
  obtain ⟨n0, nf⟩ := lens_planes h
  have d0 : 0 < d := lt_of_lt_of_le (by norm_num) hp.ahead
  have d0' : 0 < d' := lt_of_lt_of_le (by norm_num) hq.ahead
  have s0 : 0 < S := by
    refine d0.trans_le ?_
    refine (real_inner_le_norm _ _).trans ((mul_le_of_le_one_left (norm_nonneg _) ?_).trans (norm_sub_le _ _))
    exact (NormedSpace.norm_normalize (norm_pos_iff.1 (lt_of_lt_of_le (by norm_num) hv.dist_ge))).le
  have s1 : 0 ≤ S' := by positivity
  obtain ⟨P, hP, kp⟩ := C120_LH_NO hl b fovy aspect zNear zFar h eye center up p hv hp
  obtain ⟨P', hP', kq⟩ := C120_LH_NO hl b fovy aspect zNear zFar h eye center up q hv hq
  cases hP.symm.trans hP'
  refine ⟨P, hP, fun u v hu hv' => ?_⟩
  obtain ⟨-, -, -, zp⟩ := kp u hu
  obtain ⟨-, -, -, zq⟩ := kq v hv'
  exact near_lt zp zq (far_NO n0 nf d0 d0' s0 s1 g)

/-- C121, `perspectiveRH_ZO` after `lookAtRH`: of two points whose distances along the direction of view differ enough, the nearer one
gets the smaller depth, in whichever order the two matrices are applied. -/
theorem C121_cameraRH_ZO [Libm F32] (hl : GoodTan) (b : Build) (fovy aspect zNear zFar : F32) (h : Lens fovy aspect zNear zFar)
    (eye center up p q : V3 F32) (hv : GoodView eye center up) (hp : InSight eye center p) (hq : InSight eye center q) :
    let n : ℝ := zNear.val
    let d : ℝ := ⟪viewDir (exactly eye) (exactly center), exactly p - exactly eye⟫
    let d' : ℝ := ⟪viewDir (exactly eye) (exactly center), exactly q - exactly eye⟫
    let S := ‖exactly p‖ + ‖exactly eye‖
    let S' := ‖exactly q‖ + ‖exactly eye‖
    129 / 2 ^ 24 * (S * (d + n) * (d' / d) + S' * (d' + n) * (d / d')) ≤ n * (d' - d) →
    ∃ P, M4.perspectiveRH_ZO b fovy aspect zNear zFar = .ok P ∧
      ∀ u v : V4 F32, (u = (P * M4.lookAtRH eye center up) * V4.ofXYZ_W p (lit 1) ∨ u = P * (M4.lookAtRH eye center up * V4.ofXYZ_W p (lit 1))) →
        (v = (P * M4.lookAtRH eye center up) * V4.ofXYZ_W q (lit 1) ∨ v = P * (M4.lookAtRH eye center up * V4.ofXYZ_W q (lit 1))) →
        coord u 2 / coord u 3 < coord v 2 / coord v 3 := by
  intro n d d' S S' g
  obtain ⟨n0, nf⟩ := lens_planes h
  have d0 : 0 < d := lt_of_lt_of_le (by norm_num) hp.ahead
  have d0' : 0 < d' := lt_of_lt_of_le (by norm_num) hq.ahead
  have s0 : 0 < S := by
    refine d0.trans_le ?_
    refine (real_inner_le_norm _ _).trans ((mul_le_of_le_one_left (norm_nonneg _) ?_).trans (norm_sub_le _ _))
    exact (NormedSpace.norm_normalize (norm_pos_iff.1 (lt_of_lt_of_le (by norm_num) hv.dist_ge))).le
  have s1 : 0 ≤ S' := by positivity
  obtain ⟨P, hP, kp⟩ := C120_RH_ZO hl b fovy aspect zNear zFar h eye center up p hv hp
  obtain ⟨P', hP', kq⟩ := C120_RH_ZO hl b fovy aspect zNear zFar h eye center up q hv hq
  cases hP.symm.trans hP'
  refine ⟨P, hP, fun u v hu hv' => ?_⟩
  obtain ⟨-, -, -, zp⟩ := kp u hu
  obtain ⟨-, -, -, zq⟩ := kq v hv'
  exact near_lt zp zq (far_ZO n0 nf d0 d0' s0 s1 g)

/-- C121, `perspectiveRH_NO` after `lookAtRH`: of two points whose distances along the direction of view differ enough, the nearer one
gets the smaller depth, in whichever order the two matrices are applied. -/
theorem C121_cameraRH_NO [Libm F32] (hl : GoodTan) (b : Build) (fovy aspect zNear zFar : F32) (h : Lens fovy aspect zNear zFar)
    (eye center up p q : V3 F32) (hv : GoodView eye center up) (hp : InSight eye center p) (hq : InSight eye center q) :
    let n : ℝ := zNear.val
    let d : ℝ := ⟪viewDir (exactly eye) (exactly center), exactly p - exactly eye⟫
    let d' : ℝ := ⟪viewDir (exactly eye) (exactly center), exactly q - exactly eye⟫
    let S := ‖exactly p‖ + ‖exactly eye‖
    let S' := ‖exactly q‖ + ‖exactly eye‖
    129 / 2 ^ 24 * (S * (d + n) * (d' / d) + S' * (d' + n) * (d / d')) ≤ n * (d' - d) →
    ∃ P, M4.perspectiveRH_NO b fovy aspect zNear zFar = .ok P ∧
      ∀ u v : V4 F32, (u = (P * M4.lookAtRH eye center up) * V4.ofXYZ_W p (lit 1) ∨ u = P * (M4.lookAtRH eye center up * V4.ofXYZ_W p (lit 1))) →
        (v = (P * M4.lookAtRH eye center up) * V4.ofXYZ_W q (lit 1) ∨ v = P * (M4.lookAtRH eye center up * V4.ofXYZ_W q (lit 1))) →
        coord u 2 / coord u 3 < coord v 2 / coord v 3 := by
  intro n d d' S S' g
  obtain ⟨n0, nf⟩ := lens_planes h
  have d0 : 0 < d := lt_of_lt_of_le (by norm_num) hp.ahead
  have d0' : 0 < d' := lt_of_lt_of_le (by norm_num) hq.ahead
  have s0 : 0 < S := by
    refine d0.trans_le ?_
    refine (real_inner_le_norm _ _).trans ((mul_le_of_le_one_left (norm_nonneg _) ?_).trans (norm_sub_le _ _))
    exact (NormedSpace.norm_normalize (norm_pos_iff.1 (lt_of_lt_of_le (by norm_num) hv.dist_ge))).le
  have s1 : 0 ≤ S' := by positivity
  obtain ⟨P, hP, kp⟩ := C120_RH_NO hl b fovy aspect zNear zFar h eye center up p hv hp
  obtain ⟨P', hP', kq⟩ := C120_RH_NO hl b fovy aspect zNear zFar h eye center up q hv hq
  cases hP.symm.trans hP'
  refine ⟨P, hP, fun u v hu hv' => ?_⟩
  obtain ⟨-, -, -, zp⟩ := kp u hu
  obtain ⟨-, -, -, zq⟩ := kq v hv'
  exact near_lt zp zq (far_NO n0 nf d0 d0' s0 s1 g)

/-! ## Non-vacuity (`Lens`, `InFront`, `Sides`: see C101; `GoodView`: C102; `InSight`: C120) -/

/-- A box from -3 to 3. -/
example : (lit (-3) : F32) < lit 3 := by decide +kernel

/-- With the near plane at 1, a point at distance 10 and one at distance 10.001 are told apart. -/
example : (8 : ℝ) / 2 ^ 24 * (2 * (10 * 10.001) / 1 + 10 + 10.001) ≤ 10.001 - 10 := by norm_num

/-- A camera at distance 3 from the origin with its near plane at 1: the points (2, 4, 5) and
(2, 4, 5.5), seen from (1, 2, 2) in the direction of (2, 4, 4), lie at distances 11/3 and 4 and are at most 8 away from the origin. -/
example : (129 : ℝ) / 2 ^ 24 * (11 * (11 / 3 + 1) * (4 / (11 / 3)) + 11 * (4 + 1) * (11 / 3 / 4)) ≤ 1 * (4 - 11 / 3) := by norm_num

end Zcm
