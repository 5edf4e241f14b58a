import Mathlib.Analysis.Real.Pi.Bounds
import Verif.Lemmas.F32Unproject

/-!
# C118: inverting perspective projections in IEEE arithmetic

`divided m p` multiplies `m` by the point `p` and divides by the fourth component, in float arithmetic (Spec/Unproject.lean); `Camera` says that the
parameters are not extreme.  `frustumMatrix`, `depth01`, `depth11` are exact (Spec/Clip.lean).
-/

set_option exponentiation.threshold 300

namespace Zcm

open F32

/-- the matrix all four perspective functions build -/
private def fill (X Y A B s : F32) : M4 F32 :=
  ⟨⟨X, lit 0, lit 0, lit 0⟩, ⟨lit 0, Y, lit 0, lit 0⟩, ⟨lit 0, lit 0, A, s⟩, ⟨lit 0, lit 0, B, lit 0⟩⟩

private theorem frust_fill (X Y A B s : F32) : Frust (fill X Y A B s) := by
  constructor <;> exact isZ_lit

private theorem camera_ok {b : Build} {fovy aspect zNear zFar : F32} (h : Camera fovy aspect zNear zFar) {r : Res (M4 F32)} (m : M4 F32)
    (hr : r = do cassert b (decide (F.abs (aspect - (epsilonf : F32)) > lit 0)); pure m) : r = .ok m := by
  rw [hr, persp_assert_float h.fin.2.1 (by
    have := h.aspect_ge
    rw [abs_of_pos (lt_of_lt_of_le (by norm_num) this)]
    exact h.aspect_le.trans (by norm_num)) (Or.inr (by
    intro e
    have := h.aspect_ge
    rw [e] at this
    norm_num at this))]
  rfl

private theorem camera_focal {fovy aspect zNear zFar : F32} (h : Camera fovy aspect zNear zFar) :
    (1 / 2 ^ 21 ≤ |1 / (aspect.val * Real.tan (fovy.val / 2))| ∧ |1 / (aspect.val * Real.tan (fovy.val / 2))| ≤ 2 ^ 21) ∧
    (1 / 2 ^ 21 ≤ |1 / Real.tan (fovy.val / 2)| ∧ |1 / Real.tan (fovy.val / 2)| ≤ 2 ^ 21) := by
  obtain ⟨a1, a2⟩ := h.shape
  obtain ⟨g1, g2⟩ := h.angle
  have lt := Real.lt_tan (x := fovy.val / 2) (by
    have : (0 : ℝ) < 1 / 2 ^ 10 := by norm_num
    linarith) (by linarith [h.fovy_lt])
  have t1 : 1 / 2 ^ 11 ≤ Real.tan (fovy.val / 2) := by linarith
  generalize Real.tan (fovy.val / 2) = t at *
  generalize (aspect.val : ℝ) = a at *
  have t0 : 0 < t := lt_of_lt_of_le (by norm_num) t1
  have a0 : 0 < a := lt_of_lt_of_le (by norm_num) a1
  have p1 : 1 / 2 ^ 10 * (1 / 2 ^ 11) ≤ a * t := by gcongr
  have p2 : a * t ≤ 2 ^ 10 * 2 ^ 10 := by gcongr
  have p0 : 0 < a * t := mul_pos a0 t0
  rw [abs_of_pos (by positivity), abs_of_pos (by positivity), le_div_iff₀ p0, div_le_iff₀ p0, le_div_iff₀ t0, div_le_iff₀ t0]
  refine ⟨⟨?_, ?_⟩, ?_, ?_⟩ <;> linarith

private theorem depth_range {n f d : ℝ} (hn : 0 < n) (h : 2 * n ≤ f) (h1 : n ≤ d) (h2 : d ≤ f) : 0 ≤ depth01 n f d ∧ depth01 n f d ≤ 1 := by
  have w : 0 < f - n := by linarith
  have d0 : 0 < d := hn.trans_le h1
  unfold depth01
  constructor
  · exact div_nonneg (mul_nonneg (by linarith) (by linarith)) (mul_nonneg d0.le w.le)
  · rw [div_le_one (mul_pos d0 w)]
    nlinarith

private theorem depth_ZO {n f : ℝ} (hn : 0 < n) (h : 2 * n ≤ f) :
    ((((1 ≤ |f / (f - n)| ∧ |f / (f - n)| ≤ 3) ∧ (n ≤ |-(f * n) / (f - n)| ∧ |-(f * n) / (f - n)| ≤ 4 * n) ∧ n * |f / (f - n)| ≤ |-(f * n) / (f - n)|)) ∧
      ((1 ≤ |-f / (f - n)| ∧ |-f / (f - n)| ≤ 3) ∧ (n ≤ |-(f * n) / (f - n)| ∧ |-(f * n) / (f - n)| ≤ 4 * n) ∧ n * |-f / (f - n)| ≤ |-(f * n) / (f - n)|)) ∧
    ∀ d, n ≤ d → d ≤ f → (f / (f - n) * (1 * d) + -(f * n) / (f - n) = d * depth01 n f d ∧
      -f / (f - n) * (-1 * d) + -(f * n) / (f - n) = d * depth01 n f d) ∧ |depth01 n f d| ≤ 1 := by
  have w : 0 < f - n := by linarith
  have f0 : 0 < f := by linarith
  have eB : |-(f * n) / (f - n)| = f * n / (f - n) := by rw [neg_div, abs_neg, abs_of_pos (by positivity)]
  have eA : |-f / (f - n)| = f / (f - n) := by rw [neg_div, abs_neg, abs_of_pos (by positivity)]
  have eA' : |f / (f - n)| = f / (f - n) := abs_of_pos (by positivity)
  have k : (1 ≤ f / (f - n) ∧ f / (f - n) ≤ 3) ∧ (n ≤ f * n / (f - n) ∧ f * n / (f - n) ≤ 4 * n) ∧ n * (f / (f - n)) ≤ f * n / (f - n) := by
    refine ⟨⟨?_, ?_⟩, ⟨?_, ?_⟩, ?_⟩
    · rw [le_div_iff₀ w]; linarith
    · rw [div_le_iff₀ w]; linarith
    · rw [le_div_iff₀ w]; nlinarith
    · rw [div_le_iff₀ w]; nlinarith
    · exact le_of_eq (by ring)
  rw [eB, eA, eA']
  refine ⟨⟨k, k⟩, fun d h1 h2 => ⟨⟨?_, ?_⟩, ?_⟩⟩
  · have d0 : d ≠ 0 := (hn.trans_le h1).ne'
    unfold depth01; field_simp; ring
  · have d0 : d ≠ 0 := (hn.trans_le h1).ne'
    unfold depth01; field_simp; ring
  · obtain ⟨a, b⟩ := depth_range hn h h1 h2
    rw [abs_of_nonneg a]; exact b

private theorem depth_NO {n f : ℝ} (hn : 0 < n) (h : 2 * n ≤ f) :
    ((((1 ≤ |(f + n) / (f - n)| ∧ |(f + n) / (f - n)| ≤ 3) ∧ (n ≤ |-(2 * f * n) / (f - n)| ∧ |-(2 * f * n) / (f - n)| ≤ 4 * n) ∧
        n * |(f + n) / (f - n)| ≤ |-(2 * f * n) / (f - n)|)) ∧
      ((1 ≤ |-(f + n) / (f - n)| ∧ |-(f + n) / (f - n)| ≤ 3) ∧ (n ≤ |-(2 * f * n) / (f - n)| ∧ |-(2 * f * n) / (f - n)| ≤ 4 * n) ∧
        n * |-(f + n) / (f - n)| ≤ |-(2 * f * n) / (f - n)|)) ∧
    ∀ d, n ≤ d → d ≤ f → ((f + n) / (f - n) * (1 * d) + -(2 * f * n) / (f - n) = d * depth11 n f d ∧
      -(f + n) / (f - n) * (-1 * d) + -(2 * f * n) / (f - n) = d * depth11 n f d) ∧ |depth11 n f d| ≤ 1 := by
  have w : 0 < f - n := by linarith
  have f0 : 0 < f := by linarith
  have eB : |-(2 * f * n) / (f - n)| = 2 * f * n / (f - n) := by rw [neg_div, abs_neg, abs_of_pos (by positivity)]
  have eA : |-(f + n) / (f - n)| = (f + n) / (f - n) := by rw [neg_div, abs_neg, abs_of_pos (by positivity)]
  have eA' : |(f + n) / (f - n)| = (f + n) / (f - n) := abs_of_pos (by positivity)
  have k : (1 ≤ (f + n) / (f - n) ∧ (f + n) / (f - n) ≤ 3) ∧ (n ≤ 2 * f * n / (f - n) ∧ 2 * f * n / (f - n) ≤ 4 * n) ∧
      n * ((f + n) / (f - n)) ≤ 2 * f * n / (f - n) := by
    refine ⟨⟨?_, ?_⟩, ⟨?_, ?_⟩, ?_⟩
    · rw [le_div_iff₀ w]; linarith
    · rw [div_le_iff₀ w]; linarith
    · rw [le_div_iff₀ w]; nlinarith
    · rw [div_le_iff₀ w]; nlinarith
    · rw [← mul_div_assoc]
      exact div_le_div_of_nonneg_right (by nlinarith) w.le
  rw [eB, eA, eA']
  refine ⟨⟨k, k⟩, fun d h1 h2 => ⟨⟨?_, ?_⟩, ?_⟩⟩
  · have d0 : d ≠ 0 := (hn.trans_le h1).ne'
    unfold depth11 depth01; field_simp; ring
  · have d0 : d ≠ 0 := (hn.trans_le h1).ne'
    unfold depth11 depth01; field_simp; ring
  · obtain ⟨a, b⟩ := depth_range hn h h1 h2
    unfold depth11
    rw [abs_le]
    constructor <;> linarith

/-- C118, `perspectiveLH_ZO`: the inverse of the matrix; it recovers a point from its exact projection, and from its computed projection. -/
theorem C118_perspectiveLH_ZO [Libm F32] (hl : GoodTan) (b : Build) (fovy aspect zNear zFar : F32)
    (h : Camera fovy aspect zNear zFar) :
    let n : ℝ := zNear.val
    let f : ℝ := zFar.val
    let t : ℝ := Real.tan (fovy.val / 2)
    let E := frustumMatrix (1 / (aspect.val * t)) (1 / t) (f / (f - n)) (-(f * n) / (f - n)) 1
    ∃ M, M4.perspectiveLH_ZO b fovy aspect zNear zFar = .ok M ∧
      (∀ c r, Near (entry (M4.inverse M) c r) (E⁻¹ r c) (15 / 2 ^ 24 * |E⁻¹ r c|)) ∧
      (∀ (v : V3 F32) (x y d : ℝ), (∀ i, (coord v i).IsFin = true) → |x| ≤ 2 ^ 60 → |y| ≤ 2 ^ 60 → n ≤ d → d ≤ f →
        v.x.val = x / (aspect.val * t) / d → v.y.val = y / t / d → v.z.val = depth01 n f d →
        let p := divided (M4.inverse M) v
        Near p.x x (128 / 2 ^ 24 * (d / n) * |x| + 1 / 2 ^ 60) ∧ Near p.y y (128 / 2 ^ 24 * (d / n) * |y| + 1 / 2 ^ 60) ∧
        Near p.z d (128 / 2 ^ 24 * (d / n) * d + 1 / 2 ^ 60)) ∧
      ∀ p : V3 F32, InFront p p.z.val → n ≤ p.z.val → p.z.val ≤ f → ∀ i,
        Near (coord (divided (M4.inverse M) (divided M p)) i) (coord p i).val
          (128 / 2 ^ 24 * (p.z.val / n) * |((coord p i).val : ℝ)| + 1 / 2 ^ 60) := by
  intro n f t E
  obtain ⟨t1, X, Y⟩ := focal hl h.toLens
  obtain ⟨⟨A1, A2, A3, A4⟩, B1, B2, n0, nf, gap⟩ := depth_coefs h.toLens
  obtain ⟨bX, bY⟩ := camera_focal h
  obtain ⟨e1, e2⟩ := depth_ZO n0 h.planes.1
  have fr := frust_fill (lit 1 / (aspect * Libm.tanf (fovy * lit 0.5))) (lit 1 / Libm.tanf (fovy * lit 0.5))
    (zFar / (zFar - zNear)) ((-(zFar * zNear)) / (zFar - zNear)) (lit 1)
  obtain ⟨k1, k2, k3⟩ := frust_undone (depth := depth01 n f) fr X Y A1 B1 (.inl ⟨rfl, rfl⟩) bX bY e1.1.1 e1.1.2.1 e1.1.2.2
    h.near h.planes.2 h.far_le nf.le (fun d h1 h2 => ⟨by rw [(e2 d h1 h2).1.1], (e2 d h1 h2).2⟩)
  refine ⟨_, camera_ok h _ rfl, k1, fun v x y d fv hx hy nd df ex ey ez => ?_, fun p hp np pf i => ?_⟩
  · have k := k2 v x y d (fv 0) (fv 1) (fv 2) nd df hx hy (by rw [ex, one_div_mul_eq_div]) (by rw [ey, one_div_mul_eq_div]) ez
    have d0 : 0 < d := n0.trans_le nd
    rw [one_mul, abs_of_pos d0] at k
    exact k
  · exact k3 p _ hp (by ring) np pf i

/-- C118, `perspectiveRH_ZO`: the inverse of the matrix; it recovers a point from its exact projection, and from its computed projection. -/
theorem C118_perspectiveRH_ZO [Libm F32] (hl : GoodTan) (b : Build) (fovy aspect zNear zFar : F32)
    (h : Camera fovy aspect zNear zFar) :
    let n : ℝ := zNear.val
    let f : ℝ := zFar.val
    let t : ℝ := Real.tan (fovy.val / 2)
    let E := frustumMatrix (1 / (aspect.val * t)) (1 / t) (-f / (f - n)) (-(f * n) / (f - n)) (-1)
    ∃ M, M4.perspectiveRH_ZO b fovy aspect zNear zFar = .ok M ∧
      (∀ c r, Near (entry (M4.inverse M) c r) (E⁻¹ r c) (15 / 2 ^ 24 * |E⁻¹ r c|)) ∧
      (∀ (v : V3 F32) (x y d : ℝ), (∀ i, (coord v i).IsFin = true) → |x| ≤ 2 ^ 60 → |y| ≤ 2 ^ 60 → n ≤ d → d ≤ f →
        v.x.val = x / (aspect.val * t) / d → v.y.val = y / t / d → v.z.val = depth01 n f d →
        let p := divided (M4.inverse M) v
        Near p.x x (128 / 2 ^ 24 * (d / n) * |x| + 1 / 2 ^ 60) ∧ Near p.y y (128 / 2 ^ 24 * (d / n) * |y| + 1 / 2 ^ 60) ∧
        Near p.z (-d) (128 / 2 ^ 24 * (d / n) * d + 1 / 2 ^ 60)) ∧
      ∀ p : V3 F32, InFront p (-p.z.val) → n ≤ (-p.z.val) → (-p.z.val) ≤ f → ∀ i,
        Near (coord (divided (M4.inverse M) (divided M p)) i) (coord p i).val
          (128 / 2 ^ 24 * ((-p.z.val) / n) * |((coord p i).val : ℝ)| + 1 / 2 ^ 60) := by
  intro n f t E
  obtain ⟨t1, X, Y⟩ := focal hl h.toLens
  obtain ⟨⟨A1, A2, A3, A4⟩, B1, B2, n0, nf, gap⟩ := depth_coefs h.toLens
  rw [show (zFar.val : ℝ) / (zNear.val - zFar.val) = -zFar.val / (zFar.val - zNear.val) by
    rw [← neg_sub, div_neg, neg_div]] at A2
  obtain ⟨bX, bY⟩ := camera_focal h
  obtain ⟨e1, e2⟩ := depth_ZO n0 h.planes.1
  have fr := frust_fill (lit 1 / (aspect * Libm.tanf (fovy * lit 0.5))) (lit 1 / Libm.tanf (fovy * lit 0.5))
    (zFar / (zNear - zFar)) ((-(zFar * zNear)) / (zFar - zNear)) (-(lit 1))
  obtain ⟨k1, k2, k3⟩ := frust_undone (depth := depth01 n f) fr X Y A2 B1 (.inr ⟨rfl, rfl⟩) bX bY e1.2.1 e1.2.2.1 e1.2.2.2
    h.near h.planes.2 h.far_le nf.le (fun d h1 h2 => ⟨by rw [(e2 d h1 h2).1.2], (e2 d h1 h2).2⟩)
  refine ⟨_, camera_ok h _ rfl, k1, fun v x y d fv hx hy nd df ex ey ez => ?_, fun p hp np pf i => ?_⟩
  · have k := k2 v x y d (fv 0) (fv 1) (fv 2) nd df hx hy (by rw [ex, one_div_mul_eq_div]) (by rw [ey, one_div_mul_eq_div]) ez
    have d0 : 0 < d := n0.trans_le nd
    rw [neg_one_mul, abs_neg, abs_of_pos d0] at k
    exact k
  · exact k3 p _ hp (by ring) np pf i

/-- C118, `perspectiveLH_NO`: the inverse of the matrix; it recovers a point from its exact projection, and from its computed projection. -/
theorem C118_perspectiveLH_NO [Libm F32] (hl : GoodTan) (b : Build) (fovy aspect zNear zFar : F32)
    (h : Camera fovy aspect zNear zFar) :
    let n : ℝ := zNear.val
    let f : ℝ := zFar.val
    let t : ℝ := Real.tan (fovy.val / 2)
    let E := frustumMatrix (1 / (aspect.val * t)) (1 / t) ((f + n) / (f - n)) (-(2 * f * n) / (f - n)) 1
    ∃ M, M4.perspectiveLH_NO b fovy aspect zNear zFar = .ok M ∧
      (∀ c r, Near (entry (M4.inverse M) c r) (E⁻¹ r c) (15 / 2 ^ 24 * |E⁻¹ r c|)) ∧
      (∀ (v : V3 F32) (x y d : ℝ), (∀ i, (coord v i).IsFin = true) → |x| ≤ 2 ^ 60 → |y| ≤ 2 ^ 60 → n ≤ d → d ≤ f →
        v.x.val = x / (aspect.val * t) / d → v.y.val = y / t / d → v.z.val = depth11 n f d →
        let p := divided (M4.inverse M) v
        Near p.x x (128 / 2 ^ 24 * (d / n) * |x| + 1 / 2 ^ 60) ∧ Near p.y y (128 / 2 ^ 24 * (d / n) * |y| + 1 / 2 ^ 60) ∧
        Near p.z d (128 / 2 ^ 24 * (d / n) * d + 1 / 2 ^ 60)) ∧
      ∀ p : V3 F32, InFront p p.z.val → n ≤ p.z.val → p.z.val ≤ f → ∀ i,
        Near (coord (divided (M4.inverse M) (divided M p)) i) (coord p i).val
          (128 / 2 ^ 24 * (p.z.val / n) * |((coord p i).val : ℝ)| + 1 / 2 ^ 60) := by
  intro n f t E
  obtain ⟨t1, X, Y⟩ := focal hl h.toLens
  obtain ⟨⟨A1, A2, A3, A4⟩, B1, B2, n0, nf, gap⟩ := depth_coefs h.toLens
  obtain ⟨bX, bY⟩ := camera_focal h
  obtain ⟨e1, e2⟩ := depth_NO n0 h.planes.1
  have fr := frust_fill (lit 1 / (aspect * Libm.tanf (fovy * lit 0.5))) (lit 1 / Libm.tanf (fovy * lit 0.5))
    ((zFar + zNear) / (zFar - zNear)) ((-(lit 2 * zFar * zNear)) / (zFar - zNear)) (lit 1)
  obtain ⟨k1, k2, k3⟩ := frust_undone (depth := depth11 n f) fr X Y A3 B2 (.inl ⟨rfl, rfl⟩) bX bY e1.1.1 e1.1.2.1 e1.1.2.2
    h.near h.planes.2 h.far_le nf.le (fun d h1 h2 => ⟨by rw [(e2 d h1 h2).1.1], (e2 d h1 h2).2⟩)
  refine ⟨_, camera_ok h _ rfl, k1, fun v x y d fv hx hy nd df ex ey ez => ?_, fun p hp np pf i => ?_⟩
  · have k := k2 v x y d (fv 0) (fv 1) (fv 2) nd df hx hy (by rw [ex, one_div_mul_eq_div]) (by rw [ey, one_div_mul_eq_div]) ez
    have d0 : 0 < d := n0.trans_le nd
    rw [one_mul, abs_of_pos d0] at k
    exact k
  · exact k3 p _ hp (by ring) np pf i

/-- C118, `perspectiveRH_NO`: the inverse of the matrix; it recovers a point from its exact projection, and from its computed projection. -/
theorem C118_perspectiveRH_NO [Libm F32] (hl : GoodTan) (b : Build) (fovy aspect zNear zFar : F32)
    (h : Camera fovy aspect zNear zFar) :
    let n : ℝ := zNear.val
    let f : ℝ := zFar.val
    let t : ℝ := Real.tan (fovy.val / 2)
    let E := frustumMatrix (1 / (aspect.val * t)) (1 / t) (-(f + n) / (f - n)) (-(2 * f * n) / (f - n)) (-1)
    ∃ M, M4.perspectiveRH_NO b fovy aspect zNear zFar = .ok M ∧
      (∀ c r, Near (entry (M4.inverse M) c r) (E⁻¹ r c) (15 / 2 ^ 24 * |E⁻¹ r c|)) ∧
      (∀ (v : V3 F32) (x y d : ℝ), (∀ i, (coord v i).IsFin = true) → |x| ≤ 2 ^ 60 → |y| ≤ 2 ^ 60 → n ≤ d → d ≤ f →
        v.x.val = x / (aspect.val * t) / d → v.y.val = y / t / d → v.z.val = depth11 n f d →
        let p := divided (M4.inverse M) v
        Near p.x x (128 / 2 ^ 24 * (d / n) * |x| + 1 / 2 ^ 60) ∧ Near p.y y (128 / 2 ^ 24 * (d / n) * |y| + 1 / 2 ^ 60) ∧
        Near p.z (-d) (128 / 2 ^ 24 * (d / n) * d + 1 / 2 ^ 60)) ∧
      ∀ p : V3 F32, InFront p (-p.z.val) → n ≤ (-p.z.val) → (-p.z.val) ≤ f → ∀ i,
        Near (coord (divided (M4.inverse M) (divided M p)) i) (coord p i).val
          (128 / 2 ^ 24 * ((-p.z.val) / n) * |((coord p i).val : ℝ)| + 1 / 2 ^ 60) := by
  intro n f t E
  obtain ⟨t1, X, Y⟩ := focal hl h.toLens
  obtain ⟨⟨A1, A2, A3, A4⟩, B1, B2, n0, nf, gap⟩ := depth_coefs h.toLens
  obtain ⟨bX, bY⟩ := camera_focal h
  obtain ⟨e1, e2⟩ := depth_NO n0 h.planes.1
  have fr := frust_fill (lit 1 / (aspect * Libm.tanf (fovy * lit 0.5))) (lit 1 / Libm.tanf (fovy * lit 0.5))
    ((-(zFar + zNear)) / (zFar - zNear)) ((-(lit 2 * zFar * zNear)) / (zFar - zNear)) (-(lit 1))
  obtain ⟨k1, k2, k3⟩ := frust_undone (depth := depth11 n f) fr X Y A4 B2 (.inr ⟨rfl, rfl⟩) bX bY e1.2.1 e1.2.2.1 e1.2.2.2
    h.near h.planes.2 h.far_le nf.le (fun d h1 h2 => ⟨by rw [(e2 d h1 h2).1.2], (e2 d h1 h2).2⟩)
  refine ⟨_, camera_ok h _ rfl, k1, fun v x y d fv hx hy nd df ex ey ez => ?_, fun p hp np pf i => ?_⟩
  · have k := k2 v x y d (fv 0) (fv 1) (fv 2) nd df hx hy (by rw [ex, one_div_mul_eq_div]) (by rw [ey, one_div_mul_eq_div]) ez
    have d0 : 0 < d := n0.trans_le nd
    rw [neg_one_mul, abs_neg, abs_of_pos d0] at k
    exact k
  · exact k3 p _ hp (by ring) np pf i

/-! ### Non-vacuity -/

private theorem nums : ((lit 1 : F32).val = 1 ∧ (lit 2 : F32).val = 2 ∧ (lit (-2) : F32).val = -2 ∧ (lit 100 : F32).val = 100 ∧
    (lit (-10) : F32).val = -10 ∧ (lit 0.5 : F32).val = 1 / 2 ∧ (lit (-0.25) : F32).val = -1 / 4) ∧
    ((lit 1 : F32).IsFin = true ∧ (lit 2 : F32).IsFin = true ∧ (lit (-2) : F32).IsFin = true ∧ (lit 100 : F32).IsFin = true ∧
    (lit (-10) : F32).IsFin = true ∧ (lit 0.5 : F32).IsFin = true ∧ (lit (-0.25) : F32).IsFin = true) := by
  decide +kernel

private theorem tan_one : 1 ≤ Real.tan 1 ∧ Real.tan 1 ≤ 2 := by
  have a := Real.sin_le_one 1
  have c := Real.one_sub_sq_div_two_le_cos (x := 1)
  have l := Real.lt_tan (x := 1) (by norm_num) (by linarith [Real.pi_gt_three])
  refine ⟨l.le, ?_⟩
  rw [Real.tan_eq_sin_div_cos, div_le_iff₀ Real.cos_one_pos]
  linarith

/-- An opening angle of two radians, aspect ratio 1, planes at 1 and 100, and the point (1, -2, -10) in front of the camera at distance 10. -/
example : Camera (lit 2) (lit 1) (lit 1) (lit 100) ∧ InFront (⟨lit 1, lit (-2), lit (-10)⟩ : V3 F32) 10 := by
  obtain ⟨⟨v1, v2, v3, v4, v5, v6, v7⟩, f1, f2, f3, f4, f5, f6, f7⟩ := nums
  have t := tan_one
  have h1 : ((2 : ℚ) : ℝ) / 2 = 1 := by norm_num
  refine ⟨⟨⟨⟨f2, f1, f1, f4⟩, ?_, ?_, ?_, ?_, ?_, ?_, ?_, ?_⟩, ⟨?_, ?_⟩, ⟨?_, ?_⟩, ?_, ?_, ?_⟩,
    ⟨⟨f1, f3, f5⟩, ?_, ?_, by norm_num, by norm_num⟩⟩
  · rw [v2]; norm_num
  · rw [v2]; push_cast; linarith [Real.pi_gt_three]
  · rw [v2, h1]; linarith
  · rw [v1]; norm_num
  · rw [v1]; norm_num
  · rw [v1]; norm_num
  · rw [v4]; norm_num
  · rw [v1, v4]; norm_num
  · rw [v2]; norm_num
  · rw [v2, h1]; linarith
  · rw [v1]; norm_num
  · rw [v1]; norm_num
  · rw [v1]; norm_num
  · rw [v1, v4]; norm_num
  · rw [v1, v4]; norm_num
  · show |((lit 1 : F32).val : ℝ)| ≤ _; rw [v1]; norm_num
  · show |((lit (-2) : F32).val : ℝ)| ≤ _; rw [v3]; norm_num

/-- For that camera, (1/2, -1/4, 1/2) is the exact projection of a point at distance 200/101. -/
example : ∃ x y d : ℝ, |x| ≤ 2 ^ 60 ∧ |y| ≤ 2 ^ 60 ∧ ((lit 1 : F32).val : ℝ) ≤ d ∧ d ≤ (lit 100 : F32).val ∧
    ((lit 0.5 : F32).val : ℝ) = x / ((lit 1 : F32).val * Real.tan ((lit 2 : F32).val / 2)) / d ∧
    ((lit (-0.25) : F32).val : ℝ) = y / Real.tan ((lit 2 : F32).val / 2) / d ∧
    ((lit 0.5 : F32).val : ℝ) = depth01 (lit 1 : F32).val (lit 100 : F32).val d := by
  obtain ⟨⟨v1, v2, v3, v4, v5, v6, v7⟩, -⟩ := nums
  have t := tan_one
  have t0 : Real.tan 1 ≠ 0 := by linarith
  have h1 : ((2 : ℚ) : ℝ) / 2 = 1 := by norm_num
  rw [v1, v2, v4, v6, v7, h1]
  have ab : ∀ k : ℝ, |k| ≤ 1 → |k * Real.tan 1| ≤ 2 ^ 60 := fun k hk => by
    rw [abs_mul, abs_of_pos (show 0 < Real.tan 1 by linarith)]
    calc |k| * Real.tan 1 ≤ 1 * 2 := mul_le_mul hk t.2 (by linarith) (by norm_num)
      _ ≤ _ := by norm_num
  refine ⟨100 / 101 * Real.tan 1, -50 / 101 * Real.tan 1, 200 / 101, ab _ (by norm_num [abs_of_pos]), ab _ (by rw [abs_le]; norm_num), ?_, ?_, ?_, ?_, ?_⟩
  · norm_num
  · norm_num
  · push_cast; field_simp; norm_num
  · push_cast; field_simp; norm_num
  · unfold depth01; norm_num

end Zcm
