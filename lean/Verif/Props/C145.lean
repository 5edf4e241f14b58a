import Verif.Lemmas.F32SeenBox
import Verif.Props.C101
import Verif.Props.C102
import Verif.Props.C120
import Verif.Spec.Ortho

/-!
# C145: a point seen through `lookAt` and `ortho`, in IEEE arithmetic

`Near x r e`: the float `x` is finite and within `e` of the exact number `r`.  `viewSide`, `viewUp`, `viewDir`, `viewSine` are exact
(Spec/View.lean), `minusOneToOne` and `zeroToOne` too (Spec/Clip.lean); `BoxSides` and `Placed` say what is meant by ordinary numbers
(Spec/Ortho.lean).
-/

set_option exponentiation.threshold 300

namespace Zcm

open F32
open scoped RealInnerProductSpace

private theorem BoxSides.sides {a b : F32} (h : BoxSides a b) : Sides a b :=
  ⟨h.fin.1, h.fin.2, h.size.1.trans (by norm_num), h.size.2.trans (by norm_num), le_trans (by norm_num) h.apart⟩

private theorem BoxSides.bounds {a b : F32} (h : BoxSides a b) :
    ((b.val : ℝ) - a.val ≠ 0) ∧
    (∀ c : ℝ, 1 ≤ |c| → |c| ≤ 2 → 1 / 2 ^ 51 ≤ |c / ((b.val : ℝ) - a.val)| ∧ |c / ((b.val : ℝ) - a.val)| ≤ 2 ^ 45) ∧
    ((-((b.val : ℝ) + a.val) / (b.val - a.val) = 0 ∨ 1 / 2 ^ 120 ≤ |-((b.val : ℝ) + a.val) / (b.val - a.val)|) ∧
      |-((b.val : ℝ) + a.val) / (b.val - a.val)| ≤ 2 ^ 60) ∧
    ((-(a.val : ℝ) / (b.val - a.val) = 0 ∨ 1 / 2 ^ 120 ≤ |-(a.val : ℝ) / (b.val - a.val)|) ∧ |-(a.val : ℝ) / (b.val - a.val)| ≤ 2 ^ 60) := by
  obtain ⟨-, ⟨s1, s2⟩, ap, off, st⟩ := h
  have w : |(b.val : ℝ) - a.val| ≤ 2 ^ 31 := (abs_sub _ _).trans (by norm_num at s1 s2 ⊢; linarith)
  have v : |(b.val : ℝ) + a.val| ≤ 2 ^ 31 := (abs_add_le _ _).trans (by norm_num at s1 s2 ⊢; linarith)
  have w0 : 0 < |(b.val : ℝ) - a.val| := lt_of_lt_of_le (by norm_num) ap
  refine ⟨abs_pos.1 w0, fun c c1 c2 => ?_, ⟨?_, ?_⟩, ?_, ?_⟩
  · rw [abs_div, le_div_iff₀ w0, div_le_iff₀ w0]
    norm_num at *
    constructor <;> linarith
  · rcases off with o | o
    · exact .inl (by rw [o, neg_zero, zero_div])
    · refine .inr ?_
      rw [abs_div, abs_neg, le_div_iff₀ w0]
      norm_num at *
      linarith
  · rw [abs_div, abs_neg, div_le_iff₀ w0]
    norm_num at *
    linarith
  · rcases st with o | o
    · exact .inl (by rw [o, neg_zero, zero_div])
    · refine .inr ?_
      rw [abs_div, abs_neg, le_div_iff₀ w0]
      norm_num at *
      linarith
  · rw [abs_div, abs_neg, div_le_iff₀ w0]
    norm_num at *
    linarith

private theorem to_minusOneToOne {a b s : ℝ} (h : b - a ≠ 0) : 2 / (b - a) * s + -(b + a) / (b - a) = minusOneToOne a b s ∧
    -2 / (b - a) * -s + -(b + a) / (b - a) = minusOneToOne a b s := by
  unfold minusOneToOne
  constructor <;> field_simp <;> ring

private theorem to_zeroToOne {a b s : ℝ} (h : b - a ≠ 0) : 1 / (b - a) * s + -a / (b - a) = zeroToOne a b s ∧
    -1 / (b - a) * -s + -a / (b - a) = zeroToOne a b s := by
  unfold zeroToOne
  constructor <;> field_simp <;> ring

/-- C145, `orthoRH_ZO` after `lookAtRH`: a point lands where the geometry says, in whichever order the two matrices are applied, and
the fourth component is exactly 1. -/
theorem C145_RH_ZO (left right bottom top zNear zFar : F32) (hx : BoxSides left right) (hy : BoxSides bottom top) (hz : BoxSides zNear zFar)
    (eye center up p : V3 F32) (hv : GoodView eye center up) (hp : Placed eye p) (q : V4 F32)
    (hq : q = (M4.orthoRH_ZO left right bottom top zNear zFar * M4.lookAtRH eye center up) * V4.ofXYZ_W p (lit 1) ∨
      q = M4.orthoRH_ZO left right bottom top zNear zFar * (M4.lookAtRH eye center up * V4.ofXYZ_W p (lit 1))) :
    let o := exactly p - exactly eye
    let σ := viewSine (exactly eye) (exactly center) (exactly up)
    let size := ‖exactly p‖ + ‖exactly eye‖
    Near (coord q 0) (minusOneToOne left.val right.val ⟪viewSide (exactly eye) (exactly center) (exactly up), o⟫)
      (112 / 2 ^ 24 / σ * (2 / |(right.val : ℝ) - left.val| * size) + 15.1 / 2 ^ 24 * (|(right.val : ℝ) + left.val| / |(right.val : ℝ) - left.val|)) ∧
    Near (coord q 1) (minusOneToOne bottom.val top.val ⟪viewUp (exactly eye) (exactly center) (exactly up), o⟫)
      (112 / 2 ^ 24 / σ * (2 / |(top.val : ℝ) - bottom.val| * size) + 15.1 / 2 ^ 24 * (|(top.val : ℝ) + bottom.val| / |(top.val : ℝ) - bottom.val|)) ∧
    Near (coord q 2) (zeroToOne zNear.val zFar.val ⟪viewDir (exactly eye) (exactly center), o⟫)
      (49 / 2 ^ 24 * (1 / |(zFar.val : ℝ) - zNear.val| * size) + 15.1 / 2 ^ 24 * (|(zNear.val : ℝ)| / |(zFar.val : ℝ) - zNear.val|)) ∧
    Near (coord q 3) 1 0 := by
  intro o σ size
  have hd : Diag (M4.orthoRH_ZO left right bottom top zNear zFar) := by constructor <;> exact isZ_lit
  obtain ⟨x0, x1, x2, -⟩ := hx.bounds
  obtain ⟨y0, y1, y2, -⟩ := hy.bounds
  obtain ⟨z0, z1, z2, z3⟩ := hz.bounds
  have k := camera_box (C101_orthoRH_ZO_matrix left right bottom top zNear zFar hx.sides hy.sides hz.sides) hd rfl
    (viewOf_RH hv hp.fin hp.size_le) hp.fin (x1 2 (by norm_num) (by norm_num)) (y1 2 (by norm_num) (by norm_num))
    (z1 (-1) (by norm_num) (by norm_num)) x2 y2 z3 hp.size_le hv.eye_le hp.away q hq
  change Near _ (_ * ⟪viewSide (exactly eye) (exactly center) (exactly up), o⟫ + _) _ ∧
    Near _ (_ * ⟪viewUp (exactly eye) (exactly center) (exactly up), o⟫ + _) _ ∧
    Near _ (_ * ⟪-viewDir (exactly eye) (exactly center), o⟫ + _) _ ∧ _ at k
  rw [inner_neg_left, (to_minusOneToOne x0).1, (to_minusOneToOne y0).1, (to_zeroToOne z0).2] at k
  simp only [abs_div, abs_neg, abs_two, abs_one] at k
  exact k

/-- C145, `orthoRH_NO` after `lookAtRH`: a point lands where the geometry says, in whichever order the two matrices are applied, and
the fourth component is exactly 1. -/
theorem C145_RH_NO (left right bottom top zNear zFar : F32) (hx : BoxSides left right) (hy : BoxSides bottom top) (hz : BoxSides zNear zFar)
    (eye center up p : V3 F32) (hv : GoodView eye center up) (hp : Placed eye p) (q : V4 F32)
    (hq : q = (M4.orthoRH_NO left right bottom top zNear zFar * M4.lookAtRH eye center up) * V4.ofXYZ_W p (lit 1) ∨
      q = M4.orthoRH_NO left right bottom top zNear zFar * (M4.lookAtRH eye center up * V4.ofXYZ_W p (lit 1))) :
    let o := exactly p - exactly eye
    let σ := viewSine (exactly eye) (exactly center) (exactly up)
    let size := ‖exactly p‖ + ‖exactly eye‖
    Near (coord q 0) (minusOneToOne left.val right.val ⟪viewSide (exactly eye) (exactly center) (exactly up), o⟫)
      (112 / 2 ^ 24 / σ * (2 / |(right.val : ℝ) - left.val| * size) + 15.1 / 2 ^ 24 * (|(right.val : ℝ) + left.val| / |(right.val : ℝ) - left.val|)) ∧
    Near (coord q 1) (minusOneToOne bottom.val top.val ⟪viewUp (exactly eye) (exactly center) (exactly up), o⟫)
      (112 / 2 ^ 24 / σ * (2 / |(top.val : ℝ) - bottom.val| * size) + 15.1 / 2 ^ 24 * (|(top.val : ℝ) + bottom.val| / |(top.val : ℝ) - bottom.val|)) ∧
    Near (coord q 2) (minusOneToOne zNear.val zFar.val ⟪viewDir (exactly eye) (exactly center), o⟫)
      (49 / 2 ^ 24 * (2 / |(zFar.val : ℝ) - zNear.val| * size) + 15.1 / 2 ^ 24 * (|(zFar.val : ℝ) + zNear.val| / |(zFar.val : ℝ) - zNear.val|)) ∧
    Near (coord q 3) 1 0 := by
  intro o σ size
  have hd : Diag (M4.orthoRH_NO left right bottom top zNear zFar) := by constructor <;> exact isZ_lit
  obtain ⟨x0, x1, x2, -⟩ := hx.bounds
  obtain ⟨y0, y1, y2, -⟩ := hy.bounds
  obtain ⟨z0, z1, z2, z3⟩ := hz.bounds
  have k := camera_box (C101_orthoRH_NO_matrix left right bottom top zNear zFar hx.sides hy.sides hz.sides) hd rfl
    (viewOf_RH hv hp.fin hp.size_le) hp.fin (x1 2 (by norm_num) (by norm_num)) (y1 2 (by norm_num) (by norm_num))
    (z1 (-2) (by norm_num) (by norm_num)) x2 y2 z2 hp.size_le hv.eye_le hp.away q hq
  change Near _ (_ * ⟪viewSide (exactly eye) (exactly center) (exactly up), o⟫ + _) _ ∧
    Near _ (_ * ⟪viewUp (exactly eye) (exactly center) (exactly up), o⟫ + _) _ ∧
    Near _ (_ * ⟪-viewDir (exactly eye) (exactly center), o⟫ + _) _ ∧ _ at k
  rw [inner_neg_left, (to_minusOneToOne x0).1, (to_minusOneToOne y0).1, (to_minusOneToOne z0).2] at k
  simp only [abs_div, abs_neg, abs_two, abs_one] at k
  exact k

/-- C145, `orthoLH_ZO` after `lookAtLH`: a point lands where the geometry says, in whichever order the two matrices are applied, and
the fourth component is exactly 1. -/
theorem C145_LH_ZO (left right bottom top zNear zFar : F32) (hx : BoxSides left right) (hy : BoxSides bottom top) (hz : BoxSides zNear zFar)
    (eye center up p : V3 F32) (hv : GoodView eye center up) (hp : Placed eye p) (q : V4 F32)
    (hq : q = (M4.orthoLH_ZO left right bottom top zNear zFar * M4.lookAtLH eye center up) * V4.ofXYZ_W p (lit 1) ∨
      q = M4.orthoLH_ZO left right bottom top zNear zFar * (M4.lookAtLH eye center up * V4.ofXYZ_W p (lit 1))) :
    let o := exactly p - exactly eye
    let σ := viewSine (exactly eye) (exactly center) (exactly up)
    let size := ‖exactly p‖ + ‖exactly eye‖
    Near (coord q 0) (minusOneToOne left.val right.val ⟪-viewSide (exactly eye) (exactly center) (exactly up), o⟫)
      (112 / 2 ^ 24 / σ * (2 / |(right.val : ℝ) - left.val| * size) + 15.1 / 2 ^ 24 * (|(right.val : ℝ) + left.val| / |(right.val : ℝ) - left.val|)) ∧
    Near (coord q 1) (minusOneToOne bottom.val top.val ⟪viewUp (exactly eye) (exactly center) (exactly up), o⟫)
      (112 / 2 ^ 24 / σ * (2 / |(top.val : ℝ) - bottom.val| * size) + 15.1 / 2 ^ 24 * (|(top.val : ℝ) + bottom.val| / |(top.val : ℝ) - bottom.val|)) ∧
    Near (coord q 2) (zeroToOne zNear.val zFar.val ⟪viewDir (exactly eye) (exactly center), o⟫)
      (49 / 2 ^ 24 * (1 / |(zFar.val : ℝ) - zNear.val| * size) + 15.1 / 2 ^ 24 * (|(zNear.val : ℝ)| / |(zFar.val : ℝ) - zNear.val|)) ∧
    Near (coord q 3) 1 0 := by
  intro o σ size
  have hd : Diag (M4.orthoLH_ZO left right bottom top zNear zFar) := by constructor <;> exact isZ_lit
  obtain ⟨x0, x1, x2, -⟩ := hx.bounds
  obtain ⟨y0, y1, y2, -⟩ := hy.bounds
  obtain ⟨z0, z1, z2, z3⟩ := hz.bounds
  have k := camera_box (C101_orthoLH_ZO_matrix left right bottom top zNear zFar hx.sides hy.sides hz.sides) hd rfl
    (viewOf_LH hv hp.fin hp.size_le) hp.fin (x1 2 (by norm_num) (by norm_num)) (y1 2 (by norm_num) (by norm_num))
    (z1 (1) (by norm_num) (by norm_num)) x2 y2 z3 hp.size_le hv.eye_le hp.away q hq
  change Near _ (_ * ⟪-viewSide (exactly eye) (exactly center) (exactly up), o⟫ + _) _ ∧
    Near _ (_ * ⟪viewUp (exactly eye) (exactly center) (exactly up), o⟫ + _) _ ∧
    Near _ (_ * ⟪viewDir (exactly eye) (exactly center), o⟫ + _) _ ∧ _ at k
  rw [(to_minusOneToOne x0).1, (to_minusOneToOne y0).1, (to_zeroToOne z0).1] at k
  simp only [abs_div, abs_neg, abs_two, abs_one] at k
  exact k

/-- C145, `orthoLH_NO` after `lookAtLH`: a point lands where the geometry says, in whichever order the two matrices are applied, and
the fourth component is exactly 1. -/
theorem C145_LH_NO (left right bottom top zNear zFar : F32) (hx : BoxSides left right) (hy : BoxSides bottom top) (hz : BoxSides zNear zFar)
    (eye center up p : V3 F32) (hv : GoodView eye center up) (hp : Placed eye p) (q : V4 F32)
    (hq : q = (M4.orthoLH_NO left right bottom top zNear zFar * M4.lookAtLH eye center up) * V4.ofXYZ_W p (lit 1) ∨
      q = M4.orthoLH_NO left right bottom top zNear zFar * (M4.lookAtLH eye center up * V4.ofXYZ_W p (lit 1))) :
    let o := exactly p - exactly eye
    let σ := viewSine (exactly eye) (exactly center) (exactly up)
    let size := ‖exactly p‖ + ‖exactly eye‖
    Near (coord q 0) (minusOneToOne left.val right.val ⟪-viewSide (exactly eye) (exactly center) (exactly up), o⟫)
      (112 / 2 ^ 24 / σ * (2 / |(right.val : ℝ) - left.val| * size) + 15.1 / 2 ^ 24 * (|(right.val : ℝ) + left.val| / |(right.val : ℝ) - left.val|)) ∧
    Near (coord q 1) (minusOneToOne bottom.val top.val ⟪viewUp (exactly eye) (exactly center) (exactly up), o⟫)
      (112 / 2 ^ 24 / σ * (2 / |(top.val : ℝ) - bottom.val| * size) + 15.1 / 2 ^ 24 * (|(top.val : ℝ) + bottom.val| / |(top.val : ℝ) - bottom.val|)) ∧
    Near (coord q 2) (minusOneToOne zNear.val zFar.val ⟪viewDir (exactly eye) (exactly center), o⟫)
      (49 / 2 ^ 24 * (2 / |(zFar.val : ℝ) - zNear.val| * size) + 15.1 / 2 ^ 24 * (|(zFar.val : ℝ) + zNear.val| / |(zFar.val : ℝ) - zNear.val|)) ∧
    Near (coord q 3) 1 0 := by
  intro o σ size
  have hd : Diag (M4.orthoLH_NO left right bottom top zNear zFar) := by constructor <;> exact isZ_lit
  obtain ⟨x0, x1, x2, -⟩ := hx.bounds
  obtain ⟨y0, y1, y2, -⟩ := hy.bounds
  obtain ⟨z0, z1, z2, z3⟩ := hz.bounds
  have k := camera_box (C101_orthoLH_NO_matrix left right bottom top zNear zFar hx.sides hy.sides hz.sides) hd rfl
    (viewOf_LH hv hp.fin hp.size_le) hp.fin (x1 2 (by norm_num) (by norm_num)) (y1 2 (by norm_num) (by norm_num))
    (z1 (2) (by norm_num) (by norm_num)) x2 y2 z2 hp.size_le hv.eye_le hp.away q hq
  change Near _ (_ * ⟪-viewSide (exactly eye) (exactly center) (exactly up), o⟫ + _) _ ∧
    Near _ (_ * ⟪viewUp (exactly eye) (exactly center) (exactly up), o⟫ + _) _ ∧
    Near _ (_ * ⟪viewDir (exactly eye) (exactly center), o⟫ + _) _ ∧ _ at k
  rw [(to_minusOneToOne x0).1, (to_minusOneToOne y0).1, (to_minusOneToOne z0).1] at k
  simp only [abs_div, abs_neg, abs_two, abs_one] at k
  exact k

/-! ## Non-vacuity -/

/-- the camera at (1,2,2) shown to be a `GoodView` beside C102, a box 20 wide, 10 high and 100 deep, and the point (1,2,3) -/
example : BoxSides (lit (-10)) (lit 10) ∧ BoxSides (lit (-5)) (lit 5) ∧ BoxSides (lit 1) (lit 101) ∧
    Placed ⟨lit 1, lit 2, lit 2⟩ ⟨lit 1, lit 2, lit 3⟩ := by
  have a : (lit (-10) : F32).val = -10 := by decide +kernel
  have b : (lit 10 : F32).val = 10 := by decide +kernel
  have c : (lit (-5) : F32).val = -5 := by decide +kernel
  have d : (lit 5 : F32).val = 5 := by decide +kernel
  have e : (lit 1 : F32).val = 1 := by decide +kernel
  have f : (lit 101 : F32).val = 101 := by decide +kernel
  have v2 : (lit 2 : F32).val = 2 := by decide +kernel
  have v3 : (lit 3 : F32).val = 3 := by decide +kernel
  have ee : exactly (⟨lit 1, lit 2, lit 2⟩ : V3 F32) = WithLp.toLp 2 ![1, 2, 2] := by
    ext i; rw [exactly_apply]
    fin_cases i
    · change ((lit 1 : F32).val : ℝ) = 1; rw [e]; norm_num
    · change ((lit 2 : F32).val : ℝ) = 2; rw [v2]; norm_num
    · change ((lit 2 : F32).val : ℝ) = 2; rw [v2]; norm_num
  have ep : exactly (⟨lit 1, lit 2, lit 3⟩ : V3 F32) = WithLp.toLp 2 ![1, 2, 3] := by
    ext i; rw [exactly_apply]
    fin_cases i
    · change ((lit 1 : F32).val : ℝ) = 1; rw [e]; norm_num
    · change ((lit 2 : F32).val : ℝ) = 2; rw [v2]; norm_num
    · change ((lit 3 : F32).val : ℝ) = 3; rw [v3]; norm_num
  have ne : ‖(WithLp.toLp 2 ![1, 2, 2] : Space)‖ ^ 2 = 9 := by
    rw [EuclideanSpace.norm_sq_eq, Fin.sum_univ_three]; simp; norm_num
  have n0 := norm_nonneg (WithLp.toLp 2 ![1, 2, 2] : Space)
  have n1 : 1 ≤ ‖(WithLp.toLp 2 ![1, 2, 2] : Space)‖ := by nlinarith
  have np : ‖(WithLp.toLp 2 ![1, 2, 3] : Space)‖ ^ 2 = 14 := by
    rw [EuclideanSpace.norm_sq_eq, Fin.sum_univ_three]; simp; norm_num
  have p0 := norm_nonneg (WithLp.toLp 2 ![1, 2, 3] : Space)
  have p1 : ‖(WithLp.toLp 2 ![1, 2, 3] : Space)‖ ≤ 4 := by nlinarith
  refine ⟨⟨by decide +kernel, ?_, ?_, ?_, ?_⟩, ⟨by decide +kernel, ?_, ?_, ?_, ?_⟩, ⟨by decide +kernel, ?_, ?_, ?_, ?_⟩,
    ⟨by decide +kernel, ?_, ?_⟩⟩
  all_goals first
    | (rw [a, b]; norm_num)
    | (rw [a]; norm_num)
    | (rw [c, d]; norm_num)
    | (rw [c]; norm_num)
    | (rw [e, f]; norm_num)
    | (rw [e]; norm_num)
    | (rw [ep]; norm_num; linarith)
    | (rw [ep, ee]; norm_num; linarith)

end Zcm
