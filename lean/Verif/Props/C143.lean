import Verif.Lemmas.F32Segment
import Verif.Lemmas.F32Zero
import Verif.Spec.Clip
import Verif.Props.C18
import Verif.Spec.SignedZero

/-!
# C143  The nearest point of a line and of a segment

`alongLine`, `nearestOnLine`, `nearestOnSegment` and `GoodSegment` are in Spec/Segment.lean; `exactly v` is the exact vector whose
coordinates are the floats of `v`.
-/

set_option exponentiation.threshold 300

namespace Zcm

open F32
open scoped RealInnerProductSpace

/-- What a caller writes for the foot of the perpendicular from `p` on the line through `a` and `b`. -/
def linePoint (a b p : V3 F32) : V3 F32 := a + (b - a) * (V3.dot (p - a) (b - a) / V3.dot (b - a) (b - a))

/-- What a caller writes for the point of the segment from `a` to `b` nearest to `p`. -/
def segmentPoint (a b p : V3 F32) : V3 F32 :=
  a + (b - a) * F.clamp (V3.dot (p - a) (b - a) / V3.dot (b - a) (b - a)) (lit 0) (lit 1)

/-! ## The specification is right: these are the nearest points -/

/-- no point of the line is nearer to `p` than `nearestOnLine a b p` -/
theorem C143_exact_line (a b p : Space) (h : a ≠ b) :
    (∃ s : ℝ, nearestOnLine a b p = a + s • (b - a)) ∧ ⟪p - nearestOnLine a b p, b - a⟫ = 0 ∧
    ∀ s : ℝ, ‖p - nearestOnLine a b p‖ ≤ ‖p - (a + s • (b - a))‖ := by
  have l0 : ⟪b - a, b - a⟫ ≠ 0 := inner_self_ne_zero.2 (sub_ne_zero.2 h.symm)
  have o : ⟪p - nearestOnLine a b p, b - a⟫ = 0 := by
    unfold nearestOnLine alongLine
    rw [← sub_sub, inner_sub_left, real_inner_smul_left, div_mul_cancel₀ _ l0, sub_self]
  refine ⟨⟨_, rfl⟩, o, fun s => ?_⟩
  have e : p - (a + s • (b - a)) = (p - nearestOnLine a b p) + (alongLine a b p - s) • (b - a) := by
    unfold nearestOnLine; module
  have q : ‖p - (a + s • (b - a))‖ ^ 2 = ‖p - nearestOnLine a b p‖ ^ 2 + ‖(alongLine a b p - s) • (b - a)‖ ^ 2 := by
    rw [e, norm_add_sq_real, real_inner_smul_right, o]; ring
  refine abs_le_of_sq_le_sq' ?_ (norm_nonneg _) |>.2
  rw [q]
  exact le_add_of_nonneg_right (sq_nonneg _)

/-- no point of the segment is nearer to `p` than `nearestOnSegment a b p` -/
theorem C143_exact_segment (a b p : Space) (h : a ≠ b) :
    (∃ s : ℝ, 0 ≤ s ∧ s ≤ 1 ∧ nearestOnSegment a b p = a + s • (b - a)) ∧
    ∀ s : ℝ, 0 ≤ s → s ≤ 1 → ‖p - nearestOnSegment a b p‖ ≤ ‖p - (a + s • (b - a))‖ := by
  refine ⟨⟨_, le_min (le_max_right _ _) zero_le_one, min_le_right _ _, rfl⟩, fun s s0 s1 => ?_⟩
  have o := (C143_exact_line a b p h).2.1
  have e : ∀ s : ℝ, ‖p - (a + s • (b - a))‖ ^ 2 = ‖p - nearestOnLine a b p‖ ^ 2 + (alongLine a b p - s) ^ 2 * ‖b - a‖ ^ 2 := fun s => by
    have e : p - (a + s • (b - a)) = (p - nearestOnLine a b p) + (alongLine a b p - s) • (b - a) := by
      unfold nearestOnLine; module
    rw [e, norm_add_sq_real, real_inner_smul_right, o, norm_smul, Real.norm_eq_abs, mul_pow, sq_abs]; ring
  refine abs_le_of_sq_le_sq' ?_ (norm_nonneg _) |>.2
  unfold nearestOnSegment
  rw [e, e]
  have k : (alongLine a b p - min (max (alongLine a b p) 0) 1) ^ 2 ≤ (alongLine a b p - s) ^ 2 := by
    generalize alongLine a b p = t
    rcases le_total t 0 with x | x
    · rw [max_eq_right x, min_eq_left zero_le_one]; nlinarith
    rw [max_eq_left x]
    rcases le_total t 1 with y | y
    · rw [min_eq_left y, sub_self]; nlinarith [sq_nonneg (t - s)]
    · rw [min_eq_right y]; nlinarith
  gcongr

/-! ## The floats -/

/-- C143: the parameter `dot(p - a, b - a) / dot(b - a, b - a)` is finite and accurate. -/
theorem C143_parameter (a b p : V3 F32) (h : GoodSegment a b p) :
    Near (V3.dot (p - a) (b - a) / V3.dot (b - a) (b - a)) (alongLine (exactly a) (exactly b) (exactly p))
      (11.1 / 2 ^ 24 * (‖exactly p - exactly a‖ / ‖exactly b - exactly a‖) + 1 / 2 ^ 80) :=
  (near_alongLine h).2.2

/-- C143: the computed foot of the perpendicular is finite and within the stated error of the exact one. -/
theorem C143_line (a b p : V3 F32) (h : GoodSegment a b p) :
    (∀ i, (coord (linePoint a b p) i).IsFin = true) ∧
    ‖exactly (linePoint a b p) - nearestOnLine (exactly a) (exactly b) (exactly p)‖ ≤
      1 / 2 ^ 24 * (‖exactly a‖ + 15 * ‖exactly p - exactly a‖ + ‖exactly b - exactly a‖) :=
  near_line h

/-- C143: the computed point of the segment is finite and within the stated error of the exact one. -/
theorem C143_segment (a b p : V3 F32) (h : GoodSegment a b p) :
    (∀ i, (coord (segmentPoint a b p) i).IsFin = true) ∧
    ‖exactly (segmentPoint a b p) - nearestOnSegment (exactly a) (exactly b) (exactly p)‖ ≤
      1 / 2 ^ 24 * (‖exactly a‖ + 12 * ‖exactly p - exactly a‖ + 4 * ‖exactly b - exactly a‖) :=
  near_segment h

theorem GoodSegment.ne {a b p : V3 F32} (h : GoodSegment a b p) : exactly a ≠ exactly b := fun e => by
  have := h.len_ge
  rw [e, sub_self, norm_zero] at this
  norm_num at this

/-- C143: the line from the computed foot to `p` is perpendicular to the line, up to the error. -/
theorem C143_perpendicular (a b p : V3 F32) (h : GoodSegment a b p) :
    |⟪exactly p - exactly (linePoint a b p), exactly b - exactly a⟫| ≤
      1 / 2 ^ 24 * (‖exactly a‖ + 15 * ‖exactly p - exactly a‖ + ‖exactly b - exactly a‖) * ‖exactly b - exactly a‖ := by
  have o := (C143_exact_line (exactly a) (exactly b) (exactly p) h.ne).2.1
  have k : ⟪exactly p - exactly (linePoint a b p), exactly b - exactly a⟫ =
      ⟪nearestOnLine (exactly a) (exactly b) (exactly p) - exactly (linePoint a b p), exactly b - exactly a⟫ := by
    rw [inner_sub_left] at o ⊢
    rw [inner_sub_left]
    linarith
  rw [k]
  refine (abs_real_inner_le_norm _ _).trans ?_
  rw [norm_sub_rev]
  gcongr
  exact (C143_line a b p h).2

/-- C143: no point of the segment is nearer to `p` than the computed point, up to the error. -/
theorem C143_nearest (a b p : V3 F32) (h : GoodSegment a b p) (s : ℝ) (s0 : 0 ≤ s) (s1 : s ≤ 1) :
    ‖exactly p - exactly (segmentPoint a b p)‖ ≤ ‖exactly p - (exactly a + s • (exactly b - exactly a))‖ +
      1 / 2 ^ 24 * (‖exactly a‖ + 12 * ‖exactly p - exactly a‖ + 4 * ‖exactly b - exactly a‖) := by
  have n := (C143_exact_segment (exactly a) (exactly b) (exactly p) h.ne).2 s s0 s1
  have e := (C143_segment a b p h).2
  have t := norm_sub_le_norm_sub_add_norm_sub (exactly p) (nearestOnSegment (exactly a) (exactly b) (exactly p)) (exactly (segmentPoint a b p))
  rw [norm_sub_rev (nearestOnSegment _ _ _) (exactly (segmentPoint a b p))] at t
  linarith

/-- C143: when `p` is before the beginning of the segment by more than the error of the parameter, the result is the beginning `a`, bit for
bit up to the sign of a zero. -/
theorem C143_before (a b p : V3 F32) (h : GoodSegment a b p)
    (g : alongLine (exactly a) (exactly b) (exactly p) <
      -(11.1 / 2 ^ 24 * (‖exactly p - exactly a‖ / ‖exactly b - exactly a‖) + 1 / 2 ^ 80)) (i : Fin 3) :
    SameNumber (coord (segmentPoint a b p) i) (coord a i) := by
  obtain ⟨fb, -, ft, et⟩ := near_alongLine h
  have neg : (V3.dot (p - a) (b - a) / V3.dot (b - a) (b - a)).val < 0 := by
    have := (abs_le.1 et).2
    rw [← Rat.cast_lt (K := ℝ)]
    push_cast
    linarith
  have c : F.clamp (V3.dot (p - a) (b - a) / V3.dot (b - a) (b - a)) (lit 0) (lit 1) = lit 0 := by
    have f0 : (lit 0 : F32).IsFin = true := by decide +kernel
    have v0 : (lit 0 : F32).val = 0 := by decide +kernel
    have le01 : (lit 0 : F32) ≤ lit 1 := by decide +kernel
    exact (C18_float _ (lit 0) (lit 1) (isFin_ne_nan ft) le01).2.2.2.1
      ⟨isFin_ne_nan ft, isFin_ne_nan f0, by rw [key_lt_iff, v0]; exact neg⟩
  have e : coord (segmentPoint a b p) i = coord a i + coord (b - a) i * lit 0 := by
    unfold segmentPoint; rw [c]; fin_cases i <;> rfl
  rw [e]
  exact .addZ (isZ_lit.mulR (fb.1 i))

/-- C143: when `p` is past the end of the segment by more than the error of the parameter, the result is `a + (b - a)`, bit for bit. -/
theorem C143_after (a b p : V3 F32) (h : GoodSegment a b p)
    (g : 1 + (11.1 / 2 ^ 24 * (‖exactly p - exactly a‖ / ‖exactly b - exactly a‖) + 1 / 2 ^ 80) <
      alongLine (exactly a) (exactly b) (exactly p)) (i : Fin 3) :
    coord (segmentPoint a b p) i = coord a i + (coord b i - coord a i) := by
  obtain ⟨fb, -, ft, et⟩ := near_alongLine h
  have neg : 1 < (V3.dot (p - a) (b - a) / V3.dot (b - a) (b - a)).val := by
    have := (abs_le.1 et).1
    rw [← Rat.cast_lt (K := ℝ)]
    push_cast
    linarith
  have c : F.clamp (V3.dot (p - a) (b - a) / V3.dot (b - a) (b - a)) (lit 0) (lit 1) = lit 1 := by
    have f1 : (lit 1 : F32).IsFin = true := by decide +kernel
    have v1 : (lit 1 : F32).val = 1 := by decide +kernel
    have le01 : (lit 0 : F32) ≤ lit 1 := by decide +kernel
    exact (C18_float _ (lit 0) (lit 1) (isFin_ne_nan ft) le01).2.2.2.2.1
      ⟨isFin_ne_nan f1, isFin_ne_nan ft, by rw [key_lt_iff, v1]; exact neg⟩
  have e : coord (segmentPoint a b p) i = coord a i + (coord b i - coord a i) * lit 1 := by
    unfold segmentPoint; rw [c]; fin_cases i <;> rfl
  rw [e, mul_one']

/-! ## Non-vacuity -/

/-- the segment from the origin to (2,0,0) and the point (-1,0,10): before the beginning -/
example : GoodSegment ⟨lit 0, lit 0, lit 0⟩ ⟨lit 2, lit 0, lit 0⟩ ⟨lit (-1), lit 0, lit 10⟩ ∧
    alongLine (exactly ⟨lit 0, lit 0, lit 0⟩) (exactly ⟨lit 2, lit 0, lit 0⟩) (exactly ⟨lit (-1), lit 0, lit 10⟩) <
      -(11.1 / 2 ^ 24 * (‖exactly ⟨lit (-1), lit 0, lit 10⟩ - exactly ⟨lit 0, lit 0, lit 0⟩‖ /
        ‖exactly ⟨lit 2, lit 0, lit 0⟩ - exactly ⟨lit 0, lit 0, lit 0⟩‖) + 1 / 2 ^ 80) := by
  have v0 : (lit 0 : F32).val = 0 := by decide +kernel
  have v2 : (lit 2 : F32).val = 2 := by decide +kernel
  have vm : (lit (-1) : F32).val = -1 := by decide +kernel
  have vt : (lit 10 : F32).val = 10 := by decide +kernel
  have ea : exactly (⟨lit 0, lit 0, lit 0⟩ : V3 F32) = 0 := by
    ext i; rw [exactly_apply]
    fin_cases i <;> (change ((lit 0 : F32).val : ℝ) = 0; rw [v0]; norm_num)
  have eb : exactly (⟨lit 2, lit 0, lit 0⟩ : V3 F32) = WithLp.toLp 2 ![2, 0, 0] := by
    ext i; rw [exactly_apply]
    fin_cases i
    · change ((lit 2 : F32).val : ℝ) = 2; rw [v2]; norm_num
    · change ((lit 0 : F32).val : ℝ) = 0; rw [v0]; norm_num
    · change ((lit 0 : F32).val : ℝ) = 0; rw [v0]; norm_num
  have ep : exactly (⟨lit (-1), lit 0, lit 10⟩ : V3 F32) = WithLp.toLp 2 ![-1, 0, 10] := by
    ext i; rw [exactly_apply]
    fin_cases i
    · change ((lit (-1) : F32).val : ℝ) = -1; rw [vm]; norm_num
    · change ((lit 0 : F32).val : ℝ) = 0; rw [v0]; norm_num
    · change ((lit 10 : F32).val : ℝ) = 10; rw [vt]; norm_num
  have nb : ‖(WithLp.toLp 2 ![2, 0, 0] : Space)‖ = 2 := by rw [EuclideanSpace.norm_eq, Fin.sum_univ_three]; simp
  have np : ‖(WithLp.toLp 2 ![-1, 0, 10] : Space)‖ ^ 2 = 101 := by
    rw [EuclideanSpace.norm_sq_eq, Fin.sum_univ_three]; simp; norm_num
  have p0 := norm_nonneg (WithLp.toLp 2 ![-1, 0, 10] : Space)
  have p2 : ‖(WithLp.toLp 2 ![-1, 0, 10] : Space)‖ ≤ 11 := by nlinarith
  refine ⟨⟨by decide +kernel, ?_, ?_, ?_, ?_⟩, ?_⟩
  · rw [ea, norm_zero]; norm_num
  · rw [ea, eb, sub_zero, nb]; norm_num
  · rw [ea, eb, sub_zero, nb]; norm_num
  · rw [ea, ep, sub_zero]; norm_num; linarith
  · unfold alongLine
    rw [ea, eb, ep, sub_zero, sub_zero, real_inner_self_eq_norm_sq, nb, inner_eq_dot]
    simp
    norm_num
    linarith

end Zcm
