import Verif.Lemmas.F32Mix
import Verif.Props.C24
import Verif.Spec.Coord
import Mathlib.Tactic.FinCases

/-!
# C103: mix and smoothstep in IEEE arithmetic

`Near x r e`: the float `x` is finite and within `e` of the exact number `r` (Spec/Clip.lean).  `wayFrom x y t` is the
exact number at parameter `t` from `x` to `y` and `transition a b x` the exact cubic transition (Spec/Interp.lean).
-/

set_option exponentiation.threshold 300

namespace Zcm

open F32

/-- An end of an interpolation: finite, and not so large that a difference could overflow. -/
def EndPoint (x : F32) : Prop := x.IsFin = true ∧ |(x.val : ℝ)| ≤ 2 ^ 124

/-- A parameter between 0 and 1. -/
def Fraction (t : F32) : Prop := t.IsFin = true ∧ 0 ≤ (t.val : ℝ) ∧ (t.val : ℝ) ≤ 1

/-- How far a computed interpolation may be from the exact one. -/
noncomputable def mixTol (x y t : ℝ) : ℝ := (|wayFrom x y t| + 2.001 * |t * (y - x)|) / 2 ^ 24 + 1 / 2 ^ 149

private theorem diff_fin {x y : F32} (hx : EndPoint x) (hy : EndPoint y) : (y - x).IsFin = true :=
  (rel_sub hy.1 hx.1 ((abs_sub _ _).trans (by linarith [hx.2, hy.2]))).fin

/-- C103, `mix(float, float, float)`: the result is within a few roundings of the exact interpolation. -/
theorem C103_mix (x y t : F32) (hx : EndPoint x) (hy : EndPoint y) (ft : t.IsFin = true) (ht : |(t.val : ℝ)| ≤ 1) :
    Near (F.mix x y t) (wayFrom x.val y.val t.val) (mixTol x.val y.val t.val) :=
  mix_near hx.1 hy.1 ft hx.2 hy.2 ht

/-- C103, `mix` with a parameter between 0 and 1: the result moves monotonically from `x`, reached exactly at 0, to
the value at 1, which misses `y` by at most two roundings; so it leaves the interval between `x` and `y` by no more than
that. -/
theorem C103_mix_between (x y t u : F32) (hx : EndPoint x) (hy : EndPoint y) (ht : Fraction t) (hu : Fraction u)
    (htu : t ≤ u) :
    (F.mix x y (lit 0) == x) = true ∧
    Near (F.mix x y (lit 1)) y.val ((|(y.val : ℝ)| + 1.001 * |(y.val : ℝ) - x.val|) / 2 ^ 24) ∧
    (x ≤ y → x ≤ F.mix x y t ∧ F.mix x y t ≤ F.mix x y u ∧ F.mix x y u ≤ F.mix x y (lit 1)) ∧
    (y ≤ x → F.mix x y t ≤ x ∧ F.mix x y u ≤ F.mix x y t ∧ F.mix x y (lit 1) ≤ F.mix x y u) := by
  have fd := diff_fin hx hy
  have z := C24_float_zero x y hx.1 fd
  have t0 : lit 0 ≤ t := le_of_val_le isFin_lit_zero ht.1 (by rw [val_lit_zero]; simpa using ht.2.1)
  have u1 : u ≤ lit 1 := le_of_val_le hu.1 isFin_lit_one (by rw [val_lit_one]; simpa using hu.2.2)
  have zb := beq_iff.1 z
  have m0 := mix_mono hx.1 hy.1 isFin_lit_zero ht.1 fd t0
  have m1 := mix_mono hx.1 hy.1 ht.1 hu.1 fd htu
  have m2 := mix_mono hx.1 hy.1 hu.1 isFin_lit_one fd u1
  refine ⟨z, mix_one_near hx.1 hy.1 hx.2 hy.2, fun h => ⟨?_, m1.1 h, m2.1 h⟩, fun h => ⟨?_, m1.2 h, m2.2 h⟩⟩
  · have := m0.1 h
    exact ⟨isFin_ne_nan hx.1, this.2.1, by rw [← zb.2.2]; exact this.2.2⟩
  · have := m0.2 h
    exact ⟨this.1, isFin_ne_nan hx.1, by rw [← zb.2.2]; exact this.2.2⟩

/-- C103, `mix(x, y, 1)` is `y` exactly when `x` and `y` have the same sign and are within a factor of two. -/
theorem C103_mix_one (x y : F32) (fx : x.IsFin = true) (fy : y.IsFin = true) (hs : 0 ≤ x.val * y.val)
    (h1 : |x.val| ≤ 2 * |y.val|) (h2 : |y.val| ≤ 2 * |x.val|) : (F.mix x y (lit 1) == y) = true := by
  obtain ⟨fd, vd⟩ := sterbenz fy fx (by rw [mul_comm]; exact hs) h2 h1
  unfold F.mix
  rw [one_mul', add_fin fx fd, vd, add_sub_cancel]
  exact beq_iff.2 ⟨round_ne_nan _ _, isFin_ne_nan fy, key_round_val fy _⟩

/-- C103, `mix` of `vec2`, with a vector or a number as parameter: every component is accurate. -/
theorem C103_vec2_mix (x y t : V2 F32) (s : F32) (hx : ∀ i, EndPoint (coord x i)) (hy : ∀ i, EndPoint (coord y i))
    (ht : ∀ i, (coord t i).IsFin = true ∧ |((coord t i).val : ℝ)| ≤ 1) (hs : s.IsFin = true ∧ |(s.val : ℝ)| ≤ 1) (i : Fin 2) :
    Near (coord (V2.mix x y t) i) (wayFrom (coord x i).val (coord y i).val (coord t i).val)
      (mixTol (coord x i).val (coord y i).val (coord t i).val) ∧
    Near (coord (V2.mixS x y s) i) (wayFrom (coord x i).val (coord y i).val s.val)
      (mixTol (coord x i).val (coord y i).val s.val) := by
  have a := C103_mix _ _ _ (hx i) (hy i) (ht i).1 (ht i).2
  have b := C103_mix _ _ _ (hx i) (hy i) hs.1 hs.2
  fin_cases i <;> exact ⟨a, b⟩

/-- C103, `mix` of `vec3`, with a vector or a number as parameter: every component is accurate. -/
theorem C103_vec3_mix (x y t : V3 F32) (s : F32) (hx : ∀ i, EndPoint (coord x i)) (hy : ∀ i, EndPoint (coord y i))
    (ht : ∀ i, (coord t i).IsFin = true ∧ |((coord t i).val : ℝ)| ≤ 1) (hs : s.IsFin = true ∧ |(s.val : ℝ)| ≤ 1) (i : Fin 3) :
    Near (coord (V3.mix x y t) i) (wayFrom (coord x i).val (coord y i).val (coord t i).val)
      (mixTol (coord x i).val (coord y i).val (coord t i).val) ∧
    Near (coord (V3.mixS x y s) i) (wayFrom (coord x i).val (coord y i).val s.val)
      (mixTol (coord x i).val (coord y i).val s.val) := by
  have a := C103_mix _ _ _ (hx i) (hy i) (ht i).1 (ht i).2
  have b := C103_mix _ _ _ (hx i) (hy i) hs.1 hs.2
  fin_cases i <;> exact ⟨a, b⟩

/-- C103, `mix` of `vec4`, with a vector or a number as parameter: every component is accurate. -/
theorem C103_vec4_mix (x y t : V4 F32) (s : F32) (hx : ∀ i, EndPoint (coord x i)) (hy : ∀ i, EndPoint (coord y i))
    (ht : ∀ i, (coord t i).IsFin = true ∧ |((coord t i).val : ℝ)| ≤ 1) (hs : s.IsFin = true ∧ |(s.val : ℝ)| ≤ 1) (i : Fin 4) :
    Near (coord (V4.mix x y t) i) (wayFrom (coord x i).val (coord y i).val (coord t i).val)
      (mixTol (coord x i).val (coord y i).val (coord t i).val) ∧
    Near (coord (V4.mixS x y s) i) (wayFrom (coord x i).val (coord y i).val s.val)
      (mixTol (coord x i).val (coord y i).val s.val) := by
  have a := C103_mix _ _ _ (hx i) (hy i) (ht i).1 (ht i).2
  have b := C103_mix _ _ _ (hx i) (hy i) hs.1 hs.2
  fin_cases i <;> exact ⟨a, b⟩

/-- C103, `smoothstep(float, float, float)`: exactly 0 up to the first edge, exactly 1 from the second edge on, and
everywhere within half a unit in the twentieth binary place of the exact transition. -/
theorem C103_smoothstep (e0 e1 x : F32) (he : Sides e0 e1) (hl : e0 < e1) (hx : Coordinate x) :
    (x ≤ e0 → F.smoothstep e0 e1 x = lit 0) ∧ (e1 ≤ x → F.smoothstep e0 e1 x = lit 1) ∧
    Near (F.smoothstep e0 e1 x) (transition e0.val e1.val x.val) (8 / 2 ^ 24) := by
  obtain ⟨f0, f1, b0, b1, gap⟩ := he
  have fd : (e1 - e0).IsFin = true := (rel_sub f1 f0 ((abs_sub _ _).trans (by linarith))).fin
  have fn : (x - e0).IsFin = true := (rel_sub hx.1 f0 ((abs_sub _ _).trans (by linarith [hx.2]))).fin
  exact ⟨smooth_zero f0 f1 hx.1 hl fd fn, smooth_one f0 f1 hx.1 hl fd fn, smoothstep_near ⟨f0, f1, b0, b1, gap⟩ hx hl⟩

private theorem transition_mono {a b x y : ℝ} (h : a < b) (hxy : x ≤ y) : transition a b x ≤ transition a b y := by
  unfold transition
  dsimp only
  have hm : max 0 (min 1 ((x - a) / (b - a))) ≤ max 0 (min 1 ((y - a) / (b - a))) := by
    have : (x - a) / (b - a) ≤ (y - a) / (b - a) := div_le_div_of_nonneg_right (by linarith) (by linarith)
    exact max_le_max le_rfl (min_le_min le_rfl this)
  have s0 : 0 ≤ max 0 (min 1 ((x - a) / (b - a))) := le_max_left _ _
  have t1 : max 0 (min 1 ((y - a) / (b - a))) ≤ 1 := max_le zero_le_one (min_le_left _ _)
  generalize max 0 (min 1 ((x - a) / (b - a))) = s at *
  generalize max 0 (min 1 ((y - a) / (b - a))) = t at *
  have e : (3 * t ^ 2 - 2 * t ^ 3) - (3 * s ^ 2 - 2 * s ^ 3) = (t - s) * (3 * (t + s) - 2 * (t ^ 2 + t * s + s ^ 2)) := by ring
  have : 0 ≤ (t - s) * (3 * (t + s) - 2 * (t ^ 2 + t * s + s ^ 2)) := by
    refine mul_nonneg (by linarith) ?_
    nlinarith [mul_nonneg s0 (by linarith : (0 : ℝ) ≤ 1 - s), mul_nonneg (by linarith : (0 : ℝ) ≤ t) (by linarith : (0 : ℝ) ≤ 1 - t),
      mul_nonneg s0 (by linarith : (0 : ℝ) ≤ 1 - t), mul_nonneg s0 (by linarith : (0 : ℝ) ≤ t)]
  linarith

/-- C103, order: for `x <= y` the result at `x` exceeds the result at `y` by at most one unit in the twentieth binary
place, and the tolerance is needed: there are floats where the result does decrease. -/
theorem C103_smoothstep_order :
    (∀ e0 e1 x y : F32, Sides e0 e1 → e0 < e1 → Coordinate x → Coordinate y → x ≤ y →
      ((F.smoothstep e0 e1 x).val : ℝ) ≤ (F.smoothstep e0 e1 y).val + 1 / 2 ^ 20) ∧
    ∃ x y : F32, lit 0 ≤ x ∧ x < y ∧ y ≤ lit 1 ∧ F.smoothstep (lit 0) (lit 1) y < F.smoothstep (lit 0) (lit 1) x := by
  refine ⟨fun e0 e1 x y he hl hx hy h => ?_, lit (15183737 / 2 ^ 24), lit (15183738 / 2 ^ 24), ?_⟩
  · have a := (C103_smoothstep e0 e1 x he hl hx).2.2.2
    have b := (C103_smoothstep e0 e1 y he hl hy).2.2.2
    have hl' : (e0.val : ℝ) < e1.val := by
      have : e0.val < e1.val := not_le.1 (fun c => not_le.2 hl.2.2 (key_le_iff.2 c))
      exact_mod_cast this
    have m := transition_mono hl' (val_le_of_le h)
    rw [abs_le] at a b
    linarith [a.2, b.1]
  · decide +kernel

/-- C103, `smoothstep` of `vec2`: every component. -/
theorem C103_vec2_smoothstep (e0 e1 x : V2 F32) (i : Fin 2) (he : Sides (coord e0 i) (coord e1 i))
    (hl : coord e0 i < coord e1 i) (hx : Coordinate (coord x i)) :
    (coord x i ≤ coord e0 i → coord (V2.smoothstep e0 e1 x) i = lit 0) ∧
    (coord e1 i ≤ coord x i → coord (V2.smoothstep e0 e1 x) i = lit 1) ∧
    Near (coord (V2.smoothstep e0 e1 x) i) (transition (coord e0 i).val (coord e1 i).val (coord x i).val) (8 / 2 ^ 24) := by
  have a := C103_smoothstep _ _ _ he hl hx
  fin_cases i <;> exact a

/-- C103, `smoothstep` of `vec3`: every component. -/
theorem C103_vec3_smoothstep (e0 e1 x : V3 F32) (i : Fin 3) (he : Sides (coord e0 i) (coord e1 i))
    (hl : coord e0 i < coord e1 i) (hx : Coordinate (coord x i)) :
    (coord x i ≤ coord e0 i → coord (V3.smoothstep e0 e1 x) i = lit 0) ∧
    (coord e1 i ≤ coord x i → coord (V3.smoothstep e0 e1 x) i = lit 1) ∧
    Near (coord (V3.smoothstep e0 e1 x) i) (transition (coord e0 i).val (coord e1 i).val (coord x i).val) (8 / 2 ^ 24) := by
  have a := C103_smoothstep _ _ _ he hl hx
  fin_cases i <;> exact a

/-- C103, `smoothstep` of `vec4`: every component. -/
theorem C103_vec4_smoothstep (e0 e1 x : V4 F32) (i : Fin 4) (he : Sides (coord e0 i) (coord e1 i))
    (hl : coord e0 i < coord e1 i) (hx : Coordinate (coord x i)) :
    (coord x i ≤ coord e0 i → coord (V4.smoothstep e0 e1 x) i = lit 0) ∧
    (coord e1 i ≤ coord x i → coord (V4.smoothstep e0 e1 x) i = lit 1) ∧
    Near (coord (V4.smoothstep e0 e1 x) i) (transition (coord e0 i).val (coord e1 i).val (coord x i).val) (8 / 2 ^ 24) := by
  have a := C103_smoothstep _ _ _ he hl hx
  fin_cases i <;> exact a

/-! Non-vacuity -/
private theorem real_lit {x : F32} {q : ℚ} (h : x.val = q) : (x.val : ℝ) = q := by rw [h]

example : EndPoint (lit 3) ∧ EndPoint (lit (-7)) ∧ Fraction (lit (1 / 4)) := by
  have a : ((lit 3 : F32).val : ℝ) = 3 := by rw [real_lit (q := 3) (by decide +kernel)]; norm_num
  have b : ((lit (-7) : F32).val : ℝ) = -7 := by rw [real_lit (q := -7) (by decide +kernel)]; norm_num
  have c : ((lit (1 / 4) : F32).val : ℝ) = 1 / 4 := by rw [real_lit (q := 1 / 4) (by decide +kernel)]; norm_num
  refine ⟨⟨by decide +kernel, ?_⟩, ⟨by decide +kernel, ?_⟩, ⟨by decide +kernel, ?_, ?_⟩⟩ <;>
    simp only [a, b, c] <;> norm_num [abs_le]
example : (lit 0 : F32) ≤ lit (1 / 4) ∧ (lit (1 / 4) : F32) ≤ lit 1 := by decide +kernel
example : wayFrom 3 (-7) (1 / 4) = 1 / 2 := by norm_num [wayFrom]
example : F.mix (lit 3 : F32) (lit (-7)) (lit (1 / 4)) = lit (1 / 2) := by decide +kernel
-- within a factor of two, although the difference is tiny
example : 0 ≤ (lit (1 / 10) : F32).val * (lit (1 / 7) : F32).val ∧
    |(lit (1 / 10) : F32).val| ≤ 2 * |(lit (1 / 7) : F32).val| ∧ |(lit (1 / 7) : F32).val| ≤ 2 * |(lit (1 / 10) : F32).val| := by
  decide +kernel
example : Sides (lit 1) (lit 3) ∧ (lit 1 : F32) < lit 3 ∧ Coordinate (lit 2) := by
  have a : ((lit 1 : F32).val : ℝ) = 1 := by rw [real_lit (q := 1) (by decide +kernel)]; norm_num
  have b : ((lit 3 : F32).val : ℝ) = 3 := by rw [real_lit (q := 3) (by decide +kernel)]; norm_num
  have c : ((lit 2 : F32).val : ℝ) = 2 := by rw [real_lit (q := 2) (by decide +kernel)]; norm_num
  refine ⟨⟨by decide +kernel, by decide +kernel, ?_, ?_, ?_⟩, by decide +kernel, ⟨by decide +kernel, ?_⟩⟩ <;>
    simp only [a, b, c] <;> norm_num [abs_le]
example : transition 1 3 2 = 1 / 2 := by norm_num [transition]

end Zcm
