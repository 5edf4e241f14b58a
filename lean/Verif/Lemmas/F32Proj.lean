import Verif.Lemmas.F32Diag
import Verif.Lemmas.F32Rel
import Verif.Lemmas.F32Scale
import Verif.Spec.Clip

/-!
# Projection matrices in binary32
-/

set_option exponentiation.threshold 300

namespace Zcm

open F32

theorem Near.same {x y : F32} {r e : ℝ} (h : SameNumber x y) (hy : Near y r e) : Near x r e := by
  rcases h with rfl | ⟨a, b, c, d⟩
  · exact hy
  · refine ⟨a, ?_⟩
    rw [c, ← d]
    exact hy.2

theorem Near.mono {x : F32} {r e f : ℝ} (h : Near x r e) (hf : e ≤ f) : Near x r f := ⟨h.1, h.2.trans hf⟩

theorem near_of_rel {x : F32} {r e : ℝ} (h : Rel x r e) : Near x r (e * |r|) := ⟨h.fin, h.err⟩

theorem near_z {x : F32} {e : ℝ} (h : IsZ x) (he : 0 ≤ e) : Near x 0 e := ⟨h.1, by simpa [h.2] using he⟩

theorem near_exact {x : F32} {r e : ℝ} (h : x.IsFin = true) (hr : (x.val : ℝ) = r) (he : 0 ≤ e) : Near x r e :=
  ⟨h, by rw [hr, sub_self, abs_zero]; exact he⟩

theorem lit_one_cast : ((lit 1 : F32).val : ℝ) = 1 := by rw [val_lit_one]; norm_num

theorem lit_two_real : (lit 2 : F32).IsFin = true ∧ ((lit 2 : F32).val : ℝ) = 2 := by
  have : (lit 2 : F32).val = 2 := by decide +kernel
  exact ⟨by decide +kernel, by rw [this]; norm_num⟩

theorem neg_fin_real {x : F32} {r : ℝ} (h : x.IsFin = true) (e : (x.val : ℝ) = r) :
    (-x).IsFin = true ∧ ((-x).val : ℝ) = -r := ⟨by rw [isFin_neg]; exact h, by rw [val_neg]; push_cast; rw [e]⟩

/-- the entries of a matrix that scales and translates -/
theorem box_entries {m : M4 F32} {sx sy sz tx ty tz : ℝ} (hd : Diag m) (hw : m.c3.w = lit 1)
    (h0 : Near m.c0.x sx (4 / 2 ^ 24 * |sx| + 1 / 2 ^ 150)) (h1 : Near m.c1.y sy (4 / 2 ^ 24 * |sy| + 1 / 2 ^ 150))
    (h2 : Near m.c2.z sz (4 / 2 ^ 24 * |sz| + 1 / 2 ^ 150)) (h3 : Near m.c3.x tx (4 / 2 ^ 24 * |tx| + 1 / 2 ^ 150))
    (h4 : Near m.c3.y ty (4 / 2 ^ 24 * |ty| + 1 / 2 ^ 150)) (h5 : Near m.c3.z tz (4 / 2 ^ 24 * |tz| + 1 / 2 ^ 150))
    (c r : Fin 4) :
    Near (entry m c r) (boxMatrix sx sy sz tx ty tz r c) (4 / 2 ^ 24 * |boxMatrix sx sy sz tx ty tz r c| + 1 / 2 ^ 150) := by
  fin_cases c <;> fin_cases r
  · exact h0
  · exact near_z hd.h0y (by positivity)
  · exact near_z hd.h0z (by positivity)
  · exact near_z hd.h0w (by positivity)
  · exact near_z hd.h1x (by positivity)
  · exact h1
  · exact near_z hd.h1z (by positivity)
  · exact near_z hd.h1w (by positivity)
  · exact near_z hd.h2x (by positivity)
  · exact near_z hd.h2y (by positivity)
  · exact h2
  · exact near_z hd.h2w (by positivity)
  · exact h3
  · exact h4
  · exact h5
  · show Near m.c3.w 1 (4 / 2 ^ 24 * |(1 : ℝ)| + 1 / 2 ^ 150)
    rw [hw]
    exact near_exact isFin_lit_one lit_one_cast (by positivity)

/-- the image of a point under such a matrix -/
theorem box_point {m : M4 F32} (hd : Diag m) (hw : m.c3.w = lit 1) {p : V3 F32} (hp : ∀ i, (coord p i).IsFin = true) :
    SameNumber (coord (m * V4.ofXYZ_W p (lit 1)) 0) (m.c0.x * p.x + m.c3.x) ∧
    SameNumber (coord (m * V4.ofXYZ_W p (lit 1)) 1) (m.c1.y * p.y + m.c3.y) ∧
    SameNumber (coord (m * V4.ofXYZ_W p (lit 1)) 2) (m.c2.z * p.z + m.c3.z) ∧
    Near (coord (m * V4.ofXYZ_W p (lit 1)) 3) 1 0 := by
  obtain ⟨x, y, z, w⟩ := hd.rows hp (lit 1)
  rw [mul_one'] at x y z w
  refine ⟨x, y, z, Near.same w ?_⟩
  rw [hw]
  exact near_exact isFin_lit_one lit_one_cast le_rfl

theorem Sides.width {a b : F32} (h : Sides a b) : |(b.val : ℝ) - a.val| ≤ 2 ^ 61 ∧ |(b.val : ℝ) + a.val| ≤ 2 ^ 61 := by
  obtain ⟨-, -, h1, h2, -⟩ := h
  constructor
  · exact (abs_sub _ _).trans (by linarith)
  · exact (abs_add_le _ _).trans (by linarith)

/-- One axis of a box mapped to -1 ... 1: scale, offset, and the image of a coordinate. -/
theorem sides_minusOneToOne {A lo hi p : F32} {a t : ℝ} (hs : Sides lo hi) (hA : A.IsFin = true) (ea : (A.val : ℝ) = a)
    (ha : a = 2 ∨ a = -2) (hp : Coordinate p) (ht : a * p.val = 2 * t) :
    Near (A / (hi - lo)) (a / (hi.val - lo.val)) (4 / 2 ^ 24 * |a / (hi.val - lo.val)| + 1 / 2 ^ 150) ∧
    Near ((-(hi + lo)) / (hi - lo)) (-(hi.val + lo.val) / (hi.val - lo.val))
      (4 / 2 ^ 24 * |(-(hi.val + lo.val) : ℝ) / (hi.val - lo.val)| + 1 / 2 ^ 150) ∧
    Near (A / (hi - lo) * p + (-(hi + lo)) / (hi - lo)) (minusOneToOne lo.val hi.val t)
      (5 / 2 ^ 24 * ((2 * |t| + |(hi.val : ℝ) + lo.val|) / |(hi.val : ℝ) - lo.val|) + 1 / 2 ^ 148) := by
  obtain ⟨w2, w3⟩ := hs.width
  obtain ⟨fl, fh, l1, h1, w1⟩ := hs
  have a2 : |a| = 2 := by rcases ha with rfl | rfl <;> norm_num
  have T : Rel (-(hi + lo)) (-(hi.val + lo.val)) (1 / 2 ^ 24) := (rel_add fh fl (w3.trans (by norm_num))).neg
  obtain ⟨S, Q, f, e⟩ := axis_map hA ea (by rw [a2]; norm_num) a2.le T (by rw [abs_neg]; exact w3) fl fh w1 w2 hp.1 hp.2
  refine ⟨(near_of_rel S).mono ?_, Q, f, ?_⟩
  · have := abs_nonneg (a / ((hi.val : ℝ) - lo.val))
    linarith
  · have wne : (hi.val : ℝ) - lo.val ≠ 0 := abs_pos.1 (lt_of_lt_of_le (by norm_num) w1)
    have e1 : minusOneToOne lo.val hi.val t = (a * p.val + -(hi.val + lo.val)) / (hi.val - lo.val) := by
      rw [ht]; unfold minusOneToOne; field_simp; ring
    have e2 : |a * p.val| = 2 * |t| := by rw [ht, abs_mul]; norm_num
    rw [abs_neg, e2] at e
    rw [e1]
    exact e

/-- One axis of a box mapped to 0 ... 1. -/
theorem sides_zeroToOne {A lo hi p : F32} {a t : ℝ} (hs : Sides lo hi) (hA : A.IsFin = true) (ea : (A.val : ℝ) = a)
    (ha : a = 1 ∨ a = -1) (hp : Coordinate p) (ht : a * p.val = t) :
    Near (A / (hi - lo)) (a / (hi.val - lo.val)) (4 / 2 ^ 24 * |a / (hi.val - lo.val)| + 1 / 2 ^ 150) ∧
    Near ((-lo) / (hi - lo)) (-lo.val / (hi.val - lo.val))
      (4 / 2 ^ 24 * |(-lo.val : ℝ) / (hi.val - lo.val)| + 1 / 2 ^ 150) ∧
    Near (A / (hi - lo) * p + (-lo) / (hi - lo)) (zeroToOne lo.val hi.val t)
      (5 / 2 ^ 24 * ((|t| + |(lo.val : ℝ)|) / |(hi.val : ℝ) - lo.val|) + 1 / 2 ^ 148) := by
  obtain ⟨w2, -⟩ := hs.width
  obtain ⟨fl, fh, l1, h1, w1⟩ := hs
  have a1 : |a| = 1 := by rcases ha with rfl | rfl <;> norm_num
  have T : Rel (-lo) (-lo.val) (1 / 2 ^ 24) := (Rel.exact fl).neg.mono (by norm_num)
  obtain ⟨S, Q, f, e⟩ := axis_map hA ea a1.ge (by rw [a1]; norm_num) T (by rw [abs_neg]; linarith) fl fh w1 w2 hp.1 hp.2
  refine ⟨(near_of_rel S).mono ?_, Q, f, ?_⟩
  · have := abs_nonneg (a / ((hi.val : ℝ) - lo.val))
    linarith
  · rw [abs_neg, ht] at e
    exact e

theorem regular_val (x : F32) : Regular x.val := by
  refine .inr ⟨x.key, ?_⟩
  unfold F32.val
  field_simp

/-- doubling is exact -/
theorem double_exact {x : F32} (hx : x.IsFin = true) {s : Bool} (h : |x.val| ≤ 2 ^ 126) :
    (round s (x.val * 2)).IsFin = true ∧ (round s (x.val * 2)).val = x.val * 2 := by
  have f : (round s (x.val * 2)).IsFin = true := by
    apply isFin_round
    rw [abs_mul, abs_two]
    calc |x.val| * 2 ≤ 2 ^ 126 * 2 := by gcongr
      _ ≤ _ := by norm_num
  have e := (round_scale (s := s) (regular_val x) 1 (by rw [pow_one]; exact f)).2.2.2
  rw [pow_one] at e
  refine ⟨f, e.trans ?_⟩
  have : (round s x.val).val = x.val := 
    congrArg (fun k : ℤ => (k : ℚ) / 2 ^ 149) (key_round_val hx s)
  rw [this]
  norm_num

theorem round_le_one {s : Bool} {q : ℚ} (h : |q| ≤ 1 + 1 / 2 ^ 24) :
    (round s q).IsFin = true ∧ |(round s q).val| ≤ 1 := by
  refine ⟨isFin_round (h.trans (by norm_num)), ?_⟩
  rw [abs_le] at h ⊢
  have k1 : (round false (1 + 1 / 2 ^ 24)).key = 2 ^ 149 := by decide +kernel
  have k2 : (round false (-(1 + 1 / 2 ^ 24))).key = -2 ^ 149 := by decide +kernel
  have u := key_round_mono h.2 s false
  have l := key_round_mono h.1 false s
  rw [k1] at u
  rw [k2] at l
  unfold val
  constructor
  · rw [le_div_iff₀ (by positivity)]
    have : ((-2 ^ 149 : ℤ) : ℚ) ≤ ((round s q).key : ℚ) := Int.cast_le.2 l
    push_cast at this
    linarith
  · rw [div_le_one (by positivity)]
    have : ((round s q).key : ℚ) ≤ ((2 ^ 149 : ℤ) : ℚ) := Int.cast_le.2 u
    push_cast at this
    exact this

/-- a symmetric pair of sides: no coordinate between them leaves the clip range -/
theorem symmetric_axis {lo hi p : F32} (fl : lo.IsFin = true) (fh : hi.IsFin = true) (e : lo.val = -hi.val)
    (h1 : 1 / 2 ^ 60 ≤ hi.val) (h2 : hi.val ≤ 2 ^ 60) (fp : p.IsFin = true) (hp : |p.val| ≤ hi.val) {x : F32}
    (hx : SameNumber x (lit 2 / (hi - lo) * p + (-(hi + lo)) / (hi - lo))) : x.IsFin = true ∧ |x.val| ≤ 1 := by
  have h0 : 0 < hi.val := lt_of_lt_of_le (by norm_num) h1
  obtain ⟨fw, ew⟩ := double_exact fh (s := hi.sgn && !lo.sgn) (by rw [abs_of_pos h0]; exact h2.trans (by norm_num))
  have w : hi - lo = round (hi.sgn && !lo.sgn) (hi.val * 2) := by
    rw [sub_fin fh fl, e]; congr 1; ring
  rw [← w] at fw ew
  have wne : (hi - lo).val ≠ 0 := by rw [ew]; positivity
  have z : IsZ ((-(hi + lo)) / (hi - lo)) := by
    have z1 : IsZ (hi + lo) := by
      rw [add_fin fh fl, e, add_neg_cancel]; exact isZ_round _
    have f : (-(hi + lo)).IsFin = true := by rw [isFin_neg]; exact z1.1
    rw [div_fin f fw wne, val_neg, z1.2, neg_zero, zero_div]
    exact isZ_round _
  have l2 : (lit 2 : F32).IsFin = true ∧ (lit 2 : F32).val = 2 := ⟨by decide +kernel, by decide +kernel⟩
  have S := div_fin l2.1 fw wne
  rw [l2.2, ew, show 2 / (hi.val * 2) = 1 / hi.val by field_simp] at S
  have b1 : 1 / hi.val ≤ 2 ^ 60 := by
    rw [div_le_iff₀ h0]
    calc (1 : ℚ) = 2 ^ 60 * (1 / 2 ^ 60) := by norm_num
      _ ≤ _ := by gcongr
  have b2 : 1 / 2 ^ 60 ≤ 1 / hi.val := one_div_le_one_div_of_le h0 h2
  have pos : 0 < 1 / hi.val := by positivity
  have fS : (lit 2 / (hi - lo)).IsFin = true := by
    rw [S]; exact isFin_round (by rw [abs_of_pos pos]; exact b1.trans (by norm_num))
  have eS : |(lit 2 / (hi - lo)).val - 1 / hi.val| ≤ 1 / hi.val / 2 ^ 24 := by
    have := round_error_rel (s := (lit 2 : F32).sgn ^^ (hi - lo).sgn) (x := 1 / hi.val) (by rw [← S]; exact fS)
      (by rw [abs_of_pos pos]; exact le_trans (by norm_num) b2)
    rwa [← S, abs_of_pos pos] at this
  have aS : |(lit 2 / (hi - lo)).val| ≤ (1 + 1 / 2 ^ 24) * (1 / hi.val) := by
    calc |(lit 2 / (hi - lo)).val| = |1 / hi.val + ((lit 2 / (hi - lo)).val - 1 / hi.val)| := by congr 1; ring
      _ ≤ 1 / hi.val + 1 / hi.val / 2 ^ 24 := (abs_add_le _ _).trans (by rw [abs_of_pos pos]; gcongr)
      _ = _ := by ring
  have P : |(lit 2 / (hi - lo)).val * p.val| ≤ 1 + 1 / 2 ^ 24 := by
    rw [abs_mul]
    calc |(lit 2 / (hi - lo)).val| * |p.val| ≤ (1 + 1 / 2 ^ 24) * (1 / hi.val) * hi.val := by gcongr
      _ = _ := by field_simp
  obtain ⟨g, k⟩ := round_le_one (s := (lit 2 / (hi - lo)).sgn ^^ p.sgn) P
  rw [← mul_fin fS fp] at g k
  have same := hx.trans (SameNumber.addZ z)
  refine ⟨finite_of_same same g, ?_⟩
  rcases same with h | ⟨_, _, h, h'⟩
  · rw [h]; exact k
  · rw [h]; norm_num

/-- halving a float in the normal range is exact -/
theorem half_exact {a : F32} (ha : a.IsFin = true) (h : 1 / 2 ^ 125 ≤ |a.val|) :
    (a * lit 0.5 : F32).IsFin = true ∧ (a * lit 0.5 : F32).val = a.val / 2 := by
  have hf : (lit 0.5 : F32).IsFin = true ∧ (lit 0.5 : F32).val = 1 / 2 := ⟨by decide +kernel, by decide +kernel⟩
  have r : Regular (a.val / 2) := by
    refine .inl (.inr ?_)
    rw [abs_div, abs_two, le_div_iff₀ (by norm_num)]
    exact le_trans (by norm_num) h
  have e : a.val / 2 * 2 ^ 1 = a.val := by rw [pow_one]; field_simp
  have fr : (round (a.sgn ^^ (lit 0.5 : F32).sgn) a.val).IsFin = true := by
    rw [round_val' ha (by intro h0; rw [h0] at h; norm_num at h)]; exact ha
  have s := round_scale (s := a.sgn ^^ (lit 0.5 : F32).sgn) r 1 (by rw [e]; exact fr)
  rw [e] at s
  have m : a * lit 0.5 = round (a.sgn ^^ (lit 0.5 : F32).sgn) (a.val / 2) := by
    rw [mul_fin ha hf.1, hf.2]; congr 1; ring
  rw [m]
  refine ⟨s.1, ?_⟩
  have v : (round (a.sgn ^^ (lit 0.5 : F32).sgn) a.val).val = a.val := 
    congrArg (fun k : ℤ => (k : ℚ) / 2 ^ 149) (key_round_val ha _)
  have := s.2.2.2
  rw [v, Nat.cast_one, zpow_one] at this
  linarith

/-- a row with two entries, applied to a coordinate -/
theorem two_terms {C K p : F32} {c k e f : ℝ} (hC : Rel C c e) (hK : Near K k (f * |k| + 1 / 2 ^ 150)) (hp : p.IsFin = true)
    (e1 : e ≤ 3.3 / 2 ^ 24) (f1 : f ≤ 4.4 / 2 ^ 24) (hcp : |c * p.val| ≤ 2 ^ 120) (hk : |k| ≤ 2 ^ 120) :
    Near (C * p + K) (c * p.val + k) (5.5 / 2 ^ 24 * (|c * p.val| + |k|) + 1 / 2 ^ 148) := by
  have P := Rel.mul' (g := e + 1.01 / 2 ^ 24) hC (Rel.exact hp) (by linarith) (by nlinarith) (hcp.trans (by norm_num))
  have n1 := abs_nonneg (c * (p.val : ℝ))
  have n2 := abs_nonneg k
  generalize hu : |c * (p.val : ℝ)| = u at *
  generalize hv : |k| = v at *
  have b1 : (e + 1.01 / 2 ^ 24) * u + 1 / 2 ^ 150 ≤ 4.31 / 2 ^ 24 * u + 1 / 2 ^ 150 := by gcongr; linarith
  have b2 : f * v + 1 / 2 ^ 150 ≤ 4.4 / 2 ^ 24 * v + 1 / 2 ^ 150 := by gcongr
  have Z := add_close (r := c * p.val) (s := k) P.1 hK.1 (P.2.trans b1) (hK.2.trans b2) (by rw [hu, hv]; linarith)
  rw [hu, hv] at Z
  exact ⟨Z.1, Z.2.trans (by linarith)⟩

/-- the assertion of the perspective functions -/
theorem persp_assert_float {b : Build} {aspect : F32} (fa : aspect.IsFin = true) (hb : |(aspect.val : ℝ)| ≤ 2 ^ 60)
    (ha : b = .release ∨ aspect.val ≠ 1 / 2 ^ 23) :
    cassert b (decide (F.abs (aspect - (epsilonf : F32)) > lit 0)) = .ok () := by
  rcases ha with rfl | ha
  · rfl
  · have hf : (epsilonf : F32).IsFin = true ∧ (epsilonf : F32).val = 1 / 2 ^ 23 := ⟨by decide +kernel, by decide +kernel⟩
    have hr : ((epsilonf : F32).val : ℝ) = 1 / 2 ^ 23 := by rw [hf.2]; push_cast; rfl
    have r := rel_sub fa hf.1 (by
      rw [hr]
      refine (abs_sub _ _).trans ?_
      rw [abs_of_pos (show (0 : ℝ) < 1 / 2 ^ 23 by positivity)]
      linarith)
    have r0 : (aspect.val : ℝ) - (epsilonf : F32).val ≠ 0 := by
      rw [← Rat.cast_sub]
      exact_mod_cast sub_ne_zero.2 (by rw [hf.2]; exact ha)
    have k0 : (aspect - (epsilonf : F32)).key ≠ 0 := by
      intro k
      have := r.le_abs
      rw [key_eq_zero.1 k, Rat.cast_zero, abs_zero] at this
      have := abs_pos.2 r0
      linarith
    have h : F.abs (aspect - (epsilonf : F32)) > lit 0 := by
      obtain ⟨s, k, hk, e⟩ := exists_fin r.fin
      rw [e] at k0 ⊢
      refine ⟨isFin_ne_nan isFin_lit_zero, by simp [F.abs, FloatOps.fabs, fabs], ?_⟩
      rw [key_lit_zero]
      show 0 < (F32.fin false k hk).key
      rw [key_fin_false]
      have : k ≠ 0 := by
        rintro rfl
        apply k0
        cases s <;> rfl
      exact_mod_cast Nat.pos_of_ne_zero this
    rw [decide_eq_true h]
    cases b <;> rfl

end Zcm
