import Verif.Lemmas.F32Persp
import Verif.Lemmas.F32Mix

/-!
# Projections and the order of points in binary32
-/

set_option exponentiation.threshold 300

namespace Zcm

open F32

private theorem same_val {a b : F32} (h : SameNumber a b) : a.val = b.val := by
  rcases h with rfl | ⟨-, -, h1, h2⟩
  · rfl
  · rw [h1, h2]

private theorem same_fin {a b : F32} (h : SameNumber a b) (ha : a.IsFin = true) : b.IsFin = true := by
  rcases h with rfl | ⟨-, h1, -, -⟩
  · exact ha
  · exact h1

private theorem same_le {a b c d : F32} (h1 : SameNumber a c) (h2 : SameNumber b d) (ha : a.IsFin = true) (hb : b.IsFin = true)
    (h : c ≤ d) : a ≤ b := by
  have := val_le_of_le h
  rw [← same_val h1, ← same_val h2] at this
  exact le_of_val_le ha hb this

theorem nonneg_of_near {x : F32} {r e : ℝ} (h : Near x r e) (he : e ≤ r) : 0 ≤ (x.val : ℝ) := by
  have := (abs_le.1 h.2).1
  linarith

theorem nonpos_of_near {x : F32} {r e : ℝ} (h : Near x r e) (he : e ≤ -r) : (x.val : ℝ) ≤ 0 := by
  have := (abs_le.1 h.2).2
  linarith

private theorem zero_le {s : F32} (fs : s.IsFin = true) (h : 0 ≤ (s.val : ℝ)) : lit 0 ≤ s :=
  le_of_val_le isFin_lit_zero fs (by rw [val_lit_zero]; simpa using h)

private theorem scale_le {s x y : F32} (fs : s.IsFin = true) (s0 : 0 ≤ (s.val : ℝ)) (fx : x.IsFin = true) (fy : y.IsFin = true) (h : x ≤ y) :
    s * x ≤ s * y := by
  rw [mul_comm' s, mul_comm' s]
  exact mul_le' h fx fy fs (zero_le fs s0)

private theorem scale_ge {s x y : F32} (fs : s.IsFin = true) (s0 : (s.val : ℝ) ≤ 0) (fx : x.IsFin = true) (fy : y.IsFin = true) (h : x ≤ y) :
    s * y ≤ s * x := by
  have k := neg_le_neg' (scale_le (s := -s) (by rw [isFin_neg]; exact fs) (by rw [val_neg]; push_cast; linarith) fx fy h)
  rwa [neg_mul', neg_mul', neg_neg', neg_neg'] at k

private theorem shift_le {x y t : F32} (ft : t.IsFin = true) (h : x ≤ y) (f1 : (x + t).IsFin = true) (f2 : (y + t).IsFin = true) : x + t ≤ y + t :=
  add_le' h (le_refl' (isFin_ne_nan ft)) (isFin_ne_nan f1) (isFin_ne_nan f2)

/-- one axis of a box, increasing -/
theorem axis_le {s t x y a b : F32} (ha : SameNumber a (s * x + t)) (hb : SameNumber b (s * y + t)) (fa : a.IsFin = true)
    (fb : b.IsFin = true) (fs : s.IsFin = true) (ft : t.IsFin = true) (s0 : 0 ≤ (s.val : ℝ)) (fx : x.IsFin = true)
    (fy : y.IsFin = true) (h : x ≤ y) : a ≤ b :=
  same_le ha hb fa fb (shift_le ft (scale_le fs s0 fx fy h) (same_fin ha fa) (same_fin hb fb))

/-- one axis of a box, decreasing -/
theorem axis_ge {s t x y a b : F32} (ha : SameNumber a (s * x + t)) (hb : SameNumber b (s * y + t)) (fa : a.IsFin = true)
    (fb : b.IsFin = true) (fs : s.IsFin = true) (ft : t.IsFin = true) (s0 : (s.val : ℝ) ≤ 0) (fx : x.IsFin = true)
    (fy : y.IsFin = true) (h : x ≤ y) : b ≤ a :=
  same_le hb ha fb fa (shift_le ft (scale_ge fs s0 fx fy h) (same_fin hb fb) (same_fin ha fa))

/-- The order of points under a matrix that scales and translates. -/
theorem box_order {m : M4 F32} {sx sy sz tx ty tz : ℝ} (hd : Diag m) (hw : m.c3.w = lit 1)
    (hE : ∀ c r, Near (entry m c r) (boxMatrix sx sy sz tx ty tz r c) (4 / 2 ^ 24 * |boxMatrix sx sy sz tx ty tz r c| + 1 / 2 ^ 150))
    (hx : 1 / 2 ^ 62 ≤ sx) (hy : 1 / 2 ^ 62 ≤ sy) {p q : V3 F32} (hp : ∀ i, (coord p i).IsFin = true) (hq : ∀ i, (coord q i).IsFin = true)
    (gp : ∀ i, (coord (m * V4.ofXYZ_W p (lit 1)) i).IsFin = true) (gq : ∀ i, (coord (m * V4.ofXYZ_W q (lit 1)) i).IsFin = true) :
    (p.x ≤ q.x → coord (m * V4.ofXYZ_W p (lit 1)) 0 ≤ coord (m * V4.ofXYZ_W q (lit 1)) 0) ∧
    (p.y ≤ q.y → coord (m * V4.ofXYZ_W p (lit 1)) 1 ≤ coord (m * V4.ofXYZ_W q (lit 1)) 1) ∧
    (1 / 2 ^ 62 ≤ sz → p.z ≤ q.z → coord (m * V4.ofXYZ_W p (lit 1)) 2 ≤ coord (m * V4.ofXYZ_W q (lit 1)) 2) ∧
    (1 / 2 ^ 62 ≤ -sz → p.z ≤ q.z → coord (m * V4.ofXYZ_W q (lit 1)) 2 ≤ coord (m * V4.ofXYZ_W p (lit 1)) 2) := by
  obtain ⟨a0, a1, a2, -⟩ := box_point hd hw hp
  obtain ⟨b0, b1, b2, -⟩ := box_point hd hw hq
  have pos : ∀ {x : F32} {s : ℝ}, Near x s (4 / 2 ^ 24 * |s| + 1 / 2 ^ 150) → 1 / 2 ^ 62 ≤ s → 0 ≤ (x.val : ℝ) := fun n h => by
    refine nonneg_of_near n ?_
    rw [abs_of_pos (lt_of_lt_of_le (by norm_num) h)]
    linarith
  have neg : ∀ {x : F32} {s : ℝ}, Near x s (4 / 2 ^ 24 * |s| + 1 / 2 ^ 150) → 1 / 2 ^ 62 ≤ -s → (x.val : ℝ) ≤ 0 := fun n h => by
    refine nonpos_of_near n ?_
    rw [abs_of_neg (by linarith [show (0:ℝ) < 1 / 2 ^ 62 by norm_num])]
    linarith
  have e0 : Near m.c0.x sx _ := hE 0 0
  have e1 : Near m.c1.y sy _ := hE 1 1
  have e2 : Near m.c2.z sz _ := hE 2 2
  have t0 : m.c3.x.IsFin = true := (hE 3 0).1
  have t1 : m.c3.y.IsFin = true := (hE 3 1).1
  have t2 : m.c3.z.IsFin = true := (hE 3 2).1
  exact ⟨fun h => axis_le a0 b0 (gp 0) (gq 0) e0.1 t0 (pos e0 hx) (hp 0) (hq 0) h,
    fun h => axis_le a1 b1 (gp 1) (gq 1) e1.1 t1 (pos e1 hy) (hp 1) (hq 1) h,
    fun hz h => axis_le a2 b2 (gp 2) (gq 2) e2.1 t2 (pos e2 hz) (hp 2) (hq 2) h,
    fun hz h => axis_ge a2 b2 (gp 2) (gq 2) e2.1 t2 (neg e2 hz) (hp 2) (hq 2) h⟩

theorem frust_of_entries {m : M4 F32} {X Y A B s : ℝ}
    (hE : ∀ c r, Near (entry m c r) (frustumMatrix X Y A B s r c) (7 / 2 ^ 24 * |frustumMatrix X Y A B s r c|)) : Frust m := by
  have z : ∀ {x : F32}, Near x 0 (7 / 2 ^ 24 * |(0 : ℝ)|) → IsZ x := fun h => by
    refine ⟨h.1, ?_⟩
    have := h.2
    rw [abs_zero, mul_zero, sub_zero] at this
    exact_mod_cast abs_nonpos_iff.1 this
  exact ⟨z (hE 0 1), z (hE 0 2), z (hE 0 3), z (hE 1 0), z (hE 1 2), z (hE 1 3), z (hE 2 0), z (hE 2 1), z (hE 3 0), z (hE 3 1), z (hE 3 3)⟩

private theorem div_le_div_same {a b v w : F32} {d : ℝ} (fa : a.IsFin = true) (fb : b.IsFin = true) (hv : Near v d 0) (hw : Near w d 0) (d0 : 0 < d)
    (h : a.val ≤ b.val) : a / v ≤ b / w := by
  have ev : (v.val : ℝ) = d := by have := abs_nonpos_iff.1 hv.2; linarith
  have ew : (w.val : ℝ) = d := by have := abs_nonpos_iff.1 hw.2; linarith
  have e : v.val = w.val := by exact_mod_cast ev.trans ew.symm
  have v0 : 0 < v.val := by rw [← ev] at d0; exact_mod_cast d0
  have w0 : 0 < w.val := e ▸ v0
  rw [div_fin fa hv.1 v0.ne', div_fin fb hw.1 w0.ne']
  refine ⟨round_ne_nan _ _, round_ne_nan _ _, key_round_mono ?_ _ _⟩
  rw [e]
  gcongr

/-- The order of points at the same depth under a perspective projection. -/
theorem frust_order {m : M4 F32} {X Y A B s d : ℝ}
    (hE : ∀ c r, Near (entry m c r) (frustumMatrix X Y A B s r c) (7 / 2 ^ 24 * |frustumMatrix X Y A B s r c|)) (hX : 0 < X) (hY : 0 < Y)
    {p q : V3 F32} (hp : ∀ i, (coord p i).IsFin = true) (hq : ∀ i, (coord q i).IsFin = true) (d0 : 0 < d) (hz : p.z = q.z)
    (gp : ∀ i, (coord (m * V4.ofXYZ_W p (lit 1)) i).IsFin = true) (gq : ∀ i, (coord (m * V4.ofXYZ_W q (lit 1)) i).IsFin = true)
    (wp : Near (coord (m * V4.ofXYZ_W p (lit 1)) 3) d 0) (wq : Near (coord (m * V4.ofXYZ_W q (lit 1)) 3) d 0) :
    let u := m * V4.ofXYZ_W p (lit 1)
    let v := m * V4.ofXYZ_W q (lit 1)
    (p.x ≤ q.x → coord u 0 / coord u 3 ≤ coord v 0 / coord v 3) ∧ (p.y ≤ q.y → coord u 1 / coord u 3 ≤ coord v 1 / coord v 3) ∧
      (coord u 2 / coord u 3).val = (coord v 2 / coord v 3).val := by
  intro u v
  have fr := frust_of_entries hE
  obtain ⟨a0, a1, a2, -⟩ := frust_rows fr (hp 0) (hp 1) (hp 2)
  obtain ⟨b0, b1, b2, -⟩ := frust_rows fr (hq 0) (hq 1) (hq 2)
  have pos : ∀ {x : F32} {r : ℝ}, Near x r (7 / 2 ^ 24 * |r|) → 0 < r → 0 ≤ (x.val : ℝ) := fun n h => by
    refine nonneg_of_near n ?_
    rw [abs_of_pos h]
    linarith
  have e0 : Near m.c0.x X _ := hE 0 0
  have e1 : Near m.c1.y Y _ := hE 1 1
  have go : ∀ {a b : F32}, a ≤ b → a.val ≤ b.val := fun h => by exact_mod_cast val_le_of_le h
  have ez : (coord u 2).val = (coord v 2).val := by rw [same_val a2, same_val b2, hz]
  refine ⟨fun h => ?_, fun h => ?_, ?_⟩
  · exact div_le_div_same (gp 0) (gq 0) wp wq d0 (go (same_le a0 b0 (gp 0) (gq 0) (scale_le e0.1 (pos e0 hX) (hp 0) (hq 0) h)))
  · exact div_le_div_same (gp 1) (gq 1) wp wq d0 (go (same_le a1 b1 (gp 1) (gq 1) (scale_le e1.1 (pos e1 hY) (hp 1) (hq 1) h)))
  · exact le_antisymm (go (div_le_div_same (gp 2) (gq 2) wp wq d0 ez.le)) (go (div_le_div_same (gq 2) (gp 2) wq wp d0 ez.ge))

/-- floats near numbers that are far enough apart -/
theorem near_lt {x y : F32} {r s e f : ℝ} (hx : Near x r e) (hy : Near y s f) (h : r + e < s - f) : x < y := by
  have a := (abs_le.1 hx.2).2
  have b := (abs_le.1 hy.2).1
  refine ⟨isFin_ne_nan hx.1, isFin_ne_nan hy.1, key_lt_iff.2 ?_⟩
  have : (x.val : ℝ) < y.val := by linarith
  exact_mod_cast this

/-- how far apart the depths of two distances are -/
theorem depth_gap {n f d d' : ℝ} (hn : 0 < n) (h : n < f) (h0 : 0 < d) (h1 : 0 < d') :
    depth01 n f d' - depth01 n f d = f / (f - n) * (n * (d' - d) / (d * d')) := by
  have w : f - n ≠ 0 := (sub_pos.2 h).ne'
  unfold depth01
  field_simp
  ring

end Zcm
