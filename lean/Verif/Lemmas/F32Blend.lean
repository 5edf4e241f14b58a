import Verif.Lemmas.F32Bisect
import Verif.Spec.Blend

/-!
# Numbers from 0 to 1 under multiplication, `1 - x` and blending
-/

set_option exponentiation.threshold 300

namespace Zcm

/-- A number from 0 to 1. -/
def Frac (x : F32) : Prop := lit 0 ≤ x ∧ x ≤ lit 1

namespace F32

theorem frac_iff {x : F32} : Frac x ↔ x.IsFin = true ∧ 0 ≤ x.val ∧ x.val ≤ 1 := by
  constructor
  · rintro ⟨h0, h1⟩
    have k0 := h0.2.2
    have k1 := h1.2.2
    refine ⟨?_, ?_, ?_⟩
    · rw [isFin_iff h1.1]
      have b0 := key_bound_fin isFin_lit_zero
      have b1 := key_bound_fin isFin_lit_one
      omega
    · simpa using key_le_iff.1 k0
    · simpa using key_le_iff.1 k1
  · rintro ⟨f, h0, h1⟩
    exact ⟨⟨lit_zero_ne_nan, isFin_ne_nan f, key_le_iff.2 (by simpa using h0)⟩,
      ⟨isFin_ne_nan f, isFin_ne_nan isFin_lit_one, key_le_iff.2 (by simpa using h1)⟩⟩

theorem round_le_val {y : F32} (fy : y.IsFin = true) {x : ℚ} (h : x ≤ y.val) (s : Bool) : (round s x).val ≤ y.val :=
  key_le_iff.1 (key_round_le fy h s)

theorem val_le_round {y : F32} (fy : y.IsFin = true) {x : ℚ} (h : y.val ≤ x) (s : Bool) : y.val ≤ (round s x).val :=
  key_le_iff.1 (le_key_round fy h s)

theorem round_val_mono {x y : ℚ} (h : x ≤ y) (s t : Bool) : (round s x).val ≤ (round t y).val := key_le_iff.1 (key_round_mono h s t)

/-- From 0 to 1 the rounding error is at most `2^-25`. -/
theorem round_err_unit {x : ℚ} (h0 : 0 ≤ x) (h1 : x ≤ 1 + 1 / 2 ^ 25) (s : Bool) : |(round s x).val - x| ≤ 1 / 2 ^ 25 := by
  have f : (round s x).IsFin = true := isFin_round (by
    rw [abs_of_nonneg h0]
    refine le_trans h1 (by norm_num))
  by_cases c : x ≤ 1
  · have r := abs_sub_round (x * 2 ^ 24)
    have n0 : 0 ≤ _root_.round (x * 2 ^ 24) := by
      rw [_root_.round_eq]
      exact Int.floor_nonneg.2 (by positivity)
    generalize _root_.round (x * 2 ^ 24) = N at *
    have n1 : N ≤ 2 ^ 24 := by
      have := (_root_.abs_le.1 r).1
      have : x * 2 ^ 24 ≤ 2 ^ 24 := by linarith
      have : (N : ℚ) < ((2 ^ 24 + 1 : ℤ) : ℚ) := by push_cast; linarith
      have : N < 2 ^ 24 + 1 := by exact_mod_cast this
      omega
    obtain ⟨z, fz, ez⟩ := exists_float (M := N) (t := 24) (by rw [abs_of_nonneg n0]; exact n1) (by norm_num)
    refine le_trans (round_nearest' f fz) ?_
    rw [ez, abs_sub_comm, show x - (N : ℚ) / 2 ^ 24 = (x * 2 ^ 24 - N) / 2 ^ 24 by field_simp, abs_div,
      abs_of_pos (show (0 : ℚ) < 2 ^ 24 by positivity), div_le_iff₀ (by positivity)]
    refine le_trans r (by norm_num)
  · refine le_trans (round_nearest' f isFin_lit_one) ?_
    rw [val_lit_one, _root_.abs_le]
    rw [not_le] at c
    constructor <;> linarith

theorem round_near_one {x : ℚ} (h0 : 1 - 1 / 2 ^ 25 ≤ x) (h1 : x ≤ 1 + 1 / 2 ^ 25) (s : Bool) : (round s x).val = 1 := by
  have a := round_val_mono h0 false s
  have b := round_val_mono h1 s false
  have ea : (round false (1 - 1 / 2 ^ 25)).val = 1 := by decide +kernel
  have eb : (round false (1 + 1 / 2 ^ 25)).val = 1 := by decide +kernel
  rw [ea] at a
  rw [eb] at b
  exact le_antisymm b a

theorem frac_round {x : ℚ} (h0 : 0 ≤ x) (h1 : x ≤ 1) (s : Bool) : Frac (round s x) := by
  rw [frac_iff]
  refine ⟨isFin_round_of_between isFin_lit_zero isFin_lit_one (by simpa using h0) (by simpa using h1) s, ?_, ?_⟩
  · simpa using val_le_round isFin_lit_zero (x := x) (by simpa using h0) s
  · simpa using round_le_val isFin_lit_one (x := x) (by simpa using h1) s

theorem frac_mul {x y : F32} (hx : Frac x) (hy : Frac y) : Frac (x * y) ∧ (x * y).val ≤ x.val ∧ (x * y).val ≤ y.val ∧
    |(x * y).val - x.val * y.val| ≤ 1 / 2 ^ 25 := by
  obtain ⟨fx, x0, x1⟩ := frac_iff.1 hx
  obtain ⟨fy, y0, y1⟩ := frac_iff.1 hy
  rw [mul_fin fx fy]
  refine ⟨frac_round (by positivity) (by nlinarith) _, round_le_val fx (by nlinarith) _, round_le_val fy (by nlinarith) _, ?_⟩
  exact round_err_unit (by positivity) (by nlinarith) _

theorem frac_one_sub {a : F32} (ha : Frac a) : Frac (lit 1 - a) ∧ |(lit 1 - a).val - (1 - a.val)| ≤ 1 / 2 ^ 25 := by
  obtain ⟨fa, a0, a1⟩ := frac_iff.1 ha
  rw [sub_fin isFin_lit_one fa, val_lit_one]
  exact ⟨frac_round (by linarith) (by linarith) _, round_err_unit (by linarith) (by linarith) _⟩

/-- `a + (1 - a)` is 1, whatever the rounding of `1 - a`. -/
theorem add_one_sub {a : F32} (ha : Frac a) : (a + (lit 1 - a)).val = 1 := by
  obtain ⟨h, e⟩ := frac_one_sub ha
  obtain ⟨fa, a0, a1⟩ := frac_iff.1 ha
  rw [add_fin fa (frac_iff.1 h).1]
  rw [_root_.abs_le] at e
  exact round_near_one (by linarith) (by linarith) _

/-- Something at most `a` plus something at most `1 - a` stays at most 1. -/
theorem frac_add {x y a : F32} (hx : Frac x) (hy : Frac y) (ha : Frac a) (h1 : x.val ≤ a.val) (h2 : y.val ≤ (lit 1 - a).val) :
    Frac (x + y) ∧ |(x + y).val - (x.val + y.val)| ≤ 1 / 2 ^ 25 := by
  obtain ⟨fx, x0, x1⟩ := frac_iff.1 hx
  obtain ⟨fy, y0, y1⟩ := frac_iff.1 hy
  obtain ⟨fa, a0, a1⟩ := frac_iff.1 ha
  obtain ⟨hr, er⟩ := frac_one_sub ha
  have s := add_one_sub ha
  rw [add_fin fa (frac_iff.1 hr).1] at s
  rw [add_fin fx fy, frac_iff]
  rw [_root_.abs_le] at er
  refine ⟨⟨isFin_round ?_, ?_, ?_⟩, round_err_unit (by linarith) (by linarith) _⟩
  · rw [abs_of_nonneg (by linarith)]
    refine le_trans (b := 2) (by linarith) (by norm_num)
  · simpa using val_le_round isFin_lit_zero (x := x.val + y.val) (by rw [val_lit_zero]; linarith) (x.sgn && y.sgn)
  · have := round_val_mono (x := x.val + y.val) (y := a.val + (lit 1 - a).val) (by linarith) (x.sgn && y.sgn) (a.sgn && (lit 1 - a).sgn)
    rw [s] at this
    exact this

/-- one component of `s * a + d * (1 - a)` -/
theorem blend_frac {s a d : F32} (hs : Frac s) (ha : Frac a) (hd : Frac d) :
    Frac (s * a + d * (lit 1 - a)) ∧
    |(s * a + d * (lit 1 - a)).val - (s.val * a.val + d.val * (1 - a.val))| ≤ 1 / 2 ^ 23 := by
  obtain ⟨hr, er⟩ := frac_one_sub ha
  obtain ⟨m1, _, m2, m3⟩ := frac_mul hs ha
  obtain ⟨n1, _, n2, n3⟩ := frac_mul hd hr
  obtain ⟨q1, q2⟩ := frac_add m1 n1 ha m2 n2
  refine ⟨q1, ?_⟩
  obtain ⟨fd, d0, d1⟩ := frac_iff.1 hd
  have t : |d.val * (lit 1 - a).val - d.val * (1 - a.val)| ≤ 1 / 2 ^ 25 := by
    rw [← mul_sub, abs_mul, abs_of_nonneg d0]
    nlinarith [abs_nonneg ((lit 1 - a).val - (1 - a.val))]
  rw [_root_.abs_le] at *
  norm_num at *
  constructor <;> linarith [m3.1, m3.2, n3.1, n3.2, q2.1, q2.2, t.1, t.2]

theorem blend_mono {s s' a d d' : F32} (hs : Frac s) (hs' : Frac s') (ha : Frac a) (hd : Frac d) (hd' : Frac d')
    (h1 : s ≤ s') (h2 : d ≤ d') : s * a + d * (lit 1 - a) ≤ s' * a + d' * (lit 1 - a) := by
  obtain ⟨hr, er⟩ := frac_one_sub ha
  have b1 := (blend_frac hs ha hd).1
  have b2 := (blend_frac hs' ha hd').1
  refine ⟨isFin_ne_nan (frac_iff.1 b1).1, isFin_ne_nan (frac_iff.1 b2).1, ?_⟩
  have v1 := key_le_iff.1 h1.2.2
  have v2 := key_le_iff.1 h2.2.2
  obtain ⟨fs, _, _⟩ := frac_iff.1 hs
  obtain ⟨fs', _, _⟩ := frac_iff.1 hs'
  obtain ⟨fd, _, _⟩ := frac_iff.1 hd
  obtain ⟨fd', _, _⟩ := frac_iff.1 hd'
  obtain ⟨fa, a0, _⟩ := frac_iff.1 ha
  obtain ⟨fr, r0, _⟩ := frac_iff.1 hr
  have p1 : (s * a).val ≤ (s' * a).val := by
    rw [mul_fin fs fa, mul_fin fs' fa]; exact round_val_mono (by nlinarith) _ _
  have p2 : (d * (lit 1 - a)).val ≤ (d' * (lit 1 - a)).val := by
    rw [mul_fin fd fr, mul_fin fd' fr]; exact round_val_mono (by nlinarith) _ _
  rw [add_fin (frac_iff.1 (frac_mul hs ha).1).1 (frac_iff.1 (frac_mul hd hr).1).1,
    add_fin (frac_iff.1 (frac_mul hs' ha).1).1 (frac_iff.1 (frac_mul hd' hr).1).1]
  exact key_round_mono (by linarith) _ _

theorem val_mul_one' {x : F32} (fx : x.IsFin = true) {o : F32} (fo : o.IsFin = true) (ho : o.val = 1) : (x * o).val = x.val ∧ (o * x).val = x.val := by
  rw [mul_fin fx fo, mul_fin fo fx, ho, mul_one, one_mul]
  exact ⟨key_eq_iff.1 (key_round_val fx _), key_eq_iff.1 (key_round_val fx _)⟩

theorem val_mul_zero' {x : F32} (fx : x.IsFin = true) {o : F32} (fo : o.IsFin = true) (ho : o.val = 0) : (x * o).val = 0 ∧ (o * x).val = 0 := by
  rw [mul_fin fx fo, mul_fin fo fx, ho, mul_zero, zero_mul]
  have := key_eq_iff.1 (key_round_val isFin_lit_zero (x.sgn ^^ o.sgn))
  have t := key_eq_iff.1 (key_round_val isFin_lit_zero (o.sgn ^^ x.sgn))
  rw [val_lit_zero] at this t
  exact ⟨this, t⟩

theorem val_add_zero' {x z : F32} (fx : x.IsFin = true) (fz : z.IsFin = true) (hz : z.val = 0) : (x + z).val = x.val ∧ (z + x).val = x.val := by
  rw [add_fin fx fz, add_fin fz fx, hz, add_zero, zero_add]
  exact ⟨key_eq_iff.1 (key_round_val fx _), key_eq_iff.1 (key_round_val fx _)⟩

theorem val_one_sub {a : F32} (fa : a.IsFin = true) : (a.val = 1 → (lit 1 - a).val = 0) ∧ (a.val = 0 → (lit 1 - a).val = 1) := by
  rw [sub_fin isFin_lit_one fa, val_lit_one]
  constructor
  · intro h
    rw [h, sub_self]
    have := key_eq_iff.1 (key_round_val isFin_lit_zero ((lit 1 : F32).sgn && !a.sgn))
    rwa [val_lit_zero] at this
  · intro h
    rw [h, sub_zero]
    have := key_eq_iff.1 (key_round_val isFin_lit_one ((lit 1 : F32).sgn && !a.sgn))
    rwa [val_lit_one] at this

theorem beq_of_val {a b : F32} (fa : a.IsFin = true) (fb : b.IsFin = true) : (a == b) = true ↔ a.val = b.val := by
  rw [beq_iff, key_eq_iff]
  exact ⟨fun h => h.2.2, fun h => ⟨isFin_ne_nan fa, isFin_ne_nan fb, h⟩⟩

theorem val_add_congr {x y x' y' : F32} (fx : x.IsFin = true) (fy : y.IsFin = true) (fx' : x'.IsFin = true) (fy' : y'.IsFin = true)
    (h1 : x.val = x'.val) (h2 : y.val = y'.val) : (x + y).val = (x' + y').val := by
  rw [add_fin fx fy, add_fin fx' fy', h1, h2, ← key_eq_iff, key_round, key_round]

theorem blend_clear {s a d : F32} (hs : Frac s) (ha : Frac a) (hd : Frac d) (h : a.val = 0) :
    (s * a + d * (lit 1 - a)).val = d.val := by
  obtain ⟨hr, _⟩ := frac_one_sub ha
  have fa := (frac_iff.1 ha).1
  have fd := (frac_iff.1 hd).1
  have fs := (frac_iff.1 hs).1
  have e := (val_one_sub fa).2 h
  have e1 := (val_mul_one' fd (frac_iff.1 hr).1 e).1
  have e2 := (val_mul_zero' fs fa h).1
  rw [(val_add_zero' (frac_iff.1 (frac_mul hd hr).1).1 (frac_iff.1 (frac_mul hs ha).1).1 e2).2, e1]

theorem blend_solid {s a d : F32} (hs : Frac s) (ha : Frac a) (hd : Frac d) (h : a.val = 1) :
    (s * a + d * (lit 1 - a)).val = s.val := by
  obtain ⟨hr, _⟩ := frac_one_sub ha
  have fa := (frac_iff.1 ha).1
  have fd := (frac_iff.1 hd).1
  have fs := (frac_iff.1 hs).1
  have e := (val_one_sub fa).1 h
  have e1 := (val_mul_zero' fd (frac_iff.1 hr).1 e).1
  have e2 := (val_mul_one' fs fa h).1
  rw [(val_add_zero' (frac_iff.1 (frac_mul hs ha).1).1 (frac_iff.1 (frac_mul hd hr).1).1 e1).1, e2]

/-- 0 over 0 is 0 and 1 over 1 is 1, exactly. -/
theorem blend_pure {s a d : F32} (hs : Frac s) (ha : Frac a) (hd : Frac d) :
    (s.val = 0 → d.val = 0 → (s * a + d * (lit 1 - a)).val = 0) ∧ (s.val = 1 → d.val = 1 → (s * a + d * (lit 1 - a)).val = 1) := by
  obtain ⟨hr, _⟩ := frac_one_sub ha
  have fa := (frac_iff.1 ha).1
  have fd := (frac_iff.1 hd).1
  have fs := (frac_iff.1 hs).1
  have fr := (frac_iff.1 hr).1
  have f1 := (frac_iff.1 (frac_mul hs ha).1).1
  have f2 := (frac_iff.1 (frac_mul hd hr).1).1
  constructor
  · intro h1 h2
    have e1 := (val_mul_zero' fa fs h1).2
    have e2 := (val_mul_zero' fr fd h2).2
    rw [(val_add_zero' f1 f2 e2).1, e1]
  · intro h1 h2
    have e1 := (val_mul_one' fa fs h1).2
    have e2 := (val_mul_one' fr fd h2).2
    rw [val_add_congr f1 f2 fa fr e1 e2]
    exact add_one_sub ha

/-- one component of `s + d * (1 - w)` -/
theorem over_frac {s w d : F32} (hs : Frac s) (hw : Frac w) (h : s.val ≤ w.val) (hd : Frac d) :
    Frac (s + d * (lit 1 - w)) ∧ s.val ≤ (s + d * (lit 1 - w)).val := by
  obtain ⟨hr, er⟩ := frac_one_sub hw
  obtain ⟨n1, _, n2, n3⟩ := frac_mul hd hr
  refine ⟨(frac_add hs n1 hw h n2).1, ?_⟩
  rw [add_fin (frac_iff.1 hs).1 (frac_iff.1 n1).1]
  exact val_le_round (frac_iff.1 hs).1 (by linarith [(frac_iff.1 n1).2.1]) _

theorem over_le {s w d e : F32} (hs : Frac s) (hw : Frac w) (h : s.val ≤ w.val) (hd : Frac d) (he : Frac e) (hde : d.val ≤ e.val) :
    (s + d * (lit 1 - w)).val ≤ (w + e * (lit 1 - w)).val := by
  obtain ⟨hr, er⟩ := frac_one_sub hw
  have fr := frac_iff.1 hr
  obtain ⟨n1, _, _⟩ := frac_mul hd hr
  obtain ⟨m1, _, _⟩ := frac_mul he hr
  rw [add_fin (frac_iff.1 hs).1 (frac_iff.1 n1).1, add_fin (frac_iff.1 hw).1 (frac_iff.1 m1).1]
  refine round_val_mono (add_le_add h ?_) _ _
  rw [mul_fin (frac_iff.1 hd).1 fr.1, mul_fin (frac_iff.1 he).1 fr.1]
  exact round_val_mono (by nlinarith [fr.2.1]) _ _

theorem over_opaque {w e : F32} (hw : Frac w) (he : Frac e) (h : e.val = 1) : (w + e * (lit 1 - w)).val = 1 := by
  obtain ⟨hr, er⟩ := frac_one_sub hw
  have fw := (frac_iff.1 hw).1
  have fr := (frac_iff.1 hr).1
  have fe := (frac_iff.1 he).1
  obtain ⟨m1, _, _⟩ := frac_mul he hr
  rw [val_add_congr fw (frac_iff.1 m1).1 fw fr rfl (val_mul_one' fr fe h).2]
  exact add_one_sub hw

theorem over_solid {s w d : F32} (hs : Frac s) (hw : Frac w) (hd : Frac d) (h : w.val = 1) : (s + d * (lit 1 - w)).val = s.val := by
  obtain ⟨hr, er⟩ := frac_one_sub hw
  obtain ⟨m1, _, _⟩ := frac_mul hd hr
  exact (val_add_zero' (frac_iff.1 hs).1 (frac_iff.1 m1).1
    (val_mul_zero' (frac_iff.1 hd).1 (frac_iff.1 hr).1 ((val_one_sub (frac_iff.1 hw).1).1 h)).1).1

theorem over_clear {s w d : F32} (hs : Frac s) (hw : Frac w) (hd : Frac d) (h : w.val = 0) (h' : s.val = 0) :
    (s + d * (lit 1 - w)).val = d.val := by
  obtain ⟨hr, er⟩ := frac_one_sub hw
  obtain ⟨m1, _, _⟩ := frac_mul hd hr
  rw [(val_add_zero' (frac_iff.1 m1).1 (frac_iff.1 hs).1 h').2]
  exact (val_mul_one' (frac_iff.1 hd).1 (frac_iff.1 hr).1 ((val_one_sub (frac_iff.1 hw).1).2 h)).1

/-- one component of `1 - (1 - s) * (1 - d)` -/
theorem screen_frac {s d : F32} (hs : Frac s) (hd : Frac d) :
    Frac (lit 1 - (lit 1 - s) * (lit 1 - d)) ∧ (s.val = 1 → (lit 1 - (lit 1 - s) * (lit 1 - d)).val = 1) ∧
    |(lit 1 - (lit 1 - s) * (lit 1 - d)).val - (1 - (1 - s.val) * (1 - d.val))| ≤ 1 / 2 ^ 23 := by
  obtain ⟨h1, e1⟩ := frac_one_sub hs
  obtain ⟨h2, e2⟩ := frac_one_sub hd
  obtain ⟨h3, _, _, e3⟩ := frac_mul h1 h2
  obtain ⟨h4, e4⟩ := frac_one_sub h3
  refine ⟨h4, fun h => ?_, ?_⟩
  · refine (val_one_sub (frac_iff.1 h3).1).2 ?_
    exact (val_mul_zero' (frac_iff.1 h2).1 (frac_iff.1 h1).1 ((val_one_sub (frac_iff.1 hs).1).1 h)).2
  · have s' := (frac_iff.1 hs).2
    have a' := (frac_iff.1 h1).2
    have b' := (frac_iff.1 h2).2
    have d' := (frac_iff.1 hd).2
    have t : |(lit 1 - s).val * (lit 1 - d).val - (1 - s.val) * (1 - d.val)| ≤ 1 / 2 ^ 24 := by
      have k : (lit 1 - s).val * (lit 1 - d).val - (1 - s.val) * (1 - d.val) =
          (lit 1 - s).val * ((lit 1 - d).val - (1 - d.val)) + ((lit 1 - s).val - (1 - s.val)) * (1 - d.val) := by ring
      rw [k]
      refine le_trans (abs_add_le _ _) ?_
      rw [abs_mul, abs_mul, abs_of_nonneg a'.1, abs_of_nonneg (by linarith : 0 ≤ 1 - d.val)]
      have p1 := abs_nonneg ((lit 1 - d).val - (1 - d.val))
      have p2 := abs_nonneg ((lit 1 - s).val - (1 - s.val))
      have q1 : (lit 1 - s).val * |(lit 1 - d).val - (1 - d.val)| ≤ 1 / 2 ^ 25 := by nlinarith
      have q2 : |(lit 1 - s).val - (1 - s.val)| * (1 - d.val) ≤ 1 / 2 ^ 25 := by nlinarith
      norm_num at *
      linarith
    rw [_root_.abs_le] at *
    norm_num at *
    constructor <;> linarith [e3.1, e3.2, e4.1, e4.2, t.1, t.2]

/-- Any number of layers in one component: the result stays from 0 to 1, and each layer adds at most `2^-23` to the error. -/
theorem layers_frac (l : List (F32 × F32)) (hl : ∀ p ∈ l, Frac p.1 ∧ Frac p.2) (d : F32) (hd : Frac d) (x e : ℚ) (hx : |d.val - x| ≤ e) :
    Frac (l.foldl (fun d p => p.1 * p.2 + d * (lit 1 - p.2)) d) ∧
    |(l.foldl (fun d p => p.1 * p.2 + d * (lit 1 - p.2)) d).val - layersExact x (l.map fun p => (p.1.val, p.2.val))| ≤ e + l.length / 2 ^ 23 := by
  induction l generalizing d x e with
  | nil => exact ⟨hd, by simpa [layersExact] using hx⟩
  | cons p l ih =>
    have hp := hl p (by simp)
    obtain ⟨b1, b2⟩ := blend_frac hp.1 hp.2 hd
    have a' := (frac_iff.1 hp.2).2
    have step : |(p.1 * p.2 + d * (lit 1 - p.2)).val - (p.1.val * p.2.val + x * (1 - p.2.val))| ≤ e + 1 / 2 ^ 23 := by
      have k : (p.1 * p.2 + d * (lit 1 - p.2)).val - (p.1.val * p.2.val + x * (1 - p.2.val)) =
          ((p.1 * p.2 + d * (lit 1 - p.2)).val - (p.1.val * p.2.val + d.val * (1 - p.2.val))) + (d.val - x) * (1 - p.2.val) := by ring
      rw [k]
      refine le_trans (abs_add_le _ _) ?_
      rw [abs_mul, abs_of_nonneg (by linarith : 0 ≤ 1 - p.2.val)]
      have := abs_nonneg (d.val - x)
      nlinarith
    have r := ih (fun q hq => hl q (by simp [hq])) _ b1 _ _ step
    refine ⟨r.1, le_trans r.2 (le_of_eq ?_)⟩
    rw [List.length_cons]
    push_cast
    ring

end F32
end Zcm
