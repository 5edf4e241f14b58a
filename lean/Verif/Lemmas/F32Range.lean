import Verif.Lemmas.Nearest
import Verif.Lemmas.F32Error
import Verif.Lemmas.F32Fract
import Verif.Model.Geometric
import Verif.Model.Common

/-!
# Ranges of expressions in binary32
-/

set_option exponentiation.threshold 300

namespace Zcm.F32

/-- `roundUnits` of a rational: no finite float is closer. -/
theorem round_nearest {s : Bool} {x : ℚ} (h : (round s x).IsFin = true) {y : F32} (hy : y.IsFin = true)
    (hx : 0 ≤ x) : |(round s x).val - x| ≤ |y.val - x| := by
  have e : (round s x).val = (round false x).val := by
    rw [← key_eq_iff, key_round, key_round]
  have h' : (round false x).IsFin = true := by
    rw [isFin_iff (round_ne_nan _ _)] at h ⊢
    rw [key_round] at h ⊢
    exact h
  have n := (nearest_of_bounds (x := round false x) h' hx rfl rfl (le_refl (x : ℝ)) le_rfl).2 y hy
  rw [e]
  have : ((|(round false x).val - x| : ℚ) : ℝ) ≤ ((|y.val - x| : ℚ) : ℝ) := by
    push_cast; exact n
  exact_mod_cast this

/-- a natural number of units of at most 24 significant bits -/
theorem exists_units {j e : ℕ} (hj : j ≤ 2 ^ 24) (he : j * 2 ^ e < 2 ^ 277) :
    ∃ y : F32, y.IsFin = true ∧ y.val = (j * 2 ^ e : ℕ) / 2 ^ 149 :=
  ⟨.fin false _ ⟨rep'_mul_pow hj, he⟩, rfl, by simp [val, key]⟩

theorem isFin_lit_three : (lit 3 : F32).IsFin = true := by decide +kernel
theorem val_lit_three : (lit 3 : F32).val = 3 := by decide +kernel

/-- a rounded number between 0 and a float `b` lies between 0 and `b` -/
theorem round_between {b : F32} (hb : b.IsFin = true) {x : ℚ} (h0 : 0 ≤ x) (h1 : x ≤ b.val) (s : Bool) :
    (round s x).IsFin = true ∧ 0 ≤ (round s x).val ∧ (round s x).val ≤ b.val := by
  have z : (lit 0 : F32).val ≤ x := by rw [val_lit_zero]; exact h0
  have a1 := le_key_round isFin_lit_zero z s
  have a2 := key_round_le hb h1 s
  refine ⟨isFin_round_of_between isFin_lit_zero hb z h1 s, ?_, key_le_iff.1 a2⟩
  have := key_le_iff.1 a1
  rwa [val_lit_zero] at this

theorem le_of_val {a b : F32} (ha : a.IsFin = true) (hb : b.IsFin = true) (h : a.val ≤ b.val) : a ≤ b :=
  le_iff.2 ⟨isFin_ne_nan ha, isFin_ne_nan hb, key_le_iff.2 h⟩

/-- the polynomial of `smoothstep` at a float between 0 and 1 -/
theorem smooth_range {t : F32} (ht : t.IsFin = true) (h0 : 0 ≤ t.val) (h1 : t.val ≤ 1) :
    lit 0 ≤ t * t * (lit 3 - lit 2 * t) ∧ t * t * (lit 3 - lit 2 * t) ≤ lit 1 := by
  -- the square
  have sq := round_between isFin_lit_one (x := t.val * t.val) (by positivity)
    (by rw [val_lit_one]; nlinarith) (t.sgn ^^ t.sgn)
  rw [← mul_fin ht ht, val_lit_one] at sq
  -- twice t is exact
  obtain ⟨k, hk⟩ : ∃ k : ℕ, t.key = k := ⟨t.key.toNat, by have := key_nonneg.2 h0; omega⟩
  have hkv : t.val = k / 2 ^ 149 := by unfold val; rw [hk]; norm_num
  have hk1 : k ≤ 2 ^ 149 := by
    rw [hkv, div_le_one (by positivity)] at h1
    exact_mod_cast h1
  have hrep : Rep' k := by
    have := (rep_of_isFin ht).1
    rwa [hk, Int.natAbs_natCast] at this
  obtain ⟨m, hm, hm24⟩ := hrep.exists_mul
  have p2 : ∃ y : F32, y.IsFin = true ∧ y.val = 2 * t.val := by
    obtain ⟨y, hy, hv⟩ := exists_units (j := m) (e := ulpExp k + 1) hm24.le
      (by rw [pow_succ, ← mul_assoc, ← hm]; omega)
    refine ⟨y, hy, ?_⟩
    rw [hv, pow_succ, ← mul_assoc, ← hm, hkv]
    push_cast; ring
  obtain ⟨y, hy, hyv⟩ := p2
  have e2 : (lit 2 * t).IsFin = true ∧ (lit 2 * t).val = 2 * t.val := by
    rw [mul_fin isFin_lit_two ht, val_lit_two]
    exact round_eq_val hy hyv.symm _
  -- 3 - 2t
  have r := round_between isFin_lit_three (x := 3 - 2 * t.val) (by linarith)
    (by rw [val_lit_three]; linarith) ((lit 3 : F32).sgn && !(lit 2 * t).sgn)
  have er : lit 3 - lit 2 * t = round ((lit 3 : F32).sgn && !(lit 2 * t).sgn) (3 - 2 * t.val) := by
    rw [sub_fin isFin_lit_three e2.1, e2.2, val_lit_three]
  rw [← er, val_lit_three] at r
  -- the product
  have key : (t * t).val * (lit 3 - lit 2 * t).val ≤ 1 := by
    rcases le_or_gt k (2 ^ 148) with hs | hs
    · have hv : t.val ≤ 1 / 2 := by
        rw [hkv, div_le_iff₀ (by positivity)]
        have : (k : ℚ) ≤ 2 ^ 148 := by exact_mod_cast hs
        linarith
      have hq : (lit (1 / 4) : F32).val = 1 / 4 := by decide +kernel
      have sq' := round_between (b := lit (1 / 4)) (by decide +kernel) (x := t.val * t.val) (by positivity)
        (by rw [hq]; nlinarith) (t.sgn ^^ t.sgn)
      rw [← mul_fin ht ht, hq] at sq'
      nlinarith [sq'.2.1, sq'.2.2, r.2.1, r.2.2]
    · have h125 : 125 ≤ ulpExp k := le_ulpExp_of_le (by omega)
      obtain ⟨j, hj⟩ := (pow_dvd_pow 2 h125).trans hrep
      have hj1 : j ≤ 2 ^ 24 := by omega
      have hj2 : 2 ^ 23 < j := by omega
      have hjv : t.val = j / 2 ^ 24 := by
        rw [hkv, hj]; push_cast
        rw [show (2 : ℚ) ^ 149 = 2 ^ 125 * 2 ^ 24 by norm_num]
        exact mul_div_mul_left _ _ (by positivity)
      -- 3 - 2t is exact
      obtain ⟨w, hw, hwv⟩ := exists_units (j := 3 * 2 ^ 23 - j) (e := 126) (by omega) (by omega)
      have hwv' : 3 - 2 * t.val = w.val := by
        rw [hwv, hjv, Nat.cast_mul, Nat.cast_sub (by omega)]
        push_cast
        rw [show (2 : ℚ) ^ 149 = 2 ^ 126 * 2 ^ 23 by norm_num]
        field_simp; ring
      have r3 := (round_eq_val hw hwv' ((lit 3 : F32).sgn && !(lit 2 * t).sgn)).2
      rw [← er] at r3
      -- 2t - 1 is a float
      obtain ⟨u, hu, huv⟩ := exists_units (j := 2 * j - 2 ^ 24) (e := 125) (by omega) (by omega)
      have huv' : u.val = 2 * t.val - 1 := by
        rw [huv, hjv, Nat.cast_mul, Nat.cast_sub (by omega)]
        push_cast
        rw [show (2 : ℚ) ^ 149 = 2 ^ 125 * 2 ^ 24 by norm_num]
        field_simp; ring
      have n := round_nearest (s := t.sgn ^^ t.sgn) (x := t.val * t.val)
        (by rw [← mul_fin ht ht]; exact sq.1) hu (by positivity)
      rw [← mul_fin ht ht, huv', show 2 * t.val - 1 - t.val * t.val = -(1 - t.val) ^ 2 by ring, abs_neg,
        abs_of_nonneg (sq_nonneg (1 - t.val)), abs_le] at n
      have hv2 : 1 / 2 ≤ t.val := by
        rw [hjv, le_div_iff₀ (by positivity)]
        have : (2 ^ 23 : ℚ) ≤ j := by exact_mod_cast hj2.le
        linarith
      rw [r3]
      have b : (t * t).val ≤ t.val * t.val + (1 - t.val) ^ 2 := by linarith [n.2]
      have : (t * t).val * (3 - 2 * t.val) ≤ (t.val * t.val + (1 - t.val) ^ 2) * (3 - 2 * t.val) :=
        mul_le_mul_of_nonneg_right b (by linarith)
      refine this.trans ?_
      nlinarith [mul_nonneg (sq_nonneg (1 - t.val)) (show (0 : ℚ) ≤ 2 * t.val - 1 by linarith)]
  have fin := round_between isFin_lit_one (x := (t * t).val * (lit 3 - lit 2 * t).val)
    (mul_nonneg sq.2.1 r.2.1) (by rw [val_lit_one]; exact key) ((t * t).sgn ^^ (lit 3 - lit 2 * t).sgn)
  rw [← mul_fin sq.1 r.1] at fin
  exact ⟨le_of_val isFin_lit_zero fin.1 (by rw [val_lit_zero]; exact fin.2.1), le_of_val fin.1 isFin_lit_one fin.2.2⟩

/-- non-negative or NaN -/
def NonnegOrNan (a : F32) : Prop := a = .nan ∨ lit 0 ≤ a

theorem nonneg_iff {a : F32} : lit 0 ≤ a ↔ a ≠ .nan ∧ 0 ≤ a.key := by
  rw [le_iff, key_lit_zero]
  exact ⟨fun h => ⟨h.2.1, h.2.2⟩, fun h => ⟨lit_ne_nan _, h⟩⟩

theorem sq_nonneg' (a : F32) : NonnegOrNan (a * a) := by
  cases a with
  | nan => left; simp
  | inf s => right; cases s <;> decide +kernel
  | fin s k h =>
    right
    rw [nonneg_iff, mul_fin rfl rfl]
    refine ⟨round_ne_nan _ _, ?_⟩
    have := key_round_mono (x := 0) (y := (F32.fin s k h).val * (F32.fin s k h).val) (mul_self_nonneg _)
      false (s ^^ s)
    rw [key_round, uround_zero] at this
    exact this

theorem add_nonneg' {a b : F32} (ha : NonnegOrNan a) (hb : NonnegOrNan b) : NonnegOrNan (a + b) := by
  rcases ha with rfl | ha
  · left; simp
  rcases hb with rfl | hb
  · left; simp
  rw [nonneg_iff] at ha hb
  cases a with
  | nan => left; simp
  | inf s => cases b with
    | nan => left; simp
    | inf t =>
      right
      cases s <;> cases t <;> first | (exfalso; revert ha hb; decide +kernel) | decide +kernel
    | fin t l g =>
      right
      cases s
      · exact (by decide +kernel : (lit 0 : F32) ≤ .inf false)
      · exfalso; revert ha; decide +kernel
  | fin s k h => cases b with
    | nan => left; simp
    | inf t =>
      right
      cases t
      · exact (by decide +kernel : (lit 0 : F32) ≤ .inf false)
      · exfalso; revert hb; decide +kernel
    | fin t l g =>
      right
      rw [nonneg_iff, add_fin rfl rfl]
      refine ⟨round_ne_nan _ _, ?_⟩
      have := key_round_mono (x := 0) (y := (F32.fin s k h).val + (F32.fin t l g).val)
        (add_nonneg (key_nonneg.1 ha.2) (key_nonneg.1 hb.2)) false ((F32.fin s k h).sgn && (F32.fin t l g).sgn)
      rw [key_round, uround_zero] at this
      exact this

theorem sqrt_nonneg' {a : F32} (ha : NonnegOrNan a) : NonnegOrNan (FloatOps.sqrt a) := by
  rcases ha with rfl | ha
  · left; rfl
  rw [nonneg_iff] at ha
  cases a with
  | nan => left; rfl
  | inf s => cases s
             · right; exact (by decide +kernel : (lit 0 : F32) ≤ .inf false)
             · left; rfl
  | fin s k h =>
    show NonnegOrNan (F32.sqrt (.fin s k h))
    unfold sqrt
    dsimp only
    split_ifs with h0 h1
    · right; rw [nonneg_iff]; exact ha
    · left; rfl
    all_goals
      right
      rw [nonneg_iff]
      unfold pack
      split_ifs
      · exact ⟨nofun, by simp [key]⟩
      · exact ⟨nofun, by simp [key]⟩

theorem clamp_range {x lo hi : F32} (hx : x ≠ .nan) (h : lo ≤ hi) :
    lo ≤ F.clamp x lo hi ∧ F.clamp x lo hi ≤ hi := by
  obtain ⟨hl, hh, hk⟩ := h
  unfold F.clamp F.min F.max
  simp only [lt_iff, le_iff, hx, hl, hh, ne_eq, not_false_eq_true, true_and]
  split_ifs <;> simp_all

theorem smoothstep_range (e0 e1 x : F32) (hu : (x - e0) / (e1 - e0) ≠ .nan) :
    lit 0 ≤ F.smoothstep e0 e1 x ∧ F.smoothstep e0 e1 x ≤ lit 1 := by
  unfold F.smoothstep
  generalize (x - e0) / (e1 - e0) = u at hu
  dsimp only
  obtain ⟨h0, h1⟩ := clamp_range (lo := lit 0) (hi := lit 1) hu (by decide +kernel)
  generalize F.clamp u (lit 0) (lit 1) = t at h0 h1
  obtain ⟨-, hn, k0⟩ := le_iff.1 h0
  obtain ⟨-, -, k1⟩ := le_iff.1 h1
  have ht : t.IsFin = true := by
    rw [isFin_iff hn]
    rw [key_lit_zero] at k0; rw [key_lit_one] at k1
    omega
  refine smooth_range ht ?_ ?_
  · rw [key_le_iff, val_lit_zero] at k0; exact k0
  · rw [key_le_iff, val_lit_one] at k1; exact k1

theorem rep_unit : Rep 1 := by decide +kernel

/-- gradual underflow: the difference of different floats is not zero -/
theorem sub_key_pos {a b : F32} (ha : a.IsFin = true) (hb : b.IsFin = true) (h : a < b) : 0 < (b - a).key := by
  rw [sub_fin hb ha]
  have hk := (lt_iff.1 h).2.2
  have h1 : (F32.fin false 1 rep_unit).val ≤ b.val - a.val := by
    unfold val
    rw [← sub_div, key_fin_false]
    have : ((1 : ℕ) : ℚ) ≤ (b.key : ℚ) - a.key := by
      have : (1 : ℤ) ≤ b.key - a.key := by omega
      exact_mod_cast this
    gcongr
    exact_mod_cast this
  have := le_key_round (a := .fin false 1 rep_unit) rfl h1 (b.sgn && !a.sgn)
  rw [key_fin_false] at this
  omega

theorem div_ne_nan {a b : F32} (ha : a ≠ .nan) (hb : b.IsFin = true) (h0 : b.key ≠ 0) : a / b ≠ .nan := by
  cases b with
  | nan => cases hb
  | inf t => cases hb
  | fin t l g =>
    cases a with
    | nan => exact absurd rfl ha
    | inf s => exact nofun
    | fin s k h =>
      rw [div_fin rfl rfl (fun e => h0 (key_eq_zero.2 e))]
      exact round_ne_nan _ _

end Zcm.F32
