import Verif.Spec.Interp
import Verif.Spec.Clip
import Verif.Lemmas.F32Rel
import Verif.Lemmas.F32Range
import Verif.Lemmas.F32Mono
import Verif.Lemmas.SignedZero
import Verif.Props.C85

/-!
# Interpolation in float arithmetic
-/

set_option exponentiation.threshold 300

namespace Zcm

open F32

/-- numbers of the same sign within a factor of two: the units of the difference are representable -/
theorem rep_sub_near {m n : ℕ} (hm : Rep m) (hn : Rep n) (h1 : n ≤ m) (h2 : m ≤ 2 * n) : Rep (m - n) := by
  have e : ulpExp (m - n) ≤ ulpExp n := ulpExp_mono (by omega)
  refine ⟨?_, lt_of_le_of_lt (Nat.sub_le _ _) hm.2⟩
  exact Nat.dvd_sub ((pow_dvd_pow 2 (e.trans (ulpExp_mono h1))).trans hm.1) ((pow_dvd_pow 2 e).trans hn.1)

theorem val_round_of_rep {z : ℤ} (h : Rep z.natAbs) (s : Bool) :
    (F32.round s ((z : ℚ) / 2 ^ 149)).IsFin = true ∧ (F32.round s ((z : ℚ) / 2 ^ 149)).val = z / 2 ^ 149 :=
  ⟨(round_units_fin h s).1, (round_units_fin h s).2.2⟩

/-- the lemma of Sterbenz: two floats of the same sign within a factor of two subtract exactly -/
theorem sterbenz {a b : F32} (ha : a.IsFin = true) (hb : b.IsFin = true) (hs : 0 ≤ a.val * b.val)
    (h1 : |a.val| ≤ 2 * |b.val|) (h2 : |b.val| ≤ 2 * |a.val|) :
    (a - b).IsFin = true ∧ (a - b).val = a.val - b.val := by
  have ra := rep_of_isFin ha
  have rb := rep_of_isFin hb
  have va : a.val = (a.key : ℚ) / 2 ^ 149 := rfl
  have vb : b.val = (b.key : ℚ) / 2 ^ 149 := rfl
  have hs' : 0 ≤ a.key * b.key := by
    have : (0 : ℚ) ≤ (a.key * b.key : ℚ) := by
      rw [key_eq_val, key_eq_val]
      have e : a.val * 2 ^ 149 * (b.val * 2 ^ 149) = a.val * b.val * (2 ^ 149 * 2 ^ 149) := by ring
      rw [e]; positivity
    exact_mod_cast this
  have k1 : |a.key| ≤ 2 * |b.key| := by
    rw [va, vb, abs_div, abs_div, ← mul_div_assoc, div_le_div_iff_of_pos_right (by positivity)] at h1
    exact_mod_cast h1
  have k2 : |b.key| ≤ 2 * |a.key| := by
    rw [va, vb, abs_div, abs_div, ← mul_div_assoc, div_le_div_iff_of_pos_right (by positivity)] at h2
    exact_mod_cast h2
  have r : Rep (a.key - b.key).natAbs := by
    rw [Int.abs_eq_natAbs, Int.abs_eq_natAbs] at k1 k2
    have d : (a.key - b.key).natAbs = a.key.natAbs - b.key.natAbs ∨ (a.key - b.key).natAbs = b.key.natAbs - a.key.natAbs := by
      rcases le_total 0 a.key with p | p <;> rcases le_total 0 b.key with q | q
      · omega
      · rcases eq_or_lt_of_le q with q | q
        · omega
        · have : a.key = 0 := by nlinarith
          omega
      · rcases eq_or_lt_of_le p with p | p
        · omega
        · have : b.key = 0 := by nlinarith
          omega
      · omega
    rcases le_total b.key.natAbs a.key.natAbs with c | c
    · have : (a.key - b.key).natAbs = a.key.natAbs - b.key.natAbs := by omega
      rw [this]; exact rep_sub_near ra rb c (by omega)
    · have : (a.key - b.key).natAbs = b.key.natAbs - a.key.natAbs := by omega
      rw [this]; exact rep_sub_near rb ra c (by omega)
  have e : a.val - b.val = ((a.key - b.key : ℤ) : ℚ) / 2 ^ 149 := by rw [va, vb]; push_cast; ring
  rw [sub_fin ha hb, e]
  exact val_round_of_rep r _

/-- the running error of `mix` -/
theorem mix_near {x y t : F32} (fx : x.IsFin = true) (fy : y.IsFin = true) (ft : t.IsFin = true)
    (hx : |(x.val : ℝ)| ≤ 2 ^ 124) (hy : |(y.val : ℝ)| ≤ 2 ^ 124) (ht : |(t.val : ℝ)| ≤ 1) :
    Near (F.mix x y t) (wayFrom x.val y.val t.val)
      ((|wayFrom x.val y.val t.val| + 2.001 * |(t.val : ℝ) * (y.val - x.val)|) / 2 ^ 24 + 1 / 2 ^ 149) := by
  unfold F.mix wayFrom
  have bd : |(y.val : ℝ) - x.val| ≤ 2 ^ 125 := (abs_sub _ _).trans (by linarith)
  have d := rel_sub fy fx (bd.trans (by norm_num))
  have btd : |(t.val : ℝ) * (y.val - x.val)| ≤ 2 ^ 125 := by
    rw [abs_mul]
    exact (mul_le_of_le_one_left (abs_nonneg _) ht).trans bd
  obtain ⟨fp, ep⟩ := Rel.mul' (g := 2.0001 / 2 ^ 24) (Rel.exact ft) d (by norm_num) (by norm_num) (btd.trans (by norm_num))
  set q : ℝ := (t.val : ℝ) * (y.val - x.val) with hq
  set p := t * (y - x) with hp
  have bs : |(x.val : ℝ) + p.val| ≤ |x.val + q| + (2.0001 / 2 ^ 24 * |q| + 1 / 2 ^ 150) := by
    have e : (x.val : ℝ) + p.val = x.val + q + (p.val - q) := by ring
    rw [e]
    exact (abs_add_le _ _).trans (by linarith)
  have bw : |(x.val : ℝ) + q| ≤ 2 ^ 126 := (abs_add_le _ _).trans (by linarith)
  have s := rel_add fx fp (by linarith [bs])
  refine ⟨s.fin, ?_⟩
  have e : ((x + p).val : ℝ) - (x.val + q) = ((x + p).val - (x.val + p.val)) + (p.val - q) := by ring
  rw [e]
  refine (abs_add_le _ _).trans ?_
  have := s.err
  have q0 := abs_nonneg q
  linarith

/-- the value of a finite float between two bounds, in `ℝ` -/
theorem val_le_of_le {a b : F32} (h : a ≤ b) : (a.val : ℝ) ≤ b.val := by
  exact_mod_cast key_le_iff.1 h.2.2

theorem le_of_val_le {a b : F32} (ha : a.IsFin = true) (hb : b.IsFin = true) (h : (a.val : ℝ) ≤ b.val) : a ≤ b :=
  ⟨isFin_ne_nan ha, isFin_ne_nan hb, key_le_iff.2 (by exact_mod_cast h)⟩

/-- the whole way: `x + (y - x)` -/
theorem mix_one_near {x y : F32} (fx : x.IsFin = true) (fy : y.IsFin = true)
    (hx : |(x.val : ℝ)| ≤ 2 ^ 124) (hy : |(y.val : ℝ)| ≤ 2 ^ 124) :
    Near (F.mix x y (lit 1)) y.val ((|(y.val : ℝ)| + 1.001 * |(y.val : ℝ) - x.val|) / 2 ^ 24) := by
  unfold F.mix
  rw [one_mul']
  have bd : |(y.val : ℝ) - x.val| ≤ 2 ^ 125 := (abs_sub _ _).trans (by linarith)
  have d := rel_sub fy fx (bd.trans (by norm_num))
  have bs : |(x.val : ℝ) + (y - x).val| ≤ |(y.val : ℝ)| + 1 / 2 ^ 24 * |(y.val : ℝ) - x.val| := by
    have e : (x.val : ℝ) + (y - x).val = y.val + ((y - x).val - (y.val - x.val)) := by ring
    rw [e]
    exact (abs_add_le _ _).trans (by linarith [d.err])
  have s := rel_add fx d.fin (by linarith [bs])
  refine ⟨s.fin, ?_⟩
  have e : ((x + (y - x)).val : ℝ) - y.val = ((x + (y - x)).val - (x.val + (y - x).val)) + ((y - x).val - (y.val - x.val)) := by ring
  rw [e]
  refine (abs_add_le _ _).trans ?_
  have := s.err
  have := d.err
  have q0 := abs_nonneg ((y.val : ℝ) - x.val)
  linarith

/-- `mix` moves monotonically, upwards or downwards -/
theorem mix_mono {x y t u : F32} (fx : x.IsFin = true) (fy : y.IsFin = true) (ft : t.IsFin = true) (fu : u.IsFin = true)
    (fd : (y - x).IsFin = true) (htu : t ≤ u) :
    (x ≤ y → F.mix x y t ≤ F.mix x y u) ∧ (y ≤ x → F.mix x y u ≤ F.mix x y t) := by
  unfold F.mix
  have step : ∀ p q : F32, p ≤ q → x + p ≤ x + q := fun p q h =>
    add_le' (le_refl' (isFin_ne_nan fx)) h (add_fin_ne_nan fx h.1) (add_fin_ne_nan fx h.2.1)
  have zx : (x - x).key = 0 := by rw [sub_self' fx, key_lit_zero]
  have sub_le : ∀ a b : F32, a.IsFin = true → b.IsFin = true → a ≤ b → a - x ≤ b - x := fun a b ha hb h => by
    have hn : (-x).IsFin = true := by rw [isFin_neg]; exact fx
    rw [sub_eq, sub_eq]
    exact add_le' h (le_refl' (isFin_ne_nan hn)) (add_fin_ne_nan ha (isFin_ne_nan hn)) (add_fin_ne_nan hb (isFin_ne_nan hn))
  constructor <;> intro h
  · refine step _ _ (mul_le' htu ft fu fd ?_)
    refine ⟨by simp, isFin_ne_nan fd, ?_⟩
    rw [key_lit_zero, ← zx]
    exact (sub_le _ _ fx fy h).2.2
  · refine step _ _ ?_
    have n : lit 0 ≤ -(y - x) := by
      refine ⟨by simp, by rw [ne_eq, neg_eq_nan]; exact isFin_ne_nan fd, ?_⟩
      have := (sub_le _ _ fy fx h).2.2
      rw [zx] at this
      rw [key_lit_zero, key_neg]; omega
    have k := neg_le_neg' (mul_le' htu ft fu (c := -(y - x)) (by rw [isFin_neg]; exact fd) n)
    rw [mul_neg', mul_neg', neg_neg', neg_neg'] at k
    exact k

/-- doubling is exact -/
theorem two_mul_exact {t : F32} (ht : t.IsFin = true) (h : |t.val| ≤ 2 ^ 120) :
    (lit 2 * t).IsFin = true ∧ (lit 2 * t).val = 2 * t.val := by
  have r := rep_of_isFin ht
  have kb : t.key.natAbs ≤ 2 ^ 269 := by
    have : |(t.key : ℚ)| ≤ 2 ^ 269 := by
      rw [key_eq_val, abs_mul, abs_of_pos (show (0 : ℚ) < 2 ^ 149 by positivity)]
      calc |t.val| * 2 ^ 149 ≤ 2 ^ 120 * 2 ^ 149 := by gcongr
        _ = _ := by norm_num
    have : |t.key| ≤ 2 ^ 269 := by exact_mod_cast this
    rw [Int.abs_eq_natAbs] at this
    exact_mod_cast this
  have rr : Rep (2 * t.key).natAbs := by
    obtain ⟨m, hm, h24⟩ := Rep'.exists_mul r.1
    have e : (2 * t.key).natAbs = m * 2 ^ (ulpExp t.key.natAbs + 1) := by
      rw [pow_succ, ← mul_assoc, ← hm]; omega
    exact ⟨by rw [e]; exact rep'_mul_pow h24.le, by omega⟩
  have e : (lit 2 : F32).val * t.val = ((2 * t.key : ℤ) : ℚ) / 2 ^ 149 := by
    rw [val_lit_two]; unfold val; push_cast; ring
  rw [mul_fin isFin_lit_two ht, e]
  obtain ⟨a, b⟩ := val_round_of_rep rr ((lit 2 : F32).sgn ^^ t.sgn)
  refine ⟨a, b.trans ?_⟩
  unfold val; push_cast; ring

/-- the polynomial of `smoothstep` -/
theorem smooth_near {t : F32} (ft : t.IsFin = true) (h0 : 0 ≤ (t.val : ℝ)) (h1 : (t.val : ℝ) ≤ 1) :
    Near (t * t * (lit 3 - lit 2 * t)) (3 * (t.val : ℝ) ^ 2 - 2 * (t.val : ℝ) ^ 3) (3.01 / 2 ^ 24) := by
  have ht : |(t.val : ℝ)| ≤ 1 := abs_le.2 ⟨by linarith, h1⟩
  obtain ⟨f2, e2⟩ := two_mul_exact ft (by
    have : |t.val| ≤ 1 := by exact_mod_cast ht
    exact this.trans (by norm_num))
  have v2 : ((lit 2 * t).val : ℝ) = 2 * t.val := by rw [e2]; push_cast; ring
  have v3 : ((lit 3 : F32).val : ℝ) = 3 := by rw [val_lit_three]; norm_num
  have d := rel_sub isFin_lit_three f2 (by
    rw [v2, v3, abs_le]; constructor <;> linarith)
  rw [v2, v3] at d
  set T : ℝ := (t.val : ℝ) with hT
  have tt : |T * T| ≤ 1 := by rw [abs_mul]; exact mul_le_one₀ ht (abs_nonneg _) ht
  obtain ⟨fs, es⟩ := Rel.mul' (g := 1 / 2 ^ 24) (Rel.exact ft) (Rel.exact ft) (by norm_num) (by norm_num) (tt.trans (by norm_num))
  rw [← hT, abs_of_nonneg (mul_nonneg h0 h0)] at es
  have ed := d.err
  rw [abs_of_nonneg (show (0 : ℝ) ≤ 3 - 2 * T by linarith)] at ed
  set S : ℝ := ((t * t).val : ℝ) with hS
  set D : ℝ := ((lit 3 - lit 2 * t).val : ℝ) with hD
  have T2 : 0 ≤ T * T := mul_nonneg h0 h0
  have T2' : T * T ≤ 1 := mul_le_one₀ h1 h0 h1
  have g1 : T * T * (3 - 2 * T) ≤ 1 := by nlinarith [sq_nonneg (1 - T), mul_nonneg h0 (sq_nonneg (1 - T))]
  have g0 : 0 ≤ T * T * (3 - 2 * T) := mul_nonneg T2 (by linarith)
  have aD : |D| ≤ 3.1 := by
    have : |D| ≤ |D - (3 - 2 * T)| + |3 - 2 * T| := by
      calc |D| = |(D - (3 - 2 * T)) + (3 - 2 * T)| := by congr 1; ring
        _ ≤ _ := abs_add_le _ _
    rw [abs_of_nonneg (show (0 : ℝ) ≤ 3 - 2 * T by linarith)] at this
    linarith
  have p : |S * D - T * T * (3 - 2 * T)| ≤ 2.001 / 2 ^ 24 := by
    have e : S * D - T * T * (3 - 2 * T) = (S - T * T) * (D - (3 - 2 * T)) + (S - T * T) * (3 - 2 * T) + T * T * (D - (3 - 2 * T)) := by ring
    have a1 : |(S - T * T) * (D - (3 - 2 * T))| ≤ (1 / 2 ^ 24 + 1 / 2 ^ 150) * (1 / 2 ^ 24 * 3) := by
      rw [abs_mul]
      refine mul_le_mul ?_ ?_ (abs_nonneg _) (by norm_num)
      · linarith
      · linarith
    have a2 : |(S - T * T) * (3 - 2 * T)| ≤ 1 / 2 ^ 24 * (T * T * (3 - 2 * T)) + 1 / 2 ^ 150 * 3 := by
      rw [abs_mul, abs_of_nonneg (show (0 : ℝ) ≤ 3 - 2 * T by linarith)]
      have := mul_le_mul_of_nonneg_right es (show (0 : ℝ) ≤ 3 - 2 * T by linarith)
      linarith
    have a3 : |T * T * (D - (3 - 2 * T))| ≤ 1 / 2 ^ 24 * (T * T * (3 - 2 * T)) := by
      rw [abs_mul, abs_of_nonneg T2]
      have := mul_le_mul_of_nonneg_left ed T2
      linarith
    rw [e]
    refine (abs_add_le _ _).trans ?_
    have := abs_add_le ((S - T * T) * (D - (3 - 2 * T))) ((S - T * T) * (3 - 2 * T))
    linarith
  have b : |S * D| ≤ 1 + 2.001 / 2 ^ 24 := by
    have : |S * D| ≤ |S * D - T * T * (3 - 2 * T)| + |T * T * (3 - 2 * T)| := by
      calc |S * D| = |(S * D - T * T * (3 - 2 * T)) + T * T * (3 - 2 * T)| := by congr 1; ring
        _ ≤ _ := abs_add_le _ _
    rw [abs_of_nonneg g0] at this
    linarith
  obtain ⟨fr, er⟩ := Rel.mul' (g := 1 / 2 ^ 24) (Rel.exact fs) (Rel.exact d.fin) (by norm_num) (by norm_num)
    (show |S * D| ≤ 2 ^ 126 by linarith)
  refine ⟨fr, ?_⟩
  have e : ((t * t * (lit 3 - lit 2 * t)).val : ℝ) - (3 * T ^ 2 - 2 * T ^ 3)
      = (((t * t * (lit 3 - lit 2 * t)).val : ℝ) - S * D) + (S * D - T * T * (3 - 2 * T)) := by ring
  rw [e]
  refine (abs_add_le _ _).trans ?_
  linarith

theorem val_clamp01 {u : F32} (fu : u.IsFin = true) :
    (F.clamp u (lit 0) (lit 1)).IsFin = true ∧ ((F.clamp u (lit 0) (lit 1)).val : ℝ) = max 0 (min 1 (u.val : ℝ)) := by
  have nu := isFin_ne_nan fu
  have z : ((lit 0 : F32).val : ℝ) = 0 := by rw [val_lit_zero]; norm_num
  have o : ((lit 1 : F32).val : ℝ) = 1 := by rw [val_lit_one]; norm_num
  have l0 : u < lit 0 ↔ (u.val : ℝ) < 0 := by
    rw [lt_iff, ← z, Rat.cast_lt]
    have := key_le_iff (a := lit 0) (b := u)
    constructor
    · exact fun h => not_le.1 (fun c => not_le.2 h.2.2 (this.2 c))
    · exact fun h => ⟨nu, by simp, not_le.1 (fun c => not_le.2 h (this.1 c))⟩
  have l1 : lit 1 < u ↔ 1 < (u.val : ℝ) := by
    rw [lt_iff, ← o, Rat.cast_lt]
    have := key_le_iff (a := u) (b := lit 1)
    constructor
    · exact fun h => not_le.1 (fun c => not_le.2 h.2.2 (this.2 c))
    · exact fun h => ⟨by simp, nu, not_le.1 (fun c => not_le.2 h (this.1 c))⟩
  have l2 : ¬ (lit 1 : F32) < lit 0 := by decide +kernel
  unfold F.clamp F.min F.max
  by_cases h0 : u < lit 0
  · rw [if_pos h0, if_neg l2]
    refine ⟨isFin_lit_zero, ?_⟩
    rw [l0] at h0
    rw [z, max_eq_left (le_trans (min_le_right _ _) h0.le)]
  · rw [if_neg h0]
    rw [l0, not_lt] at h0
    by_cases h1 : lit 1 < u
    · rw [if_pos h1]
      rw [l1] at h1
      refine ⟨isFin_lit_one, ?_⟩
      rw [o, min_eq_left h1.le, max_eq_right zero_le_one]
    · rw [if_neg h1]
      rw [l1, not_lt] at h1
      refine ⟨fu, ?_⟩
      rw [min_eq_right h1, max_eq_right h0]

theorem smooth_zero {e0 e1 x : F32} (f0 : e0.IsFin = true) (f1 : e1.IsFin = true) (fx : x.IsFin = true) (h : e0 < e1)
    (fd : (e1 - e0).IsFin = true) (fn : (x - e0).IsFin = true) (hx : x ≤ e0) : F.smoothstep e0 e1 x = lit 0 := by
  have c0 : lit 0 < e1 - e0 := ⟨by simp, isFin_ne_nan fd, by rw [key_lit_zero]; exact sub_key_pos f0 f1 h⟩
  have l := (sub_mono ⟨fx, f0, hx⟩ f0).1
  rw [sub_self' f0] at l
  have q := div_le' l fn isFin_lit_zero fd c0
  have vz : (e1 - e0).val ≠ 0 := by
    have := c0.2.2
    rw [key_lit_zero] at this
    exact (key_pos.1 this).ne'
  have kz : (lit 0 / (e1 - e0) : F32).key = 0 := by
    rw [div_fin isFin_lit_zero fd vz, val_lit_zero, zero_div, ← val_lit_zero, key_round_val isFin_lit_zero, key_lit_zero]
  have ku := q.2.2
  rw [kz] at ku
  unfold F.smoothstep
  dsimp only
  generalize (x - e0) / (e1 - e0) = u at ku q
  have t0 : (F.clamp u (lit 0) (lit 1)).key = 0 ∧ F.clamp u (lit 0) (lit 1) ≠ .nan := by
    unfold F.clamp F.min F.max
    by_cases hu : u < lit 0
    · rw [if_pos hu, if_neg (by decide +kernel)]
      exact ⟨key_lit_zero, by simp⟩
    · rw [if_neg hu]
      have : u.key = 0 := by
        rw [lt_iff] at hu
        by_contra c
        exact hu ⟨q.1, by simp, by rw [key_lit_zero]; omega⟩
      rw [if_neg (fun hh : lit 1 < u => by
        have := hh.2.2
        have o : (0 : ℤ) < (lit 1 : F32).key := by decide +kernel
        omega)]
      exact ⟨this, q.1⟩
  generalize F.clamp u (lit 0) (lit 1) = t at t0
  obtain ⟨k, n⟩ := t0
  cases t with
  | nan => exact absurd rfl n
  | inf s => cases s <;> exact absurd k (by decide +kernel)
  | fin s m hm =>
    have : m = 0 := by
      cases s
      · rw [key_fin_false] at k; omega
      · have k' : -(m : ℤ) = 0 := k
        omega
    subst this
    cases s <;> decide +kernel +revert

theorem smooth_one {e0 e1 x : F32} (f0 : e0.IsFin = true) (f1 : e1.IsFin = true) (fx : x.IsFin = true) (h : e0 < e1)
    (fd : (e1 - e0).IsFin = true) (fn : (x - e0).IsFin = true) (hx : e1 ≤ x) : F.smoothstep e0 e1 x = lit 1 := by
  have c0 : lit 0 < e1 - e0 := ⟨by simp, isFin_ne_nan fd, by rw [key_lit_zero]; exact sub_key_pos f0 f1 h⟩
  have q := div_le' (sub_mono ⟨f1, fx, hx⟩ f0).1 fd fn fd c0
  have vz : (e1 - e0).val ≠ 0 := by
    have := c0.2.2
    rw [key_lit_zero] at this
    exact (key_pos.1 this).ne'
  have kz : ((e1 - e0) / (e1 - e0)).key = (lit 1 : F32).key := by
    have k := key_round_val isFin_lit_one ((e1 - e0).sgn ^^ (e1 - e0).sgn)
    rw [val_lit_one] at k
    rw [div_fin fd fd vz, div_self vz, k]
  have ku := q.2.2
  rw [kz] at ku
  unfold F.smoothstep
  dsimp only
  generalize (x - e0) / (e1 - e0) = u at ku q
  have o : (0 : ℤ) < (lit 1 : F32).key := by decide +kernel
  have t0 : F.clamp u (lit 0) (lit 1) = lit 1 := by
    unfold F.clamp F.min F.max
    rw [if_neg (fun hh : u < lit 0 => by
      have := hh.2.2
      rw [key_lit_zero] at this
      omega)]
    by_cases hu : lit 1 < u
    · rw [if_pos hu]
    · rw [if_neg hu]
      refine eq_of_key q.2.1 (by simp) ?_ (by omega)
      by_contra c
      exact hu ⟨by simp, q.2.1, by omega⟩
  rw [t0]
  decide +kernel

/-- the position between the edges -/
theorem position_near {e0 e1 x : F32} (h : Sides e0 e1) (hx : Coordinate x) (h0 : (e0.val : ℝ) ≤ x.val)
    (h1 : (x.val : ℝ) ≤ e1.val) (hl : (e0.val : ℝ) < e1.val) :
    Near ((x - e0) / (e1 - e0)) ((x.val - e0.val) / (e1.val - e0.val)) (3.01 / 2 ^ 24) := by
  obtain ⟨f0, f1, b0, b1, gap⟩ := h
  have n := rel_sub hx.1 f0 (by rw [abs_le] at *; constructor <;> linarith [hx.2, abs_le.1 hx.2])
  have d := rel_sub f1 f0 (by rw [abs_le] at *; constructor <;> linarith)
  have dp : (0 : ℝ) < e1.val - e0.val := by linarith
  have r0 : 0 ≤ ((x.val : ℝ) - e0.val) / (e1.val - e0.val) := div_nonneg (by linarith) dp.le
  have r1 : ((x.val : ℝ) - e0.val) / (e1.val - e0.val) ≤ 1 := (div_le_one dp).2 (by linarith)
  obtain ⟨f, e⟩ := Rel.div' (d := 2.001 / 2 ^ 24) (g := 3.005 / 2 ^ 24) n d (by norm_num) (by norm_num) (by norm_num) dp.ne' (by norm_num)
    (by norm_num) (by norm_num) (by rw [abs_of_nonneg r0]; exact r1.trans (by norm_num))
  refine ⟨f, e.trans ?_⟩
  rw [abs_of_nonneg r0]
  linarith

theorem clip_close (a b : ℝ) : |max 0 (min 1 a) - max 0 (min 1 b)| ≤ |a - b| := by
  have := abs_max_sub_max_le_abs (min 1 a) (min 1 b) 0
  rw [max_comm 0, max_comm 0]
  refine this.trans ?_
  rw [min_comm, min_comm 1]
  exact abs_inf_sub_inf_le_abs a b 1

theorem cubic_close {a b : ℝ} (a0 : 0 ≤ a) (a1 : a ≤ 1) (b0 : 0 ≤ b) (b1 : b ≤ 1) :
    |(3 * a ^ 2 - 2 * a ^ 3) - (3 * b ^ 2 - 2 * b ^ 3)| ≤ 3 / 2 * |a - b| := by
  have e : (3 * a ^ 2 - 2 * a ^ 3) - (3 * b ^ 2 - 2 * b ^ 3) = (3 * (a + b) - 2 * (a ^ 2 + a * b + b ^ 2)) * (a - b) := by ring
  rw [e, abs_mul]
  refine mul_le_mul_of_nonneg_right (abs_le.2 ⟨?_, ?_⟩) (abs_nonneg _)
  · nlinarith [mul_nonneg a0 (sub_nonneg.2 a1), mul_nonneg b0 (sub_nonneg.2 b1), mul_nonneg a0 b0,
      mul_nonneg a0 (sub_nonneg.2 b1)]
  · nlinarith [sq_nonneg (a - b), sq_nonneg (a + b - 1)]

theorem smoothstep_near {e0 e1 x : F32} (h : Sides e0 e1) (hx : Coordinate x) (hl : e0 < e1) :
    Near (F.smoothstep e0 e1 x) (transition e0.val e1.val x.val) (8 / 2 ^ 24) := by
  obtain ⟨f0, f1, b0, b1, gap⟩ := h
  have hl' : (e0.val : ℝ) < e1.val := by
    have : e0.val < e1.val := not_le.1 (fun c => not_le.2 hl.2.2 (key_le_iff.2 c))
    exact_mod_cast this
  have dp : (0 : ℝ) < e1.val - e0.val := by linarith
  have fd : (e1 - e0).IsFin = true := (rel_sub f1 f0 (by rw [abs_le] at *; constructor <;> linarith)).fin
  have fn : (x - e0).IsFin = true :=
    (rel_sub hx.1 f0 (by rw [abs_le] at *; constructor <;> linarith [hx.2, abs_le.1 hx.2])).fin
  rcases le_total (x.val : ℝ) e0.val with c | c
  · rw [smooth_zero f0 f1 hx.1 hl fd fn (le_of_val_le hx.1 f0 c)]
    refine ⟨isFin_lit_zero, ?_⟩
    have r0 : ((x.val : ℝ) - e0.val) / (e1.val - e0.val) ≤ 0 := div_nonpos_of_nonpos_of_nonneg (by linarith) dp.le
    unfold transition
    dsimp only
    rw [max_eq_left ((min_le_right _ _).trans r0), val_lit_zero]
    norm_num
  rcases le_total (e1.val : ℝ) x.val with c' | c'
  · rw [smooth_one f0 f1 hx.1 hl fd fn (le_of_val_le f1 hx.1 c')]
    refine ⟨isFin_lit_one, ?_⟩
    have r1 : 1 ≤ ((x.val : ℝ) - e0.val) / (e1.val - e0.val) := (one_le_div dp).2 (by linarith)
    unfold transition
    dsimp only
    rw [min_eq_left r1, max_eq_right zero_le_one, val_lit_one]
    norm_num
  have u := position_near ⟨f0, f1, b0, b1, gap⟩ hx c c' hl'
  unfold F.smoothstep transition
  dsimp only
  generalize (x - e0) / (e1 - e0) = v at u
  generalize ((x.val : ℝ) - e0.val) / (e1.val - e0.val) = s at u
  obtain ⟨fv, vv⟩ := val_clamp01 u.1
  have cl := clip_close v.val s
  rw [← vv] at cl
  have t0 : 0 ≤ ((F.clamp v (lit 0) (lit 1)).val : ℝ) := by rw [vv]; exact le_max_left _ _
  have t1 : ((F.clamp v (lit 0) (lit 1)).val : ℝ) ≤ 1 := by rw [vv]; exact max_le zero_le_one (min_le_left _ _)
  generalize F.clamp v (lit 0) (lit 1) = t at *
  have s0 : 0 ≤ max 0 (min 1 s) := le_max_left _ _
  have s1 : max 0 (min 1 s) ≤ 1 := max_le zero_le_one (min_le_left _ _)
  generalize max 0 (min 1 s) = w at *
  obtain ⟨fr, er⟩ := smooth_near fv t0 t1
  refine ⟨fr, ?_⟩
  have cc := cubic_close t0 t1 s0 s1
  have e : ((t * t * (lit 3 - lit 2 * t)).val : ℝ) - (3 * w ^ 2 - 2 * w ^ 3)
    = (((t * t * (lit 3 - lit 2 * t)).val : ℝ) - (3 * (t.val : ℝ) ^ 2 - 2 * (t.val : ℝ) ^ 3)) + ((3 * (t.val : ℝ) ^ 2 - 2 * (t.val : ℝ) ^ 3) - (3 * w ^ 2 - 2 * w ^ 3)) := by ring
  rw [e]
  refine (abs_add_le _ _).trans ?_
  have := u.2
  linarith

end Zcm
