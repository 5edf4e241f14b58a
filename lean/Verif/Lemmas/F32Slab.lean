import Verif.Lemmas.F32RaySphere
import Verif.Lemmas.F32Ray
import Verif.Lemmas.F32Mono
import Verif.Lemmas.F32Box
import Verif.Lemmas.SignedZero
import Verif.Spec.Slab
import Verif.Lemmas.F32Axis
import Verif.Props.C17
import Verif.Props.C72
import Verif.Props.C85

/-!
# Lines and boxes in float arithmetic
-/

set_option exponentiation.threshold 300

namespace Zcm

open F32

/-- multiplication by a non-negative float (an infinity included) does not reverse the order, as long as no NaN appears -/
theorem mul_mono_any {a b c : F32} (hab : a ≤ b) (hc : c.sgn = false) (h1 : a * c ≠ .nan) (h2 : b * c ≠ .nan) : a * c ≤ b * c := by
  have kb := key_bound (b * c)
  have ka := key_bound (a * c)
  obtain ⟨na, nb, k⟩ := hab
  refine ⟨h1, h2, ?_⟩
  cases c with
  | nan => exact absurd (by cases a <;> rfl) h1
  | inf t =>
    cases t with
    | true => cases hc
    | false =>
      cases a with
      | nan => exact absurd rfl na
      | inf s =>
        cases s with
        | true => exact kb.1
        | false =>
          cases b with
          | nan => exact absurd rfl nb
          | inf t => cases t with
            | false => exact le_rfl
            | true => rw [key_inf_false, key_inf_true] at k; norm_num at k
          | fin t l g => have := key_bound_fin (a := .fin t l g) rfl; rw [key_inf_false] at k; omega
      | fin s p h =>
        have hp : p ≠ 0 := by
          rintro rfl; exact h1 (by change mul _ _ = _; simp [mul])
        have e : F32.fin s p h * .inf false = .inf s := by change mul _ _ = _; simp [mul, hp]
        rw [e]
        cases s with
        | true => exact kb.1
        | false =>
          cases b with
          | nan => exact absurd rfl nb
          | inf t => cases t with
            | false => exact le_rfl
            | true => rw [key_fin_false, key_inf_true] at k; have : (0 : ℤ) ≤ p := by positivity
                      norm_num at k; omega
          | fin t l g =>
            have hl : l ≠ 0 := by
              rintro rfl; exact h2 (by change mul _ _ = _; simp [mul])
            cases t with
            | false => have e : F32.fin false l g * .inf false = .inf false := by change mul _ _ = _; simp [mul, hl]
                       rw [e]
            | true => rw [key_fin_false, key_fin_true] at k; omega
  | fin t r g =>
    have ht : t = false := hc
    subst ht
    cases a with
    | nan => exact absurd rfl na
    | inf s =>
      have hr : r ≠ 0 := by
        rintro rfl; exact h1 (by change mul _ _ = _; simp [mul])
      have e : ∀ s, F32.inf s * .fin false r g = .inf s := fun s => by change mul _ _ = _; simp [mul, hr]
      cases s with
      | true => rw [e]; exact kb.1
      | false =>
        cases b with
        | nan => exact absurd rfl nb
        | inf t => cases t with
          | false => exact le_rfl
          | true => rw [key_inf_false, key_inf_true] at k; norm_num at k
        | fin t l g => have := key_bound_fin (a := .fin t l g) rfl; rw [key_inf_false] at k; omega
    | fin s p h =>
      cases b with
      | nan => exact absurd rfl nb
      | inf t =>
        have hr : r ≠ 0 := by
          rintro rfl; exact h2 (by change mul _ _ = _; simp [mul])
        have e : ∀ s, F32.inf s * .fin false r g = .inf s := fun s => by change mul _ _ = _; simp [mul, hr]
        cases t with
        | false => rw [e]; exact ka.2
        | true => have := key_bound_fin (a := .fin s p h) rfl; rw [key_inf_true] at k; omega
      | fin t l g' =>
        exact (mul_le' ⟨na, nb, k⟩ rfl rfl rfl ⟨by simp, by simp, by rw [key_lit_zero, key_fin_false]; positivity⟩).2.2

/-- the same for a negative factor -/
theorem mul_anti_any {a b c : F32} (hab : a ≤ b) (hc : c.sgn = true) (h1 : a * c ≠ .nan) (h2 : b * c ≠ .nan) : b * c ≤ a * c := by
  have nc : c ≠ .nan := by rintro rfl; cases hc
  have m1 : a * -c = -(a * c) := mul_neg' a c
  have m2 : b * -c = -(b * c) := mul_neg' b c
  have k := mul_mono_any (c := -c) hab (by rw [sgn_neg nc, hc]; rfl) (by rw [m1, ne_eq, neg_eq_nan]; exact h1)
    (by rw [m2, ne_eq, neg_eq_nan]; exact h2)
  rw [m1, m2] at k
  have := neg_le_neg' k
  rwa [neg_neg', neg_neg'] at this

/-- one coordinate: a larger box gives a larger range of parameters -/
theorem slab_mono {lo hi lo' hi' o w : F32} (fl : lo.IsFin = true) (fh : hi.IsFin = true) (fl' : lo'.IsFin = true) (fh' : hi'.IsFin = true)
    (fo : o.IsFin = true) (h : lo ≤ hi) (h1 : lo' ≤ lo) (h2 : hi ≤ hi') (n1 : (lo - o) * w ≠ .nan) (n2 : (hi - o) * w ≠ .nan)
    (n3 : (lo' - o) * w ≠ .nan) (n4 : (hi' - o) * w ≠ .nan) :
    F.min ((lo' - o) * w) ((hi' - o) * w) ≤ F.min ((lo - o) * w) ((hi - o) * w) ∧
    F.max ((lo - o) * w) ((hi - o) * w) ≤ F.max ((lo' - o) * w) ((hi' - o) * w) := by
  have s1 := (sub_mono ⟨fl', fl, h1⟩ fo).1
  have s2 := (sub_mono ⟨fl, fh, h⟩ fo).1
  have s3 := (sub_mono ⟨fh, fh', h2⟩ fo).1
  obtain ⟨a1, a2, a3, a4, -, -⟩ := C17_float_bounds _ _ n3 n4
  obtain ⟨-, -, -, -, b5, b6⟩ := C17_float_bounds _ _ n1 n2
  cases e : w.sgn with
  | false =>
    have m1 := mul_mono_any s1 e n3 n1
    have m2 := mul_mono_any s2 e n1 n2
    have m3 := mul_mono_any s3 e n2 n4
    exact ⟨b5 _ (le_trans_f a1 m1) (le_trans_f a1 (le_trans_f m1 m2)), b6 _ (le_trans_f m2 (le_trans_f m3 a4)) (le_trans_f m3 a4)⟩
  | true =>
    have m1 := mul_anti_any s1 e n3 n1
    have m2 := mul_anti_any s2 e n1 n2
    have m3 := mul_anti_any s3 e n2 n4
    exact ⟨b5 _ (le_trans_f a2 (le_trans_f m3 m2)) (le_trans_f a2 m3), b6 _ (le_trans_f m1 a3) (le_trans_f m2 (le_trans_f m1 a3))⟩

/-- one coordinate: the parameter at which the line crosses a plane -/
theorem near_crossing {p o d : F32} {T : ℝ} (fp : p.IsFin = true) (fo : o.IsFin = true) (fd : d.IsFin = true)
    (d1 : 1 / 2 ^ 20 ≤ |(d.val : ℝ)|) (d2 : |(d.val : ℝ)| ≤ 2 ^ 20) (h : |(p.val : ℝ) - o.val| ≤ 2 ^ 60)
    (hT : |(p.val : ℝ) - o.val| ≤ T * |(d.val : ℝ)|) :
    Near ((p - o) * (lit 1 / d)) ((p.val - o.val) / d.val) (3.01 / 2 ^ 24 * T + 1 / 2 ^ 149) := by
  have d0 : 0 < |(d.val : ℝ)| := lt_of_lt_of_le (by norm_num) d1
  have f1 : (lit 1 : F32).IsFin = true := by decide +kernel
  have q := near_quotient f1 fd (X := 1) (Y := d.val) (a := 0) (b := 0) (Q := 1 / |(d.val : ℝ)|) (E := 0) (by simp) (by simp) d0
    (by positivity) (by simp) (by simp) (by
      rw [add_zero, div_le_iff₀ d0]
      calc (1 : ℝ) ≤ 2 ^ 120 * (1 / 2 ^ 20) := by norm_num
        _ ≤ _ := by gcongr)
  have e1 : 1 / |(d.val : ℝ)| ≤ 2 ^ 20 := by
    rw [div_le_iff₀ d0]
    calc (1 : ℝ) = 2 ^ 20 * (1 / 2 ^ 20) := by norm_num
      _ ≤ _ := by gcongr
  have e2 : 1 / 2 ^ 20 ≤ 1 / |(d.val : ℝ)| := by gcongr
  have q' : Near (lit 1 / d) (1 / d.val) (1.0001 / 2 ^ 24 * (1 / |(d.val : ℝ)|)) := by
    refine ⟨q.1, q.2.trans ?_⟩
    generalize 1 / |(d.val : ℝ)| = B at *
    norm_num at e2 ⊢
    linarith
  have pn : Near p p.val 0 := ⟨fp, by simp⟩
  have on : Near o o.val 0 := ⟨fo, by simp⟩
  have s := near_minus pn on le_rfl (by rw [add_zero, add_zero]; exact h.trans (by norm_num))
  have B0 : 0 ≤ 1 / |(d.val : ℝ)| := by positivity
  have AB : |(p.val : ℝ) - o.val| * (1 / |(d.val : ℝ)|) ≤ T := by
    rw [mul_one_div, div_le_iff₀ d0]; exact hT
  have AB2 : |(p.val : ℝ) - o.val| * (1 / |(d.val : ℝ)|) ≤ 2 ^ 60 * 2 ^ 20 := by gcongr
  have AB0 : 0 ≤ |(p.val : ℝ) - o.val| * (1 / |(d.val : ℝ)|) := by positivity
  have t := near_times s q' le_rfl (B := 1 / |(d.val : ℝ)|) (by rw [abs_div, abs_one]) (by
    rw [show (|(p.val : ℝ) - o.val| + (0 + 0 + 1 / 2 ^ 24 * (|(p.val : ℝ) - o.val| + 0 + 0))) *
      (1 / |(d.val : ℝ)| + 1.0001 / 2 ^ 24 * (1 / |(d.val : ℝ)|)) =
      (1 + 1 / 2 ^ 24) * (1 + 1.0001 / 2 ^ 24) * (|(p.val : ℝ) - o.val| * (1 / |(d.val : ℝ)|)) by ring]
    norm_num at AB2 ⊢
    linarith)
  rw [mul_one_div] at t
  refine ⟨t.1, t.2.trans ?_⟩
  generalize |(p.val : ℝ) - o.val| = A at *
  generalize 1 / |(d.val : ℝ)| = B at *
  rw [show A * (1.0001 / 2 ^ 24 * B) + (0 + 0 + 1 / 2 ^ 24 * (A + 0 + 0)) * B + (0 + 0 + 1 / 2 ^ 24 * (A + 0 + 0)) * (1.0001 / 2 ^ 24 * B) +
    1 / 2 ^ 24 * ((A + (0 + 0 + 1 / 2 ^ 24 * (A + 0 + 0))) * (B + 1.0001 / 2 ^ 24 * B)) + 1 / 2 ^ 150 =
    (1.0001 / 2 ^ 24 + 1 / 2 ^ 24 + 1 / 2 ^ 24 * (1.0001 / 2 ^ 24) + 1 / 2 ^ 24 * ((1 + 1 / 2 ^ 24) * (1 + 1.0001 / 2 ^ 24))) * (A * B) +
      1 / 2 ^ 150 by ring]
  norm_num
  linarith

theorem near_fmin {a b : F32} {x y e : ℝ} (ha : Near a x e) (hb : Near b y e) : Near (F.min a b) (min x y) e := by
  obtain ⟨-, k, s⟩ := F32.min_key (isFin_ne_nan ha.1) (isFin_ne_nan hb.1)
  refine ⟨by rcases s with s | s <;> rw [s]; exacts [ha.1, hb.1], ?_⟩
  have v : ((F.min a b).val : ℝ) = min (a.val : ℝ) b.val := by
    rcases le_total a.key b.key with h | h
    · rw [min_eq_left h, key_eq_iff] at k
      rw [k, min_eq_left]
      exact_mod_cast key_le_iff.1 h
    · rw [min_eq_right h, key_eq_iff] at k
      rw [k, min_eq_right]
      exact_mod_cast key_le_iff.1 h
  rw [v]
  exact (abs_min_sub_min_le_max _ _ _ _).trans (max_le ha.2 hb.2)

theorem near_fmax {a b : F32} {x y e : ℝ} (ha : Near a x e) (hb : Near b y e) : Near (F.max a b) (max x y) e := by
  obtain ⟨-, k, s⟩ := F32.max_key (isFin_ne_nan ha.1) (isFin_ne_nan hb.1)
  refine ⟨by rcases s with s | s <;> rw [s]; exacts [ha.1, hb.1], ?_⟩
  have v : ((F.max a b).val : ℝ) = max (a.val : ℝ) b.val := by
    rcases le_total a.key b.key with h | h
    · rw [max_eq_right h, key_eq_iff] at k
      rw [k, max_eq_right]
      exact_mod_cast key_le_iff.1 h
    · rw [max_eq_left h, key_eq_iff] at k
      rw [k, max_eq_left]
      exact_mod_cast key_le_iff.1 h
  rw [v]
  exact (abs_max_sub_max_le_max _ _ _ _).trans (max_le ha.2 hb.2)

/-- one coordinate, exactly: the parameters for which the line is between the two planes, with a margin -/
theorem slab_exact {l h o d s e : ℝ} (hd : d ≠ 0) (lh : l ≤ h) :
    (l - |d| * e ≤ o + s * d ∧ o + s * d ≤ h + |d| * e) ↔ min ((l - o) / d) ((h - o) / d) - e ≤ s ∧ s ≤ max ((l - o) / d) ((h - o) / d) + e := by
  rcases lt_or_gt_of_ne hd with n | p
  · have a : (h - o) / d ≤ (l - o) / d := by rw [div_le_div_right_of_neg n]; linarith
    have u : (h - o) / d - e ≤ s ↔ (s + e) * d ≤ h - o := by rw [sub_le_iff_le_add, div_le_iff_of_neg n]
    have v : s ≤ (l - o) / d + e ↔ l - o ≤ (s - e) * d := by rw [← sub_le_iff_le_add, le_div_iff_of_neg n]
    rw [min_eq_right a, max_eq_left a, abs_of_neg n, u, v]
    constructor <;> rintro ⟨x, y⟩ <;> constructor <;> linarith
  · have a : (l - o) / d ≤ (h - o) / d := by gcongr
    have u : (l - o) / d - e ≤ s ↔ l - o ≤ (s + e) * d := by rw [sub_le_iff_le_add, div_le_iff₀ p]
    have v : s ≤ (h - o) / d + e ↔ (s - e) * d ≤ h - o := by rw [← sub_le_iff_le_add, le_div_iff₀ p]
    rw [min_eq_left a, max_eq_right a, abs_of_pos p, u, v]
    constructor <;> rintro ⟨x, y⟩ <;> constructor <;> linarith

/-- the smallest of the greatest, the greatest of the smallest -/
theorem slab_decision {n : ℕ} {lo hi o d : Fin n → F32} {T : ℝ} (g : GoodBox lo hi o d T) {tn tf : F32} {a b : Fin n → F32}
    (ha : ∀ i, a i = F.min ((lo i - o i) * (lit 1 / d i)) ((hi i - o i) * (lit 1 / d i)))
    (hb : ∀ i, b i = F.max ((lo i - o i) * (lit 1 / d i)) ((hi i - o i) * (lit 1 / d i)))
    (hn : (∃ i, tn = a i) ∧ ∀ i, a i ≤ tn) (hf : (∃ i, tf = b i) ∧ ∀ i, tf ≤ b i) :
    (∀ s1 s2 : ℝ, 2 * (3.01 / 2 ^ 24 * T + 1 / 2 ^ 149) ≤ s2 - s1 → InBox lo hi o d s1 (fun _ => 0) → InBox lo hi o d s2 (fun _ => 0) →
      tn ≤ tf) ∧
    (tn ≤ tf → tn.IsFin = true ∧ tf.IsFin = true ∧ ∀ s : ℝ, (tn.val : ℝ) ≤ s → s ≤ tf.val →
      InBox lo hi o d s (fun i => |((d i).val : ℝ)| * (3.01 / 2 ^ 24 * T + 1 / 2 ^ 149))) := by
  have d0 : ∀ i, ((d i).val : ℝ) ≠ 0 := fun i => abs_pos.1 (lt_of_lt_of_le (by norm_num) (g.d_ge i))
  have lh : ∀ i, ((lo i).val : ℝ) ≤ (hi i).val := fun i => by exact_mod_cast key_le_iff.1 (g.ordered i).2.2
  have c1 := fun i => near_crossing (g.fin i).1 (g.fin i).2.2.1 (g.fin i).2.2.2 (g.d_ge i) (g.d_le i) (g.lo_le i).1 (g.lo_le i).2
  have c2 := fun i => near_crossing (g.fin i).2.1 (g.fin i).2.2.1 (g.fin i).2.2.2 (g.d_ge i) (g.d_le i) (g.hi_le i).1 (g.hi_le i).2
  generalize 3.01 / 2 ^ 24 * T + 1 / 2 ^ 149 = E at *
  have na : ∀ i, Near (a i) _ E := fun i => by rw [ha i]; exact near_fmin (c1 i) (c2 i)
  have nb : ∀ i, Near (b i) _ E := fun i => by rw [hb i]; exact near_fmax (c1 i) (c2 i)
  constructor
  · intro s1 s2 h h1 h2
    obtain ⟨⟨i, ei⟩, -⟩ := hn
    obtain ⟨⟨j, ej⟩, -⟩ := hf
    have k1 := (slab_exact (e := 0) (d0 i) (lh i)).1 (by simpa using h1 i)
    have k2 := (slab_exact (e := 0) (d0 j) (lh j)).1 (by simpa using h2 j)
    have x := abs_le.1 (na i).2
    have y := abs_le.1 (nb j).2
    rw [ei, ej]
    refine ⟨isFin_ne_nan (na i).1, isFin_ne_nan (nb j).1, ?_⟩
    rw [key_le_iff, ← Rat.cast_le (K := ℝ)]
    linarith [k1.1, k2.2, x.2, y.1]
  · intro h
    have fn : tn.IsFin = true := by obtain ⟨⟨i, ei⟩, -⟩ := hn; rw [ei]; exact (na i).1
    have ff : tf.IsFin = true := by obtain ⟨⟨i, ei⟩, -⟩ := hf; rw [ei]; exact (nb i).1
    refine ⟨fn, ff, fun s s1 s2 i => (slab_exact (d0 i) (lh i)).2 ?_⟩
    have x := abs_le.1 (na i).2
    have y := abs_le.1 (nb i).2
    have u : ((a i).val : ℝ) ≤ tn.val := by exact_mod_cast key_le_iff.1 (hn.2 i).2.2
    have v : (tf.val : ℝ) ≤ (b i).val := by exact_mod_cast key_le_iff.1 (hf.2 i).2.2
    constructor <;> linarith [x.1, y.2]

/-- `1 / d` of a finite `d` is not a NaN and not zero -/
theorem recip_ne {d : F32} (h : d.IsFin = true) : lit 1 / d ≠ .nan ∧ ¬ IsZ (lit 1 / d) := by
  have f1 : (lit 1 : F32).IsFin = true := by decide +kernel
  by_cases z : d.val = 0
  · have e : lit 1 / d = .inf d.sgn := by
      obtain ⟨t, l, hl, rfl⟩ := exists_fin h
      have l0 : l = 0 := by
        have := key_eq_zero.2 z
        cases t
        · rw [key_fin_false] at this; omega
        · rw [key_fin_true] at this; omega
      subst l0
      clear h z
      revert hl
      cases t <;> decide +kernel
    rw [e]
    exact ⟨by simp, fun k => by cases k.1⟩
  · rw [div_fin f1 h z]
    refine ⟨round_ne_nan _ _, fun k => ?_⟩
    have e := round_error_real k.1
    rw [k.2] at e
    have b : |(d.val : ℝ)| < 2 ^ 128 := by
      have b1 := val_lt h
      have b2 := val_lt (x := -d) (by rw [isFin_neg]; exact h)
      rw [val_neg] at b2
      rw [abs_lt]
      constructor
      · have : (-(2 ^ 128) : ℚ) < d.val := by linarith
        exact_mod_cast this
      · exact_mod_cast b1
    have d0 : 0 < |(d.val : ℝ)| := abs_pos.2 (by exact_mod_cast z)
    have v1 : (lit 1 : F32).val = 1 := by decide +kernel
    rw [v1] at e
    push_cast at e
    rw [zero_sub, abs_neg, abs_div, abs_one] at e
    have q : 1 / 2 ^ 128 ≤ 1 / |(d.val : ℝ)| := by gcongr
    norm_num at e q
    linarith

/-- the parameters are numbers -/
theorem crossing_ne_nan {p o d : F32} (fp : p.IsFin = true) (fo : o.IsFin = true) (fd : d.IsFin = true)
    (h : (lit 1 / d).IsFin = true ∨ p.val ≠ o.val) : (p - o) * (lit 1 / d) ≠ .nan := by
  obtain ⟨n, z⟩ := recip_ne fd
  have ns : p - o ≠ .nan := by
    rw [sub_eq]; exact add_fin_ne_nan fp (by rw [ne_eq, neg_eq_nan]; exact isFin_ne_nan fo)
  have zs : IsZ (p - o) → p.val = o.val := fun k => (sub_isZ_iff fp fo).1 k.2
  generalize lit 1 / d = w at *
  generalize p - o = x at *
  cases x with
  | nan => exact absurd rfl ns
  | inf s =>
    cases w with
    | nan => exact absurd rfl n
    | inf t => exact fun e => by cases e
    | fin t l g =>
      have : l ≠ 0 := by
        rintro rfl
        exact z ⟨rfl, by cases t <;> simp [val, key]⟩
      change mul _ _ ≠ _
      simp [mul, this]
  | fin s k g =>
    cases w with
    | nan => exact absurd rfl n
    | inf t =>
      have : k ≠ 0 := by
        rintro rfl
        rcases h with h | h
        · cases h
        · exact h (zs ⟨rfl, by cases s <;> simp [val, key]⟩)
      change mul _ _ ≠ _
      simp [mul, this]
    | fin t l g' => rw [mul_fin rfl rfl]; exact round_ne_nan _ _

end Zcm
