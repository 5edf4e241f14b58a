import Verif.Lemmas.F32Range
import Verif.Lemmas.F32Correct
import Verif.Lemmas.F32Int

/-!
# Monotonicity of the binary32 operations
-/

set_option exponentiation.threshold 300

namespace Zcm.F32

theorem le_inf {a : F32} (h : a ≠ .nan) : a ≤ .inf false := ⟨h, by simp, (key_bound a).2⟩
theorem inf_le {a : F32} (h : a ≠ .nan) : .inf true ≤ a := ⟨by simp, h, (key_bound a).1⟩
theorem le_refl' {a : F32} (h : a ≠ .nan) : a ≤ a := ⟨h, h, le_rfl⟩

theorem eq_inf_of_le {b : F32} (h : .inf false ≤ b) : b = .inf false := by
  rcases b with _ | s | ⟨s, k, hk⟩
  · exact absurd rfl h.2.1
  · cases s
    · rfl
    · exact absurd h.2.2 (by rw [key_inf_false, key_inf_true]; norm_num)
  · have := (key_bound_fin (a := .fin s k hk) rfl).2
    have := h.2.2
    rw [key_inf_false] at this
    omega

theorem eq_ninf_of_le {a : F32} (h : a ≤ .inf true) : a = .inf true := by
  rcases a with _ | s | ⟨s, k, hk⟩
  · exact absurd rfl h.1
  · cases s
    · exact absurd h.2.2 (by rw [key_inf_false, key_inf_true]; norm_num)
    · rfl
  · have := (key_bound_fin (a := .fin s k hk) rfl).1
    have := h.2.2
    rw [key_inf_true] at this
    omega

theorem inf_add {s : Bool} {c : F32} (h : (.inf s : F32) + c ≠ .nan) : (.inf s : F32) + c = .inf s := by
  rcases c with _ | t | ⟨t, k, hk⟩
  · exact absurd rfl h
  · cases s <;> cases t <;> first | rfl | exact absurd rfl h
  · rfl

theorem add_le' {a b c d : F32} (hab : a ≤ b) (hcd : c ≤ d) (h1 : a + c ≠ .nan) (h2 : b + d ≠ .nan) :
    a + c ≤ b + d := by
  have main : ∀ {a b c d : F32}, a ≤ b → a + c ≠ .nan → b + d ≠ .nan → a.IsFin = false → a + c ≤ b + d := by
    intro a b c d hab h1 h2 ha
    rcases a with _ | s | ⟨s, k, hk⟩
    · exact absurd rfl hab.1
    · rw [inf_add h1]
      cases s
      · rw [eq_inf_of_le hab] at h2 ⊢
        rw [inf_add h2]
        exact le_refl' (by simp)
      · exact inf_le h2
    · cases ha
  have main' : ∀ {a b c d : F32}, a ≤ b → a + c ≠ .nan → b + d ≠ .nan → b.IsFin = false → a + c ≤ b + d := by
    intro a b c d hab h1 h2 hb
    rcases b with _ | s | ⟨s, k, hk⟩
    · exact absurd rfl hab.2.1
    · rw [inf_add h2]
      cases s
      · exact le_inf h1
      · rw [eq_ninf_of_le hab] at h1 ⊢
        rw [inf_add h1]
        exact le_refl' (by simp)
    · cases hb
  cases ha : a.IsFin
  · exact main hab h1 h2 ha
  cases hb : b.IsFin
  · exact main' hab h1 h2 hb
  cases hc : c.IsFin
  · rw [add_comm' a, add_comm' b] at *
    exact main hcd h1 h2 hc
  cases hd : d.IsFin
  · rw [add_comm' a, add_comm' b] at *
    exact main' hcd h1 h2 hd
  refine ⟨h1, h2, ?_⟩
  rw [add_fin ha hc, add_fin hb hd]
  exact key_round_mono (add_le_add (key_le_iff.1 hab.2.2) (key_le_iff.1 hcd.2.2)) _ _

theorem add_fin_ne_nan {a c : F32} (ha : a.IsFin = true) (hc : c ≠ .nan) : a + c ≠ .nan := by
  rcases c with _ | t | ⟨t, k, hk⟩
  · exact absurd rfl hc
  · obtain ⟨_, _, _, rfl⟩ := exists_fin ha
    exact fun h => by cases h
  · rw [add_fin ha rfl]; exact round_ne_nan _ _

theorem neg_le_neg' {a b : F32} (h : a ≤ b) : -b ≤ -a :=
  ⟨by rw [ne_eq, neg_eq_nan]; exact h.2.1, by rw [ne_eq, neg_eq_nan]; exact h.1, by
    rw [key_neg, key_neg]; exact neg_le_neg h.2.2⟩

theorem mul_le' {a b c : F32} (hab : a ≤ b) (ha : a.IsFin = true) (hb : b.IsFin = true) (hc : c.IsFin = true)
    (h0 : lit 0 ≤ c) : a * c ≤ b * c := by
  rw [mul_fin ha hc, mul_fin hb hc]
  refine ⟨round_ne_nan _ _, round_ne_nan _ _, key_round_mono ?_ _ _⟩
  have : 0 ≤ c.val := key_nonneg.1 (nonneg_iff.1 h0).2
  exact mul_le_mul_of_nonneg_right (key_le_iff.1 hab.2.2) this

theorem div_le' {a b c : F32} (hab : a ≤ b) (ha : a.IsFin = true) (hb : b.IsFin = true) (hc : c.IsFin = true)
    (h0 : lit 0 < c) : a / c ≤ b / c := by
  have p : 0 < c.val := by
    have := h0.2.2
    rw [key_lit_zero] at this
    exact key_pos.1 this
  rw [div_fin ha hc p.ne', div_fin hb hc p.ne']
  exact ⟨round_ne_nan _ _, round_ne_nan _ _, key_round_mono (div_le_div_of_nonneg_right (key_le_iff.1 hab.2.2) p.le) _ _⟩

theorem CorrectlyRounded.mono {x y : F32} {r t : ℝ} (hx : CorrectlyRounded x r) (hy : CorrectlyRounded y t)
    (h0 : 0 ≤ r) (h : r ≤ t) : x.key ≤ y.key := by
  have k : ∀ {x : F32} {r : ℝ}, CorrectlyRounded x r → 0 ≤ r →
      x.key = (pack false (roundUnits (r * 2 ^ 149))).key := by
    intro x r hx h0
    rcases hx.unique (correct_pack h0) with h | ⟨_, _, h, g⟩
    · rw [h]
    · rw [key_eq_zero.2 h, key_eq_zero.2 g]
  rw [k hx h0, k hy (h0.trans h), key_pack (roundUnits_rep' (by positivity)),
    key_pack (roundUnits_rep' (mul_nonneg (h0.trans h) (by positivity)))]
  have := roundUnits_mono (p := r * 2 ^ 149) (q := t * 2 ^ 149) (by positivity)
    (mul_le_mul_of_nonneg_right h (by positivity))
  simp only [Bool.false_eq_true, if_false]
  omega

theorem sqrt_ne_nan {a : F32} (h : lit 0 ≤ a) : FloatOps.sqrt a ≠ .nan := by
  rcases a with _ | s | ⟨s, k, hk⟩
  · exact absurd rfl h.2.1
  · cases s
    · exact fun h => by cases h
    · exact absurd h.2.2 (by rw [key_lit_zero, key_inf_true]; norm_num)
  · have v : 0 ≤ (fin s k hk).val := key_nonneg.1 (nonneg_iff.1 h).2
    rcases v.lt_or_eq with h | h
    · exact isFin_ne_nan (sqrt_nearest (a := .fin s k hk) rfl h).1
    · rw [sqrt_zero_val rfl h.symm]; exact fun h => by cases h

theorem sqrt_le' {a b : F32} (hab : a ≤ b) (h0 : lit 0 ≤ a) : FloatOps.sqrt a ≤ FloatOps.sqrt b := by
  have hb0 : lit 0 ≤ b := ⟨by simp, hab.2.1, le_trans h0.2.2 hab.2.2⟩
  refine ⟨sqrt_ne_nan h0, sqrt_ne_nan hb0, ?_⟩
  cases hb : b.IsFin
  · rcases b with _ | s | ⟨s, k, hk⟩
    · exact absurd rfl hab.2.1
    · cases s
      · exact (key_bound _).2
      · exact absurd hb0.2.2 (by rw [key_lit_zero, key_inf_true]; norm_num)
    · cases hb
  cases ha : a.IsFin
  · rcases a with _ | s | ⟨s, k, hk⟩
    · exact absurd rfl hab.1
    · cases s
      · rw [eq_inf_of_le hab] at hb; cases hb
      · exact absurd h0.2.2 (by rw [key_lit_zero, key_inf_true]; norm_num)
    · cases ha
  have va : 0 ≤ a.val := key_nonneg.1 (nonneg_iff.1 h0).2
  have vb : 0 ≤ b.val := key_nonneg.1 (nonneg_iff.1 hb0).2
  exact (sqrt_correct ha va).mono (sqrt_correct hb vb) (Real.sqrt_nonneg _)
    (Real.sqrt_le_sqrt (by exact_mod_cast key_le_iff.1 hab.2.2))

/-- squares of growing magnitudes -/
theorem sq_le' {a b : F32} (h : FloatOps.fabs a ≤ FloatOps.fabs b) : a * a ≤ b * b := by
  have e : ∀ x : F32, FloatOps.fabs x * FloatOps.fabs x = x * x := by
    intro x
    rcases x with _ | s | ⟨s, k, hk⟩
    · rfl
    · cases s <;> rfl
    · cases s
      · rfl
      · show fin false k hk * fin false k hk = -fin false k hk * -fin false k hk
        rw [neg_mul', mul_neg', neg_neg']
  have n : ∀ x : F32, x ≠ .nan → FloatOps.fabs x ≠ .nan := by
    intro x; cases x <;> simp [FloatOps.fabs, fabs]
  have p : ∀ x : F32, 0 ≤ (FloatOps.fabs x).key := by
    intro x; rcases x with _ | s | ⟨s, k, hk⟩
    · exact le_rfl
    · show (0 : ℤ) ≤ 2 ^ 277; positivity
    · exact Int.natCast_nonneg k
  rw [← e a, ← e b]
  have pa := p a
  generalize FloatOps.fabs a = x at *
  generalize FloatOps.fabs b = y at *
  clear e n p
  have nn : ∀ z : F32, z ≠ .nan → z * z ≠ .nan := by
    intro z hz
    rcases z with _ | s | ⟨s, k, hk⟩
    · exact absurd rfl hz
    · cases s <;> exact fun h => by cases h
    · rw [mul_fin rfl rfl]; exact round_ne_nan _ _
  cases hy : y.IsFin
  · rcases y with _ | s | ⟨s, k, hk⟩
    · exact absurd rfl h.2.1
    · have : (inf s : F32) * inf s = inf false := by cases s <;> rfl
      rw [this]
      exact le_inf (nn x h.1)
    · cases hy
  cases hx : x.IsFin
  · rcases x with _ | s | ⟨s, k, hk⟩
    · exact absurd rfl h.1
    · cases s
      · rw [eq_inf_of_le h] at hy; cases hy
      · rw [key_inf_true] at pa; norm_num at pa
    · cases hx
  have vx : 0 ≤ x.val := key_nonneg.1 pa
  refine ⟨nn x h.1, nn y h.2.1, ?_⟩
  rw [mul_fin hx hx, mul_fin hy hy]
  exact key_round_mono (mul_self_le_mul_self vx (key_le_iff.1 h.2.2)) _ _

theorem integral_le {f : ℚ → ℤ} (hf : Monotone f) {a b : F32} (hab : a ≤ b) : integral f a ≤ integral f b := by
  have nn : ∀ z : F32, z ≠ .nan → integral f z ≠ .nan := by
    intro z hz
    rcases z with _ | s | ⟨s, k, hk⟩
    · exact absurd rfl hz
    · exact fun h => by cases h
    · exact round_ne_nan _ _
  refine ⟨nn a hab.1, nn b hab.2.1, ?_⟩
  rcases a with _ | s | ⟨s, k, hk⟩
  · exact absurd rfl hab.1
  · cases s
    · rw [eq_inf_of_le hab]
    · exact (key_bound _).1
  · rcases b with _ | t | ⟨t, l, hl⟩
    · exact absurd rfl hab.2.1
    · cases t
      · exact (key_bound _).2
      · have := eq_ninf_of_le hab; cases this
    · exact key_round_mono (by exact_mod_cast hf (key_le_iff.1 hab.2.2)) _ _

theorem towardZero_mono : Monotone towardZero := by
  intro x y h
  unfold towardZero
  split_ifs with h1 h2
  · exact Int.floor_le_floor h
  · exact absurd (h1.trans h) h2
  · have a : ⌈x⌉ ≤ 0 := Int.ceil_le.2 (by push_cast; linarith)
    have b : 0 ≤ ⌊y⌋ := Int.floor_nonneg.2 (by assumption)
    omega
  · exact Int.ceil_le_ceil h

theorem halfAway_mono : Monotone halfAway := by
  intro x y h
  unfold halfAway
  split_ifs with h1 h2
  · exact Int.floor_le_floor (by linarith)
  · exact absurd (h1.trans h) h2
  · have a : ⌈x - 1 / 2⌉ ≤ 0 := Int.ceil_le.2 (by push_cast; linarith)
    have b : 0 ≤ ⌊y + 1 / 2⌋ := Int.floor_nonneg.2 (by linarith)
    omega
  · exact Int.ceil_le_ceil (by linarith)

/-- `0 <= x <= y` -/
structure NnLe (x y : F32) : Prop where
  nonneg : lit 0 ≤ x
  le : x ≤ y

theorem nonneg_add_ne_nan {x z : F32} (hx : lit 0 ≤ x) (hz : lit 0 ≤ z) : x + z ≠ .nan := by
  rcases x with _ | s | ⟨s, k, hk⟩
  · exact absurd rfl hx.2.1
  · cases s
    · rcases z with _ | t | ⟨t, l, hl⟩
      · exact absurd rfl hz.2.1
      · cases t
        · exact fun h => by cases h
        · exact absurd hz.2.2 (by rw [key_lit_zero, key_inf_true]; norm_num)
      · exact fun h => by cases h
    · exact absurd hx.2.2 (by rw [key_lit_zero, key_inf_true]; norm_num)
  · exact add_fin_ne_nan rfl hz.2.1

theorem nonneg_trans {x y : F32} (hx : lit 0 ≤ x) (h : x ≤ y) : lit 0 ≤ y :=
  ⟨by simp, h.2.1, le_trans hx.2.2 h.2.2⟩

theorem NnLe.add {x y z w : F32} (h : NnLe x y) (g : NnLe z w) : NnLe (x + z) (y + w) where
  nonneg := (add_nonneg' (.inr h.nonneg) (.inr g.nonneg)).resolve_left (nonneg_add_ne_nan h.nonneg g.nonneg)
  le := add_le' h.le g.le (nonneg_add_ne_nan h.nonneg g.nonneg)
    (nonneg_add_ne_nan (nonneg_trans h.nonneg h.le) (nonneg_trans g.nonneg g.le))

theorem NnLe.sq {a b : F32} (h : FloatOps.fabs a ≤ FloatOps.fabs b) : NnLe (a * a) (b * b) where
  nonneg := (sq_nonneg' a).resolve_left (sq_le' h).1
  le := sq_le' h

end Zcm.F32
