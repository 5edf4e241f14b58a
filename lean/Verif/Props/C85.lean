import Verif.Spec.Coord
import Verif.Model.Geometric
import Verif.Lemmas.F32Mono
import Verif.Lemmas.SignedZero
import Mathlib.Tactic.FinCases

/-!
# C85  Rounding never reverses an order

In binary32 arithmetic the operators and functions that are monotone over the reals stay monotone after rounding.
`≤` is the C++ comparison on floats (false when a side is NaN), so every conclusion also says "not NaN".
-/

namespace Zcm

open F32

/-- `a <= b` in every component, and every component is finite. -/
def OrderedFin {n : ℕ} (a b : Fin n → F32) : Prop :=
  ∀ i, (a i).IsFin = true ∧ (b i).IsFin = true ∧ a i ≤ b i

theorem sub_mono {a b c : F32} (h : a.IsFin = true ∧ b.IsFin = true ∧ a ≤ b) (hc : c.IsFin = true) :
    a - c ≤ b - c ∧ c - b ≤ c - a := by
  have hn : (-c).IsFin = true := by rw [isFin_neg]; exact hc
  refine ⟨?_, ?_⟩
  · rw [sub_eq, sub_eq]
    exact add_le' h.2.2 (le_refl' (isFin_ne_nan hn)) (add_fin_ne_nan h.1 (isFin_ne_nan hn))
      (add_fin_ne_nan h.2.1 (isFin_ne_nan hn))
  · rw [sub_eq, sub_eq]
    have := neg_le_neg' h.2.2
    exact add_le' (le_refl' (isFin_ne_nan hc)) this (add_fin_ne_nan hc this.1) (add_fin_ne_nan hc this.2.1)

theorem add_mono {a b c : F32} (h : a.IsFin = true ∧ b.IsFin = true ∧ a ≤ b) (hc : c.IsFin = true) :
    a + c ≤ b + c :=
  add_le' h.2.2 (le_refl' (isFin_ne_nan hc)) (add_fin_ne_nan h.1 (isFin_ne_nan hc))
    (add_fin_ne_nan h.2.1 (isFin_ne_nan hc))

/-- C85, one float: the four operators, `sqrt` and `step`. -/
theorem C85_float (a b c : F32) (ha : a.IsFin = true) (hb : b.IsFin = true) (hc : c.IsFin = true) (h : a ≤ b) :
    a + c ≤ b + c ∧ c + a ≤ c + b ∧ a - c ≤ b - c ∧ c - b ≤ c - a ∧ -b ≤ -a ∧
    (lit 0 ≤ c → a * c ≤ b * c ∧ c * a ≤ c * b) ∧ (c ≤ lit 0 → b * c ≤ a * c ∧ c * b ≤ c * a) ∧
    (lit 0 < c → a / c ≤ b / c) ∧ (lit 0 ≤ a → F.sqrt a ≤ F.sqrt b) ∧
    F.step c a ≤ F.step c b ∧ F.step b c ≤ F.step a c := by
  have hh := And.intro ha (And.intro hb h)
  have s01 : (lit 0 : F32) ≤ lit 1 := by decide +kernel
  have s00 : (lit 0 : F32) ≤ lit 0 := by decide +kernel
  have s11 : (lit 1 : F32) ≤ lit 1 := by decide +kernel
  refine ⟨add_mono hh hc, ?_, (sub_mono hh hc).1, (sub_mono hh hc).2, neg_le_neg' h, ?_, ?_, ?_, ?_, ?_, ?_⟩
  · rw [add_comm' c, add_comm' c]; exact add_mono hh hc
  · intro h0
    rw [mul_comm' c, mul_comm' c]
    exact ⟨mul_le' h ha hb hc h0, mul_le' h ha hb hc h0⟩
  · intro h0
    have n : lit 0 ≤ -c := by
      refine ⟨by simp, by rw [ne_eq, neg_eq_nan]; exact h0.1, ?_⟩
      have := h0.2.2
      rw [key_lit_zero] at this ⊢
      rw [key_neg]; omega
    have k := neg_le_neg' (mul_le' h ha hb (c := -c) (by rw [isFin_neg]; exact hc) n)
    rw [mul_neg', mul_neg', neg_neg', neg_neg'] at k
    rw [mul_comm' c, mul_comm' c]
    exact ⟨k, k⟩
  · exact fun h0 => div_le' h ha hb hc h0
  · exact fun h0 => sqrt_le' h h0
  · unfold F.step
    split_ifs with h1 h2 h2
    · exact s00
    · exact s01
    · exact absurd ⟨h.1, h2.2.1, lt_of_le_of_lt h.2.2 h2.2.2⟩ h1
    · exact s11
  · unfold F.step
    split_ifs with h1 h2 h2
    · exact s00
    · exact s01
    · exact absurd ⟨h2.1, h.2.1, lt_of_lt_of_le h2.2.2 h.2.2⟩ h1
    · exact s11

/-- C85, `mix(x, y, t)` for `x <= y` never decreases when `t` grows, as long as `y - x` does not overflow. -/
theorem C85_mix (x y t u : F32) (hx : x.IsFin = true) (ht : t.IsFin = true) (hu : u.IsFin = true)
    (hd : (y - x).IsFin = true) (hxy : x ≤ y) (htu : t ≤ u) : F.mix x y t ≤ F.mix x y u := by
  have hy : y.IsFin = true := by
    rcases y with _ | s | ⟨s, k, hk⟩
    · cases hd
    · obtain ⟨_, _, _, rfl⟩ := exists_fin hx
      cases hd
    · rfl
  have d0 : lit 0 ≤ y - x := by
    have e := (sub_mono ⟨hx, hy, hxy⟩ hx).1
    refine ⟨by simp, isFin_ne_nan hd, ?_⟩
    have z : (x - x).key = 0 := by rw [sub_self' hx, key_lit_zero]
    rw [key_lit_zero, ← z]
    exact e.2.2
  have m := mul_le' htu ht hu hd d0
  exact add_le' (le_refl' (isFin_ne_nan hx)) m (add_fin_ne_nan hx m.1) (add_fin_ne_nan hx m.2.1)

/-- C85, the roundings to an integral float keep every order, infinities included. -/
theorem C85_roundings (a b : F32) (h : a ≤ b) :
    F.floor a ≤ F.floor b ∧ F.ceil a ≤ F.ceil b ∧ F.trunc a ≤ F.trunc b ∧ F.round a ≤ F.round b :=
  ⟨integral_le Int.floor_mono h, integral_le Int.ceil_mono h, integral_le towardZero_mono h,
    integral_le halfAway_mono h⟩

/-- C85, `vec2` operators: componentwise `a <= b` is kept by adding or subtracting `c` or the number `s`, by multiplying
with `s >= 0` and by dividing by `s > 0`. -/
theorem C85_vec2_ops (a b c : V2 F32) (s : F32) (h : OrderedFin (coord a) (coord b))
    (hc : ∀ i, (coord c i).IsFin = true) (hs : s.IsFin = true) (i : Fin 2) :
    coord (a + c) i ≤ coord (b + c) i ∧ coord (a - c) i ≤ coord (b - c) i ∧ coord (c - b) i ≤ coord (c - a) i ∧
    coord (a + s) i ≤ coord (b + s) i ∧ coord (a - s) i ≤ coord (b - s) i ∧ coord (s - b) i ≤ coord (s - a) i ∧
    (lit 0 ≤ s → coord (a * s) i ≤ coord (b * s) i) ∧ (lit 0 < s → coord (a / s) i ≤ coord (b / s) i) ∧
    (lit 0 ≤ coord c i → coord (a * c) i ≤ coord (b * c) i) ∧
    (lit 0 < coord c i → coord (a / c) i ≤ coord (b / c) i) := by
  have hi := h i
  have hci := hc i
  fin_cases i <;>
    exact ⟨add_mono hi hci, (sub_mono hi hci).1, (sub_mono hi hci).2, add_mono hi hs, (sub_mono hi hs).1,
      (sub_mono hi hs).2, fun p => mul_le' hi.2.2 hi.1 hi.2.1 hs p, fun p => div_le' hi.2.2 hi.1 hi.2.1 hs p,
      fun p => mul_le' hi.2.2 hi.1 hi.2.1 hci p, fun p => div_le' hi.2.2 hi.1 hi.2.1 hci p⟩

/-- C85, `vec2`: growing every component in magnitude never shortens the vector (any floats but NaN, overflow to
infinity included). -/
theorem C85_vec2_length (a b : V2 F32) (h : ∀ i, F.abs (coord a i) ≤ F.abs (coord b i)) :
    V2.length2 a ≤ V2.length2 b ∧ V2.length a ≤ V2.length b := by
  have e : NnLe (V2.dot a a) (V2.dot b b) := (NnLe.sq (h 0)).add (NnLe.sq (h 1))
  exact ⟨e.le, sqrt_le' e.le e.nonneg⟩

/-- C85, `vec3` operators: componentwise `a <= b` is kept by adding or subtracting `c` or the number `s`, by multiplying
with `s >= 0` and by dividing by `s > 0`. -/
theorem C85_vec3_ops (a b c : V3 F32) (s : F32) (h : OrderedFin (coord a) (coord b))
    (hc : ∀ i, (coord c i).IsFin = true) (hs : s.IsFin = true) (i : Fin 3) :
    coord (a + c) i ≤ coord (b + c) i ∧ coord (a - c) i ≤ coord (b - c) i ∧ coord (c - b) i ≤ coord (c - a) i ∧
    coord (a + s) i ≤ coord (b + s) i ∧ coord (a - s) i ≤ coord (b - s) i ∧ coord (s - b) i ≤ coord (s - a) i ∧
    (lit 0 ≤ s → coord (a * s) i ≤ coord (b * s) i) ∧ (lit 0 < s → coord (a / s) i ≤ coord (b / s) i) ∧
    (lit 0 ≤ coord c i → coord (a * c) i ≤ coord (b * c) i) ∧
    (lit 0 < coord c i → coord (a / c) i ≤ coord (b / c) i) := by
  have hi := h i
  have hci := hc i
  fin_cases i <;>
    exact ⟨add_mono hi hci, (sub_mono hi hci).1, (sub_mono hi hci).2, add_mono hi hs, (sub_mono hi hs).1,
      (sub_mono hi hs).2, fun p => mul_le' hi.2.2 hi.1 hi.2.1 hs p, fun p => div_le' hi.2.2 hi.1 hi.2.1 hs p,
      fun p => mul_le' hi.2.2 hi.1 hi.2.1 hci p, fun p => div_le' hi.2.2 hi.1 hi.2.1 hci p⟩

/-- C85, `vec3`: growing every component in magnitude never shortens the vector (any floats but NaN, overflow to
infinity included). -/
theorem C85_vec3_length (a b : V3 F32) (h : ∀ i, F.abs (coord a i) ≤ F.abs (coord b i)) :
    V3.length2 a ≤ V3.length2 b ∧ V3.length a ≤ V3.length b := by
  have e : NnLe (V3.dot a a) (V3.dot b b) := ((NnLe.sq (h 0)).add (NnLe.sq (h 1))).add (NnLe.sq (h 2))
  exact ⟨e.le, sqrt_le' e.le e.nonneg⟩

/-- C85, `vec4` operators: componentwise `a <= b` is kept by adding or subtracting `c` or the number `s`, by multiplying
with `s >= 0` and by dividing by `s > 0`. -/
theorem C85_vec4_ops (a b c : V4 F32) (s : F32) (h : OrderedFin (coord a) (coord b))
    (hc : ∀ i, (coord c i).IsFin = true) (hs : s.IsFin = true) (i : Fin 4) :
    coord (a + c) i ≤ coord (b + c) i ∧ coord (a - c) i ≤ coord (b - c) i ∧ coord (c - b) i ≤ coord (c - a) i ∧
    coord (a + s) i ≤ coord (b + s) i ∧ coord (a - s) i ≤ coord (b - s) i ∧ coord (s - b) i ≤ coord (s - a) i ∧
    (lit 0 ≤ s → coord (a * s) i ≤ coord (b * s) i) ∧ (lit 0 < s → coord (a / s) i ≤ coord (b / s) i) ∧
    (lit 0 ≤ coord c i → coord (a * c) i ≤ coord (b * c) i) ∧
    (lit 0 < coord c i → coord (a / c) i ≤ coord (b / c) i) := by
  have hi := h i
  have hci := hc i
  fin_cases i <;>
    exact ⟨add_mono hi hci, (sub_mono hi hci).1, (sub_mono hi hci).2, add_mono hi hs, (sub_mono hi hs).1,
      (sub_mono hi hs).2, fun p => mul_le' hi.2.2 hi.1 hi.2.1 hs p, fun p => div_le' hi.2.2 hi.1 hi.2.1 hs p,
      fun p => mul_le' hi.2.2 hi.1 hi.2.1 hci p, fun p => div_le' hi.2.2 hi.1 hi.2.1 hci p⟩

/-- C85, `vec4`: growing every component in magnitude never shortens the vector (any floats but NaN, overflow to
infinity included). -/
theorem C85_vec4_length (a b : V4 F32) (h : ∀ i, F.abs (coord a i) ≤ F.abs (coord b i)) :
    V4.length2 a ≤ V4.length2 b ∧ V4.length a ≤ V4.length b := by
  have e : NnLe (V4.dot a a) (V4.dot b b) := (((NnLe.sq (h 0)).add (NnLe.sq (h 1))).add (NnLe.sq (h 2))).add (NnLe.sq (h 3))
  exact ⟨e.le, sqrt_le' e.le e.nonneg⟩

/-! Non-vacuity: rounding does identify results (`2^24 + 1` rounds down), yet never swaps them. -/
example : OrderedFin (coord (⟨lit 16777216, lit (-3)⟩ : V2 F32)) (coord (⟨lit 16777218, lit (1 / 3)⟩ : V2 F32)) := by
  intro i; fin_cases i <;> decide +kernel
example : (lit 16777216 : F32) + lit 1 = lit 16777216 + lit 0 ∧ (lit 0 : F32) ≤ lit 1 := by decide +kernel
example : ∀ i, F.abs (coord (⟨lit (-1), lit 2⟩ : V2 F32) i) ≤ F.abs (coord (⟨lit 1, lit (-3)⟩ : V2 F32) i) := by
  intro i; fin_cases i <;> decide +kernel
example : ((lit 5 : F32) - lit 2).IsFin = true ∧ (lit 2 : F32) ≤ lit 5 ∧ (lit (1 / 4) : F32) ≤ lit 3 := by
  decide +kernel

end Zcm
