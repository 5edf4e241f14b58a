import Verif.Lemmas.F32
import Verif.Spec.Nearest

/-!
# Nearest binary32 number to a real number known between two rationals
-/

set_option exponentiation.threshold 300

namespace Zcm.F32

theorem rhe_cast (q : ℚ) : roundHalfEven (q : ℝ) = roundHalfEven q := by
  unfold roundHalfEven
  rw [Rat.floor_cast]
  have h1 : ((q : ℝ) - (⌊q⌋ : ℝ) < 1 / 2) ↔ (q - ⌊q⌋ < 1 / 2) := by
    rw [show (q : ℝ) - (⌊q⌋ : ℝ) = ((q - ⌊q⌋ : ℚ) : ℝ) by push_cast; rfl,
      show (1 / 2 : ℝ) = ((1 / 2 : ℚ) : ℝ) by push_cast; rfl, Rat.cast_lt]
  have h2 : (1 / 2 < (q : ℝ) - (⌊q⌋ : ℝ)) ↔ (1 / 2 < q - ⌊q⌋) := by
    rw [show (q : ℝ) - (⌊q⌋ : ℝ) = ((q - ⌊q⌋ : ℚ) : ℝ) by push_cast; rfl,
      show (1 / 2 : ℝ) = ((1 / 2 : ℚ) : ℝ) by push_cast; rfl, Rat.cast_lt]
  simp only [h1, h2]

theorem roundUnits_ratCast (q : ℚ) : roundUnits (q : ℝ) = roundUnits q := by
  unfold roundUnits
  rw [Rat.floor_cast, ← rhe_cast]
  push_cast
  rfl

theorem Nearest.neg {x : F32} {r : ℝ} (h : Nearest x r) : Nearest (-x) (-r) := by
  refine ⟨by simpa using h.1, fun y hy => ?_⟩
  have := h.2 (-y) (by simpa using hy)
  rw [val_neg] at this ⊢
  push_cast at this ⊢
  rw [show -(x.val : ℝ) - -r = -(x.val - r) by ring, abs_neg]
  rwa [show -(y.val : ℝ) - r = -(y.val - -r) by ring, abs_neg] at this

theorem nearest_of_bounds {x : F32} {lo hi : ℚ} {r : ℝ} (hx : x.IsFin = true) (h0 : 0 ≤ lo)
    (h1 : round false lo = x) (h2 : round false hi = x) (hl : (lo : ℝ) ≤ r) (hh : r ≤ hi) :
    Nearest x r := by
  have hlh : (lo : ℝ) ≤ hi := hl.trans hh
  have hhi : 0 ≤ hi := h0.trans (by exact_mod_cast hlh)
  have hr : 0 ≤ r := le_trans (by exact_mod_cast h0) hl
  have key : ∀ q : ℚ, 0 ≤ q → round false q = x → x.key = (roundUnits (q * 2 ^ 149) : ℕ) := by
    intro q hq e
    have b := key_bound_fin hx
    rw [← e, key_round] at b ⊢
    unfold cut uround at b ⊢
    rw [if_neg (not_lt.2 hq), abs_of_nonneg hq] at b ⊢
    omega
  have kl := key lo h0 h1
  have kh := key hi hhi h2
  have ml : roundUnits (lo * 2 ^ 149) ≤ roundUnits (r * 2 ^ 149) := by
    rw [← roundUnits_ratCast]
    push_cast
    exact roundUnits_mono (by positivity) (by nlinarith [show (0:ℝ) < 2 ^ 149 by positivity])
  have mh : roundUnits (r * 2 ^ 149) ≤ roundUnits (hi * 2 ^ 149) := by
    rw [← roundUnits_ratCast (hi * 2 ^ 149)]
    push_cast
    exact roundUnits_mono (by positivity) (by nlinarith [show (0:ℝ) < 2 ^ 149 by positivity])
  have kr : x.key = (roundUnits (r * 2 ^ 149) : ℕ) := by omega
  have hv : (x.val : ℝ) = (roundUnits (r * 2 ^ 149) : ℝ) / 2 ^ 149 := by
    unfold val
    rw [kr]
    push_cast
    rfl
  refine ⟨hx, fun y hy => ?_⟩
  have p : (0 : ℝ) < 2 ^ 149 := by positivity
  have near : ∀ k : ℕ, Rep' k → |(x.val : ℝ) - r| ≤ |(k : ℝ) / 2 ^ 149 - r| := by
    intro k hk
    have := roundUnits_nearest (q := r * 2 ^ 149) (by positivity) hk
    rw [hv, abs_sub_comm, abs_sub_comm _ r]
    have e : ∀ z : ℝ, |r - z / 2 ^ 149| = |r * 2 ^ 149 - z| / 2 ^ 149 := fun z => by
      rw [← abs_of_pos p, ← abs_div, abs_of_pos p]
      congr 1
      field_simp
    rw [e, e]
    exact div_le_div_of_nonneg_right this p.le
  rcases le_or_gt 0 y.key with hk | hk
  · have e : (y.val : ℝ) = (y.key.natAbs : ℝ) / 2 ^ 149 := by
      unfold val
      push_cast
      rw [Nat.cast_natAbs, abs_of_nonneg hk]
    rw [e]
    exact near _ (rep_of_isFin hy).1
  · have h00 := near 0 (rep'_of_lt (by norm_num))
    refine h00.trans ?_
    have : (y.val : ℝ) < 0 := by exact_mod_cast key_neg'.1 hk
    rw [abs_sub_comm, abs_sub_comm _ r, abs_of_nonneg (by simpa using hr), abs_of_nonneg (by linarith)]
    simp only [Nat.cast_zero, zero_div]
    linarith

theorem IsNearest.neg {x : F32} {r : ℝ} (h : IsNearest x r) : IsNearest (-x) (-r) := by
  refine ⟨by simpa using h.1, fun y hy hne => ?_⟩
  have := h.2 (-y) (by simpa using hy) (fun e => hne (by rw [val_neg] at e ⊢; linarith))
  rw [val_neg] at this ⊢
  push_cast at this ⊢
  rw [show -(x.val : ℝ) - -r = -(x.val - r) by ring, abs_neg]
  rwa [show -(y.val : ℝ) - r = -(y.val - -r) by ring, abs_neg] at this

theorem isNearest_of_bounds {x : F32} {lo hi : ℚ} {r : ℝ} (hx : x.IsFin = true) (h0 : 0 ≤ lo)
    (h1 : round false lo = x) (h2 : round false hi = x) (hl : (lo : ℝ) < r) (hh : r < hi) :
    IsNearest x r := by
  have n1 := nearest_of_bounds hx h0 h1 h2 le_rfl (hl.trans hh).le
  have n2 := nearest_of_bounds hx h0 h1 h2 (hl.trans hh).le le_rfl
  refine ⟨hx, fun y hy hne => ?_⟩
  have a := n1.2 y hy
  have b := n2.2 y hy
  have hne' : (y.val : ℝ) ≠ x.val := by exact_mod_cast hne
  rw [← sq_le_sq] at a b
  rw [← sq_lt_sq]
  rcases lt_or_gt_of_ne hne' with h | h
  · nlinarith [mul_pos (sub_pos.2 h) (sub_pos.2 hl)]
  · nlinarith [mul_pos (sub_pos.2 h) (sub_pos.2 hh)]

/-- At most one value is nearest. -/
theorem isNearest_unique {x y : F32} {r : ℝ} (hx : IsNearest x r) (hy : IsNearest y r) : x.val = y.val := by
  by_contra h
  have a := hx.2 y hy.1 (Ne.symm h)
  have b := hy.2 x hx.1 h
  linarith

end Zcm.F32
