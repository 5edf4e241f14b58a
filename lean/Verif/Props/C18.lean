import Verif.Lemmas.F32
import Verif.Lemmas.Int
import Verif.Model.Common

/-!
# C18: clamp stays in range
-/

set_option linter.unnecessarySeqFocus false

namespace Zcm

open F32

/-- C18, `float`: for `lo <= hi` (hence neither is NaN) and `x` not NaN. -/
theorem C18_float (x lo hi : F32) (hx : x ≠ .nan) (h : lo ≤ hi) :
    lo ≤ F.clamp x lo hi ∧ F.clamp x lo hi ≤ hi ∧
    (lo ≤ x → x ≤ hi → F.clamp x lo hi = x) ∧
    (x < lo → F.clamp x lo hi = lo) ∧ (x > hi → F.clamp x lo hi = hi) ∧
    F.clamp (F.clamp x lo hi) lo hi = F.clamp x lo hi := by
  obtain ⟨hl, hh, hk⟩ := h
  have e : ∀ a : F32, a ≠ .nan → F.clamp a lo hi =
      if a.key < lo.key then lo else if hi.key < a.key then hi else a := by
    intro a ha
    unfold F.clamp F.min F.max
    simp only [lt_iff, ha, hl, hh, ne_eq, not_false_eq_true, true_and]
    split_ifs <;> simp_all <;> omega
  have hne : F.clamp x lo hi ≠ .nan := by rw [e x hx]; split_ifs <;> assumption
  rw [e _ hne]
  simp only [e x hx]
  refine ⟨?_, ?_, ?_, ?_, ?_, ?_⟩
  · split_ifs <;> simp only [le_iff, hx, hl, hh, ne_eq, not_false_eq_true, true_and] <;> omega
  · split_ifs <;> simp only [le_iff, hx, hl, hh, ne_eq, not_false_eq_true, true_and] <;> omega
  · rintro ⟨-, -, h1⟩ ⟨-, -, h2⟩
    rw [if_neg (by omega), if_neg (by omega)]
  · rintro ⟨-, -, h1⟩
    rw [if_pos h1]
  · rintro ⟨-, -, h1⟩
    rw [if_neg (by omega), if_pos h1]
  · split_ifs <;> first | rfl | omega

/-- C18, `float`: monotone in `x`. -/
theorem C18_float_mono (x y lo hi : F32) (hxy : x ≤ y) (h : lo ≤ hi) :
    F.clamp x lo hi ≤ F.clamp y lo hi := by
  obtain ⟨hl, hh, hk⟩ := h
  obtain ⟨hx, hy, hxy⟩ := hxy
  have e : ∀ a : F32, a ≠ .nan → F.clamp a lo hi =
      if a.key < lo.key then lo else if hi.key < a.key then hi else a := by
    intro a ha
    unfold F.clamp F.min F.max
    simp only [lt_iff, ha, hl, hh, ne_eq, not_false_eq_true, true_and]
    split_ifs <;> simp_all <;> omega
  rw [e x hx, e y hy]
  split_ifs <;> simp only [le_iff, hx, hy, hl, hh, ne_eq, not_false_eq_true, true_and] <;> omega

/-- C18, `float`: an inverted range gives `hi`, a NaN argument gives NaN. -/
theorem C18_float_special (x lo hi : F32) :
    (x ≠ .nan → hi < lo → F.clamp x lo hi = hi) ∧ F.clamp .nan lo hi = .nan := by
  refine ⟨?_, by simp [F.clamp, F.min, F.max]⟩
  rintro hx ⟨hh, hl, hk⟩
  unfold F.clamp F.min F.max
  simp only [lt_iff, hx, hl, hh, ne_eq, not_false_eq_true, true_and]
  split_ifs <;> simp_all <;> omega

/-- C18, `int`. -/
theorem C18_int (x y lo hi : I32) :
    (lo.toInt ≤ hi.toInt →
      lo.toInt ≤ (I.clamp x lo hi).toInt ∧ (I.clamp x lo hi).toInt ≤ hi.toInt ∧
      (lo.toInt ≤ x.toInt → x.toInt ≤ hi.toInt → I.clamp x lo hi = x) ∧
      I.clamp (I.clamp x lo hi) lo hi = I.clamp x lo hi ∧
      (x.toInt ≤ y.toInt → (I.clamp x lo hi).toInt ≤ (I.clamp y lo hi).toInt)) ∧
    (hi.toInt < lo.toInt → I.clamp x lo hi = hi) := by
  have e : ∀ a : I32, (I.clamp a lo hi).toInt = min (max a.toInt lo.toInt) hi.toInt := by
    intro a
    have hlt : ∀ a b : I32, a < b ↔ a.toInt < b.toInt := fun _ _ => Iff.rfl
    unfold I.clamp I.min I.max
    simp only [hlt]
    split_ifs <;> omega
  refine ⟨fun h => ⟨?_, ?_, fun h1 h2 => ?_, ?_, fun h1 => ?_⟩, fun h => ?_⟩
  · rw [e]; omega
  · rw [e]; omega
  · rw [← I32.toInt_inj, e]; omega
  · rw [← I32.toInt_inj, e, e]; omega
  · rw [e, e]; omega
  · rw [← I32.toInt_inj, e]; omega

/-- Non-vacuity: below, inside and above the range. -/
example : (lit 0 : F32) ≤ lit 1 ∧ F.clamp (lit (-5) : F32) (lit 0) (lit 1) = lit 0 ∧
    F.clamp (lit 0.25 : F32) (lit 0) (lit 1) = lit 0.25 ∧ F.clamp (lit 7 : F32) (lit 0) (lit 1) = lit 1 ∧
    I.clamp (I32.lit 9) (I32.lit 2) (I32.lit 5) = I32.lit 5 := by
  decide +kernel

end Zcm
