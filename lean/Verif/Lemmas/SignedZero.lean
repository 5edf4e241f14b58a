import Verif.Lemmas.F32Approx
import Verif.Spec.SignedZero

/-!
# Arithmetic up to the sign of zeros
-/

namespace Zcm.F32

theorem SameNumber.rfl {x : F32} : SameNumber x x := .inl (Eq.refl x)

theorem SameNumber.symm {x y : F32} (h : SameNumber x y) : SameNumber y x := by
  rcases h with h | ⟨a, b, c, d⟩
  · exact .inl h.symm
  · exact .inr ⟨b, a, d, c⟩

theorem SameNumber.trans {x y z : F32} (h : SameNumber x y) (g : SameNumber y z) : SameNumber x z := by
  rcases h with rfl | ⟨a, b, c, d⟩
  · exact g
  · rcases g with rfl | ⟨_, b', _, d'⟩
    · exact .inr ⟨a, b, c, d⟩
    · exact .inr ⟨a, b', c, d'⟩

theorem SameNumber.neg {x y : F32} (h : SameNumber x y) : SameNumber (-x) (-y) := by
  rcases h with rfl | ⟨a, b, c, d⟩
  · exact .rfl
  · exact .inr ⟨by simpa using a, by simpa using b, by rw [val_neg, c, neg_zero], by rw [val_neg, d, neg_zero]⟩

theorem round_same (s t : Bool) (x : ℚ) : SameNumber (round s x) (round t x) := by
  by_cases h : x = 0
  · subst h
    right
    have : ∀ s : Bool, (round s 0).IsFin = true ∧ (round s 0).val = 0 := by decide +kernel
    exact ⟨(this s).1, (this t).1, (this s).2, (this t).2⟩
  · left
    unfold round
    rw [if_neg h, if_neg h]

theorem SameNumber.add {x y x' y' : F32} (hx : SameNumber x x') (hy : SameNumber y y') :
    SameNumber (x + y) (x' + y') := by
  have key : ∀ {a b c : F32}, a.IsFin = true → b.IsFin = true → a.val = 0 → b.val = 0 →
      SameNumber (a + c) (b + c) := by
    intro a b c ha hb va vb
    by_cases hc : c.IsFin = true
    · rw [add_fin ha hc, add_fin hb hc, va, vb]
      exact round_same _ _ _
    · left
      obtain ⟨_, _, _, rfl⟩ := exists_fin ha
      obtain ⟨_, _, _, rfl⟩ := exists_fin hb
      rcases c with _ | s | ⟨s, k, h⟩
      · rfl
      · rfl
      · exact absurd (isFin_fin _ _ _) hc
  have h1 : SameNumber (x + y) (x' + y) := by
    rcases hx with rfl | ⟨a, b, c, d⟩
    · exact .rfl
    · exact key a b c d
  have h2 : SameNumber (x' + y) (x' + y') := by
    rcases hy with rfl | ⟨a, b, c, d⟩
    · exact .rfl
    · rw [add_comm' x' y, add_comm' x' y']
      exact key a b c d
  exact h1.trans h2

theorem SameNumber.neg_add (x y : F32) : SameNumber (-x + -y) (-(x + y)) := by
  by_cases h : x.IsFin = true ∧ y.IsFin = true
  · rw [add_fin h.1 h.2, add_fin (by simpa using h.1) (by simpa using h.2), val_neg, val_neg, ← round_neg,
      show -x.val + -y.val = -(x.val + y.val) by ring]
    exact round_same _ _ _
  · left
    rcases x with _ | s | ⟨s, k, hk⟩ <;> rcases y with _ | t | ⟨t, l, hl⟩
    · rfl
    · rfl
    · rfl
    · rfl
    · cases s <;> cases t <;> rfl
    · rfl
    · rfl
    · rfl
    · exact absurd ⟨isFin_fin _ _ _, isFin_fin _ _ _⟩ h

theorem SameNumber.sub_swap' (x y : F32) : SameNumber (x - y) (-(y - x)) := by
  rw [sub_eq, sub_eq]
  refine SameNumber.trans ?_ (SameNumber.neg_add y (-x))
  rw [neg_neg', add_comm']
  exact .rfl

theorem sub_self' {x : F32} (h : x.IsFin = true) : x - x = lit 0 := by
  rw [sub_fin h h, sub_self, lit_zero]
  have : ∀ s : Bool, round (s && !s) 0 = .fin false 0 rep_zero := by decide +kernel
  cases hs : x.sgn <;> simpa [hs] using this x.sgn

theorem beq_of_same {x y : F32} (h : SameNumber x y) (hx : x ≠ .nan) : (x == y) = true := by
  rcases h with rfl | ⟨a, b, c, d⟩
  · exact beq_iff.2 ⟨hx, hx, rfl⟩
  · exact beq_iff.2 ⟨hx, isFin_ne_nan b, key_eq_iff.2 (c.trans d.symm)⟩

end Zcm.F32
