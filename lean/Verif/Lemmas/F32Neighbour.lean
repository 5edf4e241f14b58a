import Verif.Spec.Neighbour
import Verif.Lemmas.F32Box
import Verif.Lemmas.F32Range
import Verif.Lemmas.F32Length

/-!
# Lemmas: searching a list of points
-/

namespace Zcm

open F32

variable {P : Type}

theorem FirstSmallest.mem {d : P → F32} {r : P} {l : List P} (h : FirstSmallest d r l) : r ∈ l := by
  obtain ⟨-, b, c, rfl, -, -⟩ := h
  simp

theorem FirstSmallest.le {d : P → F32} {r : P} {l : List P} (h : FirstSmallest d r l) {a : P} (ha : a ∈ l)
    (na : d a ≠ .nan) : d r ≤ d a := by
  obtain ⟨n, b, c, rfl, h1, h2⟩ := h
  rcases List.mem_append.1 ha with ha | ha
  · have := h1 a ha na; exact ⟨this.1, this.2.1, this.2.2.le⟩
  · rcases List.mem_cons.1 ha with rfl | ha
    · exact ⟨n, n, le_refl _⟩
    · exact h2 a ha na

theorem nearestBy_first (d : P → F32) (p : P) (hp : d p ≠ .nan) (ps : List P) :
    FirstSmallest d (nearestBy d p ps) (p :: ps) := by
  induction ps using List.reverseRecOn with
  | nil => exact ⟨hp, [], [], rfl, by simp, by simp⟩
  | append_singleton l a ih =>
    unfold nearestBy at ih ⊢
    rw [List.foldl_append, List.foldl_cons, List.foldl_nil]
    set r := l.foldl (fun best a => if d a < d best then a else best) p
    by_cases h : d a < d r
    · rw [if_pos h]
      refine ⟨h.1, p :: l, [], by simp, fun b hb nb => ?_, by simp⟩
      have := ih.le hb nb
      exact ⟨h.1, nb, lt_of_lt_of_le h.2.2 this.2.2⟩
    · rw [if_neg h]
      obtain ⟨n, b, c, e, h1, h2⟩ := ih
      refine ⟨n, b, c ++ [a], by rw [← List.cons_append, e]; simp, h1, fun x hx nx => ?_⟩
      rcases List.mem_append.1 hx with hx | hx
      · exact h2 x hx nx
      · rw [List.mem_singleton] at hx
        subst hx
        refine ⟨n, nx, ?_⟩
        by_contra hc
        exact h ⟨nx, n, not_le.1 hc⟩

theorem radiusBy_largest (d : P → F32) (p : P) (hp : d p ≠ .nan) (ps : List P) :
    LargestOf (radiusBy d p ps) ((p :: ps).map d) := by
  have : radiusBy d p ps = (ps.map d).foldl F.max (d p) := by
    unfold radiusBy; rw [List.foldl_map]
  rw [this]
  exact fold_max _ _ hp

/-- Distances that a comparison can be trusted with: zero, or neither extremely small nor extremely large. -/
def FairDistance (D : ℝ) : Prop := D = 0 ∨ (1 / 2 ^ 49 ≤ D ∧ D ≤ 2 ^ 62)

theorem sub_zero_cases {x y : F32} (hx : x.IsFin = true) (hy : y.IsFin = true) (h : x.val = y.val) :
    x - y = lit 0 ∨ x - y = -lit 0 := by
  rw [sub_fin hx hy, h, sub_self]
  have : ∀ s : Bool, round s 0 = lit 0 ∨ round s 0 = -lit 0 := by decide +kernel
  exact this _

/-- Zero distance is computed exactly. -/
theorem exactDistance_zero {n : ℕ} {a b : Fin n → F32} (h : exactDistance a b = 0) (i : Fin n) : (a i).val = (b i).val := by
  unfold exactDistance at h
  rw [Real.sqrt_eq_zero (Finset.sum_nonneg fun i _ => sq_nonneg _),
    Finset.sum_eq_zero_iff_of_nonneg fun i _ => sq_nonneg _] at h
  have := pow_eq_zero_iff (two_ne_zero) |>.1 (h i (Finset.mem_univ i))
  have := sub_eq_zero.1 this
  exact_mod_cast this

/-- What a computed distance says about the exact one. -/
structure DistanceOf (x : F32) (D : ℝ) : Prop where
  fin : x.IsFin = true
  err : |(x.val : ℝ) - D| ≤ 5 / 2 ^ 24 * D

theorem DistanceOf.le {x y : F32} {D E : ℝ} (h : DistanceOf x D) (g : DistanceOf y E) (hE : 0 ≤ E) (l : x ≤ y) :
    D ≤ (1 + 11 / 2 ^ 24) * E := by
  have l' : (x.val : ℝ) ≤ y.val := by
    have := key_le_iff.1 l.2.2
    exact_mod_cast this
  have h1 := (abs_le.1 h.err).1
  have g1 := (abs_le.1 g.err).2
  norm_num at h1 g1 ⊢
  linarith

theorem DistanceOf.le_of_val {x y : F32} {D : ℝ} (h : DistanceOf x D) (l : (x.val : ℝ) ≤ y.val) (hD : 0 ≤ D) :
    D ≤ (1 + 6 / 2 ^ 24) * (y.val : ℝ) := by
  have h1 := (abs_le.1 h.err).1
  norm_num at h1 ⊢
  linarith

end Zcm
