import Verif.Lemmas.F32Rel
import Verif.Lemmas.F32Length
import Verif.Lemmas.F32Chain
import Verif.Spec.Approach

/-!
# Moving to a target by steps of a given length, in binary32
-/

set_option exponentiation.threshold 300

namespace Zcm.F32

theorem exactDistance_norm {n : ℕ} (a b : Fin n → F32) : exactDistance a b = ‖exactE a - exactE b‖ := by
  unfold exactDistance
  rw [EuclideanSpace.norm_eq]
  congr 1
  refine Finset.sum_congr rfl fun i _ => ?_
  rw [Real.norm_eq_abs, sq_abs]
  rfl

theorem abs_coord_le {n : ℕ} (x : EuclideanSpace ℝ (Fin n)) (i : Fin n) : |x i| ≤ ‖x‖ := by
  have := PiLp.norm_apply_le x i
  rwa [Real.norm_eq_abs] at this

variable {n : ℕ} {t p x : Fin n → F32} {step L : F32}

theorem approach_coord {ti pi : F32} {s D P : ℝ} (ft : ti.IsFin = true) (fp : pi.IsFin = true) (fs : step.IsFin = true)
    (es : (step.val : ℝ) = s) (s1 : 1 / 2 ^ 40 ≤ s) (s2 : s ≤ 2 ^ 20) (hP : P ≤ 2 ^ 19 * s) (hD : D ≤ 2 ^ 19 * s) (hD' : s ≤ 1.01 * D)
    (hL : L.IsFin = true) (aL : |(L.val : ℝ) - D| ≤ 5 / 2 ^ 24 * D) (hp : |(pi.val : ℝ)| ≤ P) (hd : |(ti.val : ℝ) - pi.val| ≤ D) :
    (pi + (ti - pi) * (step / L)).IsFin = true ∧
    |((pi + (ti - pi) * (step / L)).val : ℝ) - (pi.val + (ti.val - pi.val) * (s / D))| ≤ s / 20 := by
  have D0 : 0 < D := by linarith
  have rq : Rel (step / L) (s / D) (6.2 / 2 ^ 24) := by
    refine Rel.div (e := 0) (f := 5 / 2 ^ 24) (d := 5.1 / 2 ^ 24) (by rw [← es]; exact Rel.exact fs) ⟨hL, by rw [abs_of_pos D0]; exact aL⟩
      le_rfl (by norm_num) (by norm_num) D0.ne' (by norm_num) (by norm_num) (by norm_num) ?_ ?_
    · rw [abs_of_pos (by positivity), le_div_iff₀ D0]
      refine le_trans (b := 1 / 2 ^ 125 * 2 ^ 40) ?_ (le_trans (by norm_num) s1)
      gcongr
      norm_num at *
      linarith
    · rw [abs_of_pos (by positivity), div_le_iff₀ D0]
      nlinarith
  have rd := rel_sub ft fp (hd.trans (by norm_num at *; linarith))
  have cap : |((ti.val : ℝ) - pi.val) * (s / D)| ≤ s := by
    rw [abs_mul, abs_of_pos (show 0 < s / D by positivity)]
    calc |(ti.val : ℝ) - pi.val| * (s / D) ≤ D * (s / D) := by gcongr
      _ = s := by field_simp
  obtain ⟨fm, em⟩ := Rel.mul' (g := 8.3 / 2 ^ 24) rd rq (by norm_num) (by norm_num) (cap.trans (by norm_num at *; linarith))
  have em' : |(((ti - pi) * (step / L)).val : ℝ) - ((ti.val : ℝ) - pi.val) * (s / D)| ≤ s / 1000 := by
    refine em.trans ?_
    generalize |((ti.val : ℝ) - pi.val) * (s / D)| = c at *
    norm_num at *
    linarith
  obtain ⟨f, e⟩ := add_close (E := 0) (F := s / 1000) (r := pi.val) fp fm (by simp) em' (by
    generalize |((ti.val : ℝ) - pi.val) * (s / D)| = c at *
    generalize |(pi.val : ℝ)| = c' at *
    norm_num at *
    linarith)
  refine ⟨f, e.trans ?_⟩
  generalize |((ti.val : ℝ) - pi.val) * (s / D)| = c at *
  generalize |(pi.val : ℝ)| = c' at *
  norm_num at *
  linarith

/-- One round that does not arrive. -/
theorem approach_core (hn : n ≤ 4) (g : GoodApproach t step p) (hL : L.IsFin = true)
    (aL : |(L.val : ℝ) - ‖exactE t - exactE p‖| ≤ 5 / 2 ^ 24 * ‖exactE t - exactE p‖) (hlt : step.val < L.val)
    (hx : ∀ i, x i = p i + (t i - p i) * (step / L)) :
    (∀ i, (x i).IsFin = true) ∧ ‖exactE t - exactE x‖ ≤ ‖exactE t - exactE p‖ - 7 / 8 * step.val ∧
    ‖exactE x - exactE p‖ ≤ 9 / 8 * step.val := by
  have lt' : (step.val : ℝ) < L.val := by exact_mod_cast hlt
  obtain ⟨ft, fp, fs, s1, s2, far⟩ := g
  have tri := norm_sub_norm_le (exactE p) (exactE t)
  rw [norm_sub_rev] at tri
  have t0 := norm_nonneg (exactE t)
  have D0 := norm_nonneg (exactE t - exactE p)
  have coords : ∀ i, |((t i).val : ℝ) - (p i).val| ≤ ‖exactE t - exactE p‖ := fun i => abs_coord_le (exactE t - exactE p) i
  have coordp : ∀ i, |((p i).val : ℝ)| ≤ ‖exactE p‖ := fun i => abs_coord_le (exactE p) i
  generalize hs : (step.val : ℝ) = s at *
  have aL' := abs_le.1 aL
  have near := fun i => approach_coord (ft i) (fp i) fs hs s1 s2 (P := ‖exactE p‖) (D := ‖exactE t - exactE p‖) (by linarith) (by linarith)
    (by norm_num at *; linarith) hL aL (coordp i) (coords i)
  have pos : 0 < ‖exactE t - exactE p‖ := by
    have : (0 : ℝ) < 1 / 2 ^ 40 := by positivity
    linarith [aL'.2]
  set D := ‖exactE t - exactE p‖ with hDdef
  have z := norm_le_of_coords (x := exactE x - (exactE p + (s / D) • (exactE t - exactE p))) (e := s / 20) fun i => by
    have := (near i).2
    rw [← hx i] at this
    refine le_trans (le_of_eq ?_) this
    show |((x i).val : ℝ) - ((p i).val + s / D * ((t i).val - (p i).val))| = _
    congr 1; ring
  have z' : ‖exactE x - (exactE p + (s / D) • (exactE t - exactE p))‖ ≤ s / 10 := by
    refine abs_le_of_sq_le_sq' ?_ (by linarith) |>.2
    refine z.trans ?_
    have : (n : ℝ) ≤ 4 := by exact_mod_cast hn
    nlinarith [sq_nonneg (s / 20)]
  refine ⟨fun i => by rw [hx]; exact (near i).1, ?_, ?_⟩
  · have e : exactE t - exactE x = (1 - s / D) • (exactE t - exactE p) - (exactE x - (exactE p + (s / D) • (exactE t - exactE p))) := by
      module
    rw [e]
    refine (norm_sub_le _ _).trans ?_
    rw [norm_smul, Real.norm_eq_abs, ← hDdef]
    have k : |1 - s / D| * D = |D - s| := by
      rw [← abs_of_pos pos, ← abs_mul, abs_of_pos pos]; congr 1; field_simp
    rw [k]
    have : |D - s| ≤ D - s + s / 1000 := by
      rw [abs_le]
      norm_num at *
      constructor <;> linarith
    linarith
  · have e : exactE x - exactE p = (s / D) • (exactE t - exactE p) + (exactE x - (exactE p + (s / D) • (exactE t - exactE p))) := by
      module
    rw [e]
    refine (norm_add_le _ _).trans ?_
    rw [norm_smul, Real.norm_eq_abs, ← hDdef, abs_of_pos (by positivity), div_mul_cancel₀ _ pos.ne']
    linarith

/-- any round, given an accurate length -/
theorem approach_round {V : Type} (c : V → Fin n → F32) (target p q : V) (hn : n ≤ 4) (g : GoodApproach (c target) step (c p))
    (acc : 1 / 2 ^ 49 ≤ exactDistance (c target) (c p) → exactDistance (c target) (c p) ≤ 2 ^ 62 →
      L.IsFin = true ∧ |(L.val : ℝ) - exactDistance (c target) (c p)| ≤ 5 / 2 ^ 24 * exactDistance (c target) (c p))
    (small : exactDistance (c target) (c p) < 1 / 2 ^ 49 → L ≤ step)
    (arrive : L ≤ step → q = target) (go : ¬L ≤ step → ∀ i, c q i = c p i + (c target i - c p i) * (step / L)) :
    (q = target ∨ GoodApproach (c target) step (c q) ∧
      ‖exactE (c target) - exactE (c q)‖ ≤ ‖exactE (c target) - exactE (c p)‖ - 7 / 8 * step.val) ∧
    ‖exactE (c q) - exactE (c p)‖ ≤ 9 / 8 * step.val ∧ (∀ i, (c q i).IsFin = true) := by
  have s1 := g.step_ge
  have s2 := g.step_le
  have far := g.far
  have t0 := norm_nonneg (exactE (c target))
  rw [exactDistance_norm] at acc small
  have up : ‖exactE (c target) - exactE (c p)‖ ≤ 2 ^ 62 := by norm_num at s2 far t0 ⊢; linarith [norm_nonneg (exactE (c target))]
  by_cases h : L ≤ step
  · have e := arrive h
    refine ⟨.inl e, ?_, fun i => by rw [e]; exact g.fin_target i⟩
    rw [e]
    by_cases d : 1 / 2 ^ 49 ≤ ‖exactE (c target) - exactE (c p)‖
    · have a := abs_le.1 (acc d up).2
      have l : (L.val : ℝ) ≤ step.val := by exact_mod_cast key_le_iff.1 h.2.2
      have a1 := a.1
      norm_num at a1 s1 ⊢
      linarith
    · norm_num at *
      linarith
  · have d : 1 / 2 ^ 49 ≤ ‖exactE (c target) - exactE (c p)‖ := by
      by_contra d
      exact h (small (not_le.1 d))
    obtain ⟨fL, aL⟩ := acc d up
    have lt : step.val < L.val := by
      rw [← key_lt_iff]
      by_contra k
      exact h ⟨isFin_ne_nan fL, isFin_ne_nan g.fin_step, not_lt.1 k⟩
    obtain ⟨f, e1, e2⟩ := approach_core hn g fL aL lt (go h)
    refine ⟨.inr ⟨⟨g.fin_target, f, g.fin_step, s1, s2, ?_⟩, e1⟩, e2, f⟩
    have : (0 : ℝ) < 1 / 2 ^ 40 := by positivity
    linarith

/-- any number of rounds -/
theorem approach_iterate {V : Type} (c : V → Fin n → F32) (target : V) (f : V → V)
    (round : ∀ p, GoodApproach (c target) step (c p) → (f p = target ∨ GoodApproach (c target) step (c (f p)) ∧
      ‖exactE (c target) - exactE (c (f p))‖ ≤ ‖exactE (c target) - exactE (c p)‖ - 7 / 8 * step.val) ∧
      ‖exactE (c (f p)) - exactE (c p)‖ ≤ 9 / 8 * step.val ∧ (∀ i, (c (f p) i).IsFin = true))
    (stay : f target = target) (p : V) (g : GoodApproach (c target) step (c p)) (k : ℕ) :
    f^[k] p = target ∨ (GoodApproach (c target) step (c (f^[k] p)) ∧
      ‖exactE (c target) - exactE (c (f^[k] p))‖ ≤ ‖exactE (c target) - exactE (c p)‖ - k * (7 / 8 * step.val)) := by
  induction k with
  | zero => exact .inr ⟨g, by simp⟩
  | succ k ih =>
    rw [Function.iterate_succ_apply']
    rcases ih with e | ⟨g', e⟩
    · left; rw [e, stay]
    · rcases (round _ g').1 with h | ⟨h1, h2⟩
      · exact .inl h
      · refine .inr ⟨h1, h2.trans ?_⟩
        push_cast
        linarith

/-- arrival -/
theorem approach_arrives {V : Type} (c : V → Fin n → F32) (target : V) (f : V → V) (p : V)
    (it : ∀ k : ℕ, f^[k] p = target ∨ (GoodApproach (c target) step (c (f^[k] p)) ∧
      ‖exactE (c target) - exactE (c (f^[k] p))‖ ≤ ‖exactE (c target) - exactE (c p)‖ - k * (7 / 8 * step.val)))
    (k : ℕ) (hk : ‖exactE (c target) - exactE (c p)‖ < k * (7 / 8 * step.val)) : f^[k] p = target := by
  rcases it k with h | ⟨-, h⟩
  · exact h
  · have := norm_nonneg (exactE (c target) - exactE (c (f^[k] p)))
    linarith

end Zcm.F32
