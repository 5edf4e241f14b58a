import Mathlib.Analysis.Quaternion
import Verif.Lemmas.Hamilton
import Verif.Lemmas.History
import Verif.Lemmas.Linear
import Verif.Props.C02
import Verif.Spec.HistoryMat

/-!
# One statement on matrices, quaternions and boolean vectors and on their mathematical counterparts
-/

namespace Zcm

open Quaternion

theorem not_ok_bind {β γ : Type} {r : Res β} {f : β → Res γ} (h : ∀ a, r ≠ .ok a) (q : γ) : (r >>= f) ≠ .ok q := by
  intro e
  cases r with
  | ok a => exact h a rfl
  | abort => cases e
  | ub => cases e

theorem refines_update {S T O : Type} {abs : S → T} {σ : ℕ → S} (x : ℕ) (m : S) {t : T} (h : abs m = t) :
    Refines (O := O) abs (.ok (Function.update σ x m, [])) (.done (Function.update (fun x => abs (σ x)) x t) []) := by
  refine ⟨_, rfl, fun y => ?_⟩
  by_cases hy : y = x
  · subst hy; simp [h]
  · simp [hy]

/-- A program refines if every statement does.  `P` is a condition under which a statement outside the object
never ends normally. -/
theorem run_refines {C S T O : Type} (abs : S → T) (exec : C → (ℕ → S) → Res ((ℕ → S) × List O))
    (spec : C → (ℕ → T) → SpecOutcome (ℕ → T) O) (P : Prop)
    (h : ∀ c σ, (P ∨ spec c (fun x => abs (σ x)) ≠ .outside) → Refines abs (exec c σ) (spec c fun x => abs (σ x)))
    (p : List C) (σ : ℕ → S) (hP : P ∨ specRun spec p (fun x => abs (σ x)) ≠ .outside) :
    Refines abs (runStatements exec p σ) (specRun spec p fun x => abs (σ x)) := by
  induction p generalizing σ with
  | nil => exact ⟨σ, rfl, fun _ => rfl⟩
  | cons c p ih =>
    have h1 := h c σ
    unfold runStatements
    unfold specRun at hP ⊢
    cases hs : spec c (fun x => abs (σ x)) with
    | outside =>
      rw [hs] at h1 hP
      exact not_ok_bind (h1 hP)
    | byZero => trivial
    | done τ out =>
      rw [hs] at h1 hP
      obtain ⟨σ', e, e'⟩ := h1 (Or.inr (by simp))
      have h2 := ih σ'
      have e2 : (fun x => abs (σ' x)) = τ := funext e'
      rw [e2] at h2
      rw [e]
      simp only [Res.ok_bind] at hP ⊢
      cases hp : specRun spec p τ with
      | outside =>
        rw [hp] at h2 hP
        exact not_ok_bind (h2 hP)
      | byZero => trivial
      | done τ'' out' =>
        rw [hp] at h2
        obtain ⟨σ'', f, f'⟩ := h2 (Or.inr (by simp))
        simp only [f, Res.ok_bind]
        exact ⟨σ'', rfl, f'⟩

/-! ## mat2 -/

theorem M2.at_in (b : Build) (m : M2 ℝ) (c : UInt32) (h : c.toNat < 2) :
    ∃ v, M2.at b m c = .ok v ∧ ∀ i, coord v i = toMat m i ⟨c.toNat, h⟩ := by
  have hi : c = UInt32.ofNat c.toNat := by simp
  generalize c.toNat = k at h hi
  subst hi
  interval_cases k <;> cases b <;> exact ⟨_, rfl, fun j => by fin_cases j <;> rfl⟩

theorem M2.at_out (b : Build) (m : M2 ℝ) (c : UInt32) (h : ¬ c.toNat < 2) (v : V2 ℝ) :
    M2.at b m c ≠ .ok v := by
  intro e
  unfold M2.at at e
  rw [cassert_ok_iff] at e
  obtain ⟨_, e⟩ := e
  split at e <;> first | omega | cases e

theorem M2.set_in (b : Build) (m : M2 ℝ) (c : UInt32) (v : V2 ℝ) (h : c.toNat < 2) :
    ∃ w, M2.set b m c v = .ok w ∧ toMat w = (toMat m).updateCol ⟨c.toNat, h⟩ (coord v) := by
  have hi : c = UInt32.ofNat c.toNat := by simp
  generalize c.toNat = k at h hi
  subst hi
  interval_cases k <;> cases b <;>
    exact ⟨_, rfl, by ext i j; fin_cases i <;> fin_cases j <;> simp [Matrix.updateCol_apply]⟩

theorem M2.set_out (b : Build) (m : M2 ℝ) (c : UInt32) (v : V2 ℝ) (h : ¬ c.toNat < 2) (w : M2 ℝ) :
    M2.set b m c v ≠ .ok w := by
  intro e
  unfold M2.set at e
  rw [cassert_ok_iff] at e
  obtain ⟨_, e⟩ := e
  split at e <;> first | omega | cases e

theorem M2.exec_same (b : Build) (c : MatCmd ℝ) (σ : ℕ → M2 ℝ) :
    Refines toMat (M2.exec b c σ) (matExec c fun x => toMat (σ x)) := by
  cases c with
  | write x c r a =>
    simp only [M2.exec, matExec, M2.setEntry]
    by_cases hc : c.toNat < 2
    · obtain ⟨v, hv, hv'⟩ := M2.at_in b (σ x) c hc
      rw [hv]
      by_cases hr : r.toNat < 2
      · rw [dif_pos ⟨hc, hr⟩]
        obtain ⟨w, hw, hw'⟩ := V2.set_in b v r a hr
        obtain ⟨m, hm, hm'⟩ := M2.set_in b (σ x) c w hc
        simp only [Res.ok_bind, hw, hm]
        refine refines_update _ _ ?_
        rw [hm']
        ext i j
        simp only [Matrix.updateCol_apply, hw', hv', Matrix.of_apply]
        by_cases hj : j = ⟨c.toNat, hc⟩ <;> by_cases hi : i = ⟨r.toNat, hr⟩ <;> simp [hi, hj]
      · rw [dif_neg (fun h => hr h.2)]
        simp only [Res.ok_bind]
        exact not_ok_bind (not_ok_bind (V2.set_out b v r a hr))
    · rw [dif_neg (fun h => hc h.1)]
      exact not_ok_bind (not_ok_bind (M2.at_out b (σ x) c hc))
  | read x c r =>
    simp only [M2.exec, matExec, M2.entry]
    by_cases hc : c.toNat < 2
    · obtain ⟨v, hv, hv'⟩ := M2.at_in b (σ x) c hc
      rw [hv]
      by_cases hr : r.toNat < 2
      · rw [dif_pos ⟨hc, hr⟩]
        simp only [Res.ok_bind, V2.at_in b v r hr, hv']
        exact ⟨σ, rfl, fun _ => rfl⟩
      · rw [dif_neg (fun h => hr h.2)]
        simp only [Res.ok_bind]
        exact not_ok_bind (V2.at_out b v r hr)
    · rw [dif_neg (fun h => hc h.1)]
      exact not_ok_bind (not_ok_bind (M2.at_out b (σ x) c hc))
  | copyCol x c y d =>
    simp only [M2.exec, matExec]
    by_cases hd : d.toNat < 2
    · obtain ⟨v, hv, hv'⟩ := M2.at_in b (σ y) d hd
      rw [hv]
      by_cases hc : c.toNat < 2
      · rw [dif_pos ⟨hc, hd⟩]
        obtain ⟨m, hm, hm'⟩ := M2.set_in b (σ x) c v hc
        simp only [Res.ok_bind, hm]
        refine refines_update _ _ ?_
        rw [hm']
        congr 1
        funext i
        exact hv' i
      · rw [dif_neg (fun h => hc h.1)]
        simp only [Res.ok_bind]
        exact not_ok_bind (M2.set_out b (σ x) c v hc)
    · rw [dif_neg (fun h => hd h.2)]
      exact not_ok_bind (M2.at_out b (σ y) d hd)
  | colOp x c k y d =>
    simp only [M2.exec, matExec]
    by_cases hd : d.toNat < 2
    · obtain ⟨v, hv, hv'⟩ := M2.at_in b (σ y) d hd
      rw [hv]
      by_cases hc : c.toNat < 2
      · rw [dif_pos ⟨hc, hd⟩]
        obtain ⟨w, hw, hw'⟩ := M2.at_in b (σ x) c hc
        obtain ⟨m, hm, hm'⟩ := M2.set_in b (σ x) c (V2.op k w v) hc
        simp only [Res.ok_bind, hw, hm]
        split
        · trivial
        · refine refines_update _ _ ?_
          rw [hm']
          congr 1
          funext i
          rw [← hv', ← hw']
          cases k <;> fin_cases i <;> rfl
      · rw [dif_neg (fun h => hc h.1)]
        simp only [Res.ok_bind]
        exact not_ok_bind (M2.at_out b (σ x) c hc)
    · rw [dif_neg (fun h => hd h.2)]
      exact not_ok_bind (M2.at_out b (σ y) d hd)
  | assign x y => exact refines_update _ _ rfl
  | op x k y =>
    cases k with
    | add => exact refines_update _ _ (M2.toMat_add _ _)
    | sub => exact refines_update _ _ (M2.toMat_sub _ _)
    | mul => exact refines_update _ _ (M2.toMat_mul _ _)
    | div =>
      simp only [M2.exec, matExec]
      split
      · trivial
      · refine refines_update _ _ ?_
        exact (M2.toMat_mul _ _).trans (by rw [M2.toMat_inverse])
  | mulS x y a => exact refines_update _ _ (M2.toMat_mulS _ _)
  | divS x y a =>
    simp only [M2.exec, matExec]
    split
    · trivial
    · exact refines_update _ _ (M2.toMat_divS _ _)
  | transpose x y => exact refines_update _ _ (M2.toMat_transpose _)
  | inverse x y =>
    simp only [M2.exec, matExec]
    split
    · trivial
    · exact refines_update _ _ (M2.toMat_inverse _)

/-! ## mat3 -/

theorem M3.at_in (b : Build) (m : M3 ℝ) (c : UInt32) (h : c.toNat < 3) :
    ∃ v, M3.at b m c = .ok v ∧ ∀ i, coord v i = toMat m i ⟨c.toNat, h⟩ := by
  have hi : c = UInt32.ofNat c.toNat := by simp
  generalize c.toNat = k at h hi
  subst hi
  interval_cases k <;> cases b <;> exact ⟨_, rfl, fun j => by fin_cases j <;> rfl⟩

theorem M3.at_out (b : Build) (m : M3 ℝ) (c : UInt32) (h : ¬ c.toNat < 3) (v : V3 ℝ) :
    M3.at b m c ≠ .ok v := by
  intro e
  unfold M3.at at e
  rw [cassert_ok_iff] at e
  obtain ⟨_, e⟩ := e
  split at e <;> first | omega | cases e

theorem M3.set_in (b : Build) (m : M3 ℝ) (c : UInt32) (v : V3 ℝ) (h : c.toNat < 3) :
    ∃ w, M3.set b m c v = .ok w ∧ toMat w = (toMat m).updateCol ⟨c.toNat, h⟩ (coord v) := by
  have hi : c = UInt32.ofNat c.toNat := by simp
  generalize c.toNat = k at h hi
  subst hi
  interval_cases k <;> cases b <;>
    exact ⟨_, rfl, by ext i j; fin_cases i <;> fin_cases j <;> simp [Matrix.updateCol_apply]⟩

theorem M3.set_out (b : Build) (m : M3 ℝ) (c : UInt32) (v : V3 ℝ) (h : ¬ c.toNat < 3) (w : M3 ℝ) :
    M3.set b m c v ≠ .ok w := by
  intro e
  unfold M3.set at e
  rw [cassert_ok_iff] at e
  obtain ⟨_, e⟩ := e
  split at e <;> first | omega | cases e

theorem M3.exec_same (b : Build) (c : MatCmd ℝ) (σ : ℕ → M3 ℝ) :
    Refines toMat (M3.exec b c σ) (matExec c fun x => toMat (σ x)) := by
  cases c with
  | write x c r a =>
    simp only [M3.exec, matExec, M3.setEntry]
    by_cases hc : c.toNat < 3
    · obtain ⟨v, hv, hv'⟩ := M3.at_in b (σ x) c hc
      rw [hv]
      by_cases hr : r.toNat < 3
      · rw [dif_pos ⟨hc, hr⟩]
        obtain ⟨w, hw, hw'⟩ := V3.set_in b v r a hr
        obtain ⟨m, hm, hm'⟩ := M3.set_in b (σ x) c w hc
        simp only [Res.ok_bind, hw, hm]
        refine refines_update _ _ ?_
        rw [hm']
        ext i j
        simp only [Matrix.updateCol_apply, hw', hv', Matrix.of_apply]
        by_cases hj : j = ⟨c.toNat, hc⟩ <;> by_cases hi : i = ⟨r.toNat, hr⟩ <;> simp [hi, hj]
      · rw [dif_neg (fun h => hr h.2)]
        simp only [Res.ok_bind]
        exact not_ok_bind (not_ok_bind (V3.set_out b v r a hr))
    · rw [dif_neg (fun h => hc h.1)]
      exact not_ok_bind (not_ok_bind (M3.at_out b (σ x) c hc))
  | read x c r =>
    simp only [M3.exec, matExec, M3.entry]
    by_cases hc : c.toNat < 3
    · obtain ⟨v, hv, hv'⟩ := M3.at_in b (σ x) c hc
      rw [hv]
      by_cases hr : r.toNat < 3
      · rw [dif_pos ⟨hc, hr⟩]
        simp only [Res.ok_bind, V3.at_in b v r hr, hv']
        exact ⟨σ, rfl, fun _ => rfl⟩
      · rw [dif_neg (fun h => hr h.2)]
        simp only [Res.ok_bind]
        exact not_ok_bind (V3.at_out b v r hr)
    · rw [dif_neg (fun h => hc h.1)]
      exact not_ok_bind (not_ok_bind (M3.at_out b (σ x) c hc))
  | copyCol x c y d =>
    simp only [M3.exec, matExec]
    by_cases hd : d.toNat < 3
    · obtain ⟨v, hv, hv'⟩ := M3.at_in b (σ y) d hd
      rw [hv]
      by_cases hc : c.toNat < 3
      · rw [dif_pos ⟨hc, hd⟩]
        obtain ⟨m, hm, hm'⟩ := M3.set_in b (σ x) c v hc
        simp only [Res.ok_bind, hm]
        refine refines_update _ _ ?_
        rw [hm']
        congr 1
        funext i
        exact hv' i
      · rw [dif_neg (fun h => hc h.1)]
        simp only [Res.ok_bind]
        exact not_ok_bind (M3.set_out b (σ x) c v hc)
    · rw [dif_neg (fun h => hd h.2)]
      exact not_ok_bind (M3.at_out b (σ y) d hd)
  | colOp x c k y d =>
    simp only [M3.exec, matExec]
    by_cases hd : d.toNat < 3
    · obtain ⟨v, hv, hv'⟩ := M3.at_in b (σ y) d hd
      rw [hv]
      by_cases hc : c.toNat < 3
      · rw [dif_pos ⟨hc, hd⟩]
        obtain ⟨w, hw, hw'⟩ := M3.at_in b (σ x) c hc
        obtain ⟨m, hm, hm'⟩ := M3.set_in b (σ x) c (V3.op k w v) hc
        simp only [Res.ok_bind, hw, hm]
        split
        · trivial
        · refine refines_update _ _ ?_
          rw [hm']
          congr 1
          funext i
          rw [← hv', ← hw']
          cases k <;> fin_cases i <;> rfl
      · rw [dif_neg (fun h => hc h.1)]
        simp only [Res.ok_bind]
        exact not_ok_bind (M3.at_out b (σ x) c hc)
    · rw [dif_neg (fun h => hd h.2)]
      exact not_ok_bind (M3.at_out b (σ y) d hd)
  | assign x y => exact refines_update _ _ rfl
  | op x k y =>
    cases k with
    | add => exact refines_update _ _ (M3.toMat_add _ _)
    | sub => exact refines_update _ _ (M3.toMat_sub _ _)
    | mul => exact refines_update _ _ (M3.toMat_mul _ _)
    | div =>
      simp only [M3.exec, matExec]
      split
      · trivial
      · refine refines_update _ _ ?_
        exact (M3.toMat_mul _ _).trans (by rw [M3.toMat_inverse])
  | mulS x y a => exact refines_update _ _ (M3.toMat_mulS _ _)
  | divS x y a =>
    simp only [M3.exec, matExec]
    split
    · trivial
    · exact refines_update _ _ (M3.toMat_divS _ _)
  | transpose x y => exact refines_update _ _ (M3.toMat_transpose _)
  | inverse x y =>
    simp only [M3.exec, matExec]
    split
    · trivial
    · exact refines_update _ _ (M3.toMat_inverse _)

/-! ## mat4 -/

theorem M4.at_in (b : Build) (m : M4 ℝ) (c : UInt32) (h : c.toNat < 4) :
    ∃ v, M4.at b m c = .ok v ∧ ∀ i, coord v i = toMat m i ⟨c.toNat, h⟩ := by
  have hi : c = UInt32.ofNat c.toNat := by simp
  generalize c.toNat = k at h hi
  subst hi
  interval_cases k <;> cases b <;> exact ⟨_, rfl, fun j => by fin_cases j <;> rfl⟩

theorem M4.at_out (b : Build) (m : M4 ℝ) (c : UInt32) (h : ¬ c.toNat < 4) (v : V4 ℝ) :
    M4.at b m c ≠ .ok v := by
  intro e
  unfold M4.at at e
  rw [cassert_ok_iff] at e
  obtain ⟨_, e⟩ := e
  split at e <;> first | omega | cases e

theorem M4.set_in (b : Build) (m : M4 ℝ) (c : UInt32) (v : V4 ℝ) (h : c.toNat < 4) :
    ∃ w, M4.set b m c v = .ok w ∧ toMat w = (toMat m).updateCol ⟨c.toNat, h⟩ (coord v) := by
  have hi : c = UInt32.ofNat c.toNat := by simp
  generalize c.toNat = k at h hi
  subst hi
  interval_cases k <;> cases b <;>
    exact ⟨_, rfl, by ext i j; fin_cases i <;> fin_cases j <;> simp [Matrix.updateCol_apply]⟩

theorem M4.set_out (b : Build) (m : M4 ℝ) (c : UInt32) (v : V4 ℝ) (h : ¬ c.toNat < 4) (w : M4 ℝ) :
    M4.set b m c v ≠ .ok w := by
  intro e
  unfold M4.set at e
  rw [cassert_ok_iff] at e
  obtain ⟨_, e⟩ := e
  split at e <;> first | omega | cases e

theorem M4.exec_same (b : Build) (c : MatCmd ℝ) (σ : ℕ → M4 ℝ) :
    Refines toMat (M4.exec b c σ) (matExec c fun x => toMat (σ x)) := by
  cases c with
  | write x c r a =>
    simp only [M4.exec, matExec, M4.setEntry]
    by_cases hc : c.toNat < 4
    · obtain ⟨v, hv, hv'⟩ := M4.at_in b (σ x) c hc
      rw [hv]
      by_cases hr : r.toNat < 4
      · rw [dif_pos ⟨hc, hr⟩]
        obtain ⟨w, hw, hw'⟩ := V4.set_in b v r a hr
        obtain ⟨m, hm, hm'⟩ := M4.set_in b (σ x) c w hc
        simp only [Res.ok_bind, hw, hm]
        refine refines_update _ _ ?_
        rw [hm']
        ext i j
        simp only [Matrix.updateCol_apply, hw', hv', Matrix.of_apply]
        by_cases hj : j = ⟨c.toNat, hc⟩ <;> by_cases hi : i = ⟨r.toNat, hr⟩ <;> simp [hi, hj]
      · rw [dif_neg (fun h => hr h.2)]
        simp only [Res.ok_bind]
        exact not_ok_bind (not_ok_bind (V4.set_out b v r a hr))
    · rw [dif_neg (fun h => hc h.1)]
      exact not_ok_bind (not_ok_bind (M4.at_out b (σ x) c hc))
  | read x c r =>
    simp only [M4.exec, matExec, M4.entry]
    by_cases hc : c.toNat < 4
    · obtain ⟨v, hv, hv'⟩ := M4.at_in b (σ x) c hc
      rw [hv]
      by_cases hr : r.toNat < 4
      · rw [dif_pos ⟨hc, hr⟩]
        simp only [Res.ok_bind, V4.at_in b v r hr, hv']
        exact ⟨σ, rfl, fun _ => rfl⟩
      · rw [dif_neg (fun h => hr h.2)]
        simp only [Res.ok_bind]
        exact not_ok_bind (V4.at_out b v r hr)
    · rw [dif_neg (fun h => hc h.1)]
      exact not_ok_bind (not_ok_bind (M4.at_out b (σ x) c hc))
  | copyCol x c y d =>
    simp only [M4.exec, matExec]
    by_cases hd : d.toNat < 4
    · obtain ⟨v, hv, hv'⟩ := M4.at_in b (σ y) d hd
      rw [hv]
      by_cases hc : c.toNat < 4
      · rw [dif_pos ⟨hc, hd⟩]
        obtain ⟨m, hm, hm'⟩ := M4.set_in b (σ x) c v hc
        simp only [Res.ok_bind, hm]
        refine refines_update _ _ ?_
        rw [hm']
        congr 1
        funext i
        exact hv' i
      · rw [dif_neg (fun h => hc h.1)]
        simp only [Res.ok_bind]
        exact not_ok_bind (M4.set_out b (σ x) c v hc)
    · rw [dif_neg (fun h => hd h.2)]
      exact not_ok_bind (M4.at_out b (σ y) d hd)
  | colOp x c k y d =>
    simp only [M4.exec, matExec]
    by_cases hd : d.toNat < 4
    · obtain ⟨v, hv, hv'⟩ := M4.at_in b (σ y) d hd
      rw [hv]
      by_cases hc : c.toNat < 4
      · rw [dif_pos ⟨hc, hd⟩]
        obtain ⟨w, hw, hw'⟩ := M4.at_in b (σ x) c hc
        obtain ⟨m, hm, hm'⟩ := M4.set_in b (σ x) c (V4.op k w v) hc
        simp only [Res.ok_bind, hw, hm]
        split
        · trivial
        · refine refines_update _ _ ?_
          rw [hm']
          congr 1
          funext i
          rw [← hv', ← hw']
          cases k <;> fin_cases i <;> rfl
      · rw [dif_neg (fun h => hc h.1)]
        simp only [Res.ok_bind]
        exact not_ok_bind (M4.at_out b (σ x) c hc)
    · rw [dif_neg (fun h => hd h.2)]
      exact not_ok_bind (M4.at_out b (σ y) d hd)
  | assign x y => exact refines_update _ _ rfl
  | op x k y =>
    cases k with
    | add => exact refines_update _ _ (M4.toMat_add _ _)
    | sub => exact refines_update _ _ (M4.toMat_sub _ _)
    | mul => exact refines_update _ _ (M4.toMat_mul _ _)
    | div =>
      simp only [M4.exec, matExec]
      split
      · trivial
      · refine refines_update _ _ ?_
        exact (M4.toMat_mul _ _).trans (by rw [M4.toMat_inverse])
  | mulS x y a => exact refines_update _ _ (M4.toMat_mulS _ _)
  | divS x y a =>
    simp only [M4.exec, matExec]
    split
    · trivial
    · exact refines_update _ _ (M4.toMat_divS _ _)
  | transpose x y => exact refines_update _ _ (M4.toMat_transpose _)
  | inverse x y =>
    simp only [M4.exec, matExec]
    split
    · trivial
    · exact refines_update _ _ (M4.toMat_inverse _)

/-! ## quat -/

theorem ham_divS (a : Quat ℝ) (s : ℝ) : ham (a / s) = s⁻¹ • ham a := by
  ext <;> simp [div_eq_inv_mul]

theorem Quat.at_in (b : Build) (q : Quat ℝ) (i : UInt32) (h : i.toNat < 4) :
    Quat.at b q i = .ok (hamComp (ham q) ⟨i.toNat, h⟩) := by
  have hi : i = UInt32.ofNat i.toNat := by simp
  generalize i.toNat = k at h hi
  subst hi
  interval_cases k <;> cases b <;> rfl

theorem Quat.set_in (b : Build) (q : Quat ℝ) (i : UInt32) (a : ℝ) (h : i.toNat < 4) :
    ∃ w, Quat.set b q i a = .ok w ∧ ham w = ofHamComp (Function.update (hamComp (ham q)) ⟨i.toNat, h⟩ a) := by
  have hi : i = UInt32.ofNat i.toNat := by simp
  generalize i.toNat = k at h hi
  subst hi
  interval_cases k <;> cases b <;> exact ⟨_, rfl, by ext <;> simp [ham, ofHamComp, hamComp, Function.update] ⟩

theorem Quat.at_out (q : Quat ℝ) (i : UInt32) (h : ¬ i.toNat < 4) : Quat.at .debug q i = .abort := by
  have : ¬ i < 4 := by rw [UInt32.lt_iff_toNat_lt]; exact h
  simp [Quat.at, cassert, this]

theorem Quat.set_out (q : Quat ℝ) (i : UInt32) (a : ℝ) (h : ¬ i.toNat < 4) : Quat.set .debug q i a = .abort := by
  have : ¬ i < 4 := by rw [UInt32.lt_iff_toNat_lt]; exact h
  simp [Quat.set, cassert, this]

theorem Quat.exec_same (b : Build) (c : QuatCmd ℝ) (σ : ℕ → Quat ℝ)
    (hb : b = .debug ∨ quatExec c (fun x => ham (σ x)) ≠ .outside) :
    Refines ham (Quat.exec b c σ) (quatExec c fun x => ham (σ x)) := by
  cases c with
  | write x i a =>
    simp only [Quat.exec, quatExec] at hb ⊢
    by_cases h : i.toNat < 4
    · obtain ⟨w, hw, hw'⟩ := Quat.set_in b (σ x) i a h
      simp only [dif_pos h, hw, Res.ok_bind]
      exact refines_update _ _ hw'
    · simp only [dif_neg h, ne_eq, not_true_eq_false, or_false] at hb ⊢
      subst hb
      rw [Quat.set_out _ _ _ h]
      exact not_ok_bind (by simp)
  | read x i =>
    simp only [Quat.exec, quatExec] at hb ⊢
    by_cases h : i.toNat < 4
    · rw [dif_pos h, Quat.at_in b (σ x) i h]
      exact ⟨σ, rfl, fun _ => rfl⟩
    · simp only [dif_neg h, ne_eq, not_true_eq_false, or_false] at hb ⊢
      subst hb
      rw [Quat.at_out _ _ h]
      exact not_ok_bind (by simp)
  | assign x y => exact refines_update _ _ rfl
  | op x k y =>
    have hu : ∀ (f : ℕ → Quat ℝ) (m : Quat ℝ), f x = m → (∀ u, u ≠ x → f u = σ u) → f = Function.update σ x m := by
      intro f m h1 h2
      funext u
      by_cases hu : u = x
      · subst hu; simp [h1]
      · simp [hu, h2 u hu]
    have h := C02_quat σ x y
    cases k with
    | add =>
      simp only [Quat.exec, quatExec]
      rw [hu _ _ h.1.1 h.1.2]
      exact refines_update _ _ (ham_add _ _)
    | sub =>
      simp only [Quat.exec, quatExec]
      rw [hu _ _ h.2.1.1 h.2.1.2]
      exact refines_update _ _ (by ext <;> simp)
    | mul =>
      simp only [Quat.exec, quatExec]
      rw [hu _ _ h.2.2.1 h.2.2.2]
      exact refines_update _ _ (ham_mul _ _)
  | mulS x a => exact refines_update _ _ (ham_mulS _ _)
  | divS x a =>
    simp only [Quat.exec, quatExec]
    split
    · trivial
    · exact refines_update _ _ (ham_divS _ _)
  | conjugate x y => exact refines_update _ _ (ham_conjugate _)
  | inverse x y =>
    simp only [Quat.exec, quatExec]
    split
    · trivial
    · exact refines_update _ _ (ham_inverse _)
  | normalize x y =>
    simp only [Quat.exec, quatExec]
    split
    · trivial
    · refine refines_update _ _ ?_
      rw [Quat.normalize, ham_divS, ham_norm]

/-! ## bvec2 -/

theorem BV2.at_in (b : Build) (v : V2 Bool) (i : UInt32) (h : i.toNat < 2) :
    BV2.at b v i = .ok (coord v ⟨i.toNat, h⟩) := by
  have hi : i = UInt32.ofNat i.toNat := by simp
  generalize i.toNat = k at h hi
  subst hi
  interval_cases k <;> cases b <;> rfl

theorem BV2.set_in (b : Build) (v : V2 Bool) (i : UInt32) (a : Bool) (h : i.toNat < 2) :
    ∃ w, BV2.set b v i a = .ok w ∧ coord w = Function.update (coord v) ⟨i.toNat, h⟩ a := by
  have hi : i = UInt32.ofNat i.toNat := by simp
  generalize i.toNat = k at h hi
  subst hi
  interval_cases k <;> cases b <;> exact ⟨_, rfl, by funext j; fin_cases j <;> rfl⟩

theorem BV2.exec_same (b : Build) (c : BvecCmd) (σ : ℕ → V2 Bool)
    (hb : False ∨ boolExec c (fun x => coord (σ x)) ≠ .outside) :
    Refines coord (BV2.exec b c σ) (boolExec c fun x => coord (σ x)) := by
  cases c with
  | write x i a =>
    simp only [BV2.exec, boolExec] at hb ⊢
    by_cases h : i.toNat < 2
    · obtain ⟨w, hw, hw'⟩ := BV2.set_in b (σ x) i a h
      simp only [dif_pos h, hw, Res.ok_bind]
      exact refines_update _ _ hw'
    · simp only [dif_neg h, ne_eq, not_true_eq_false, or_false] at hb ⊢
  | copyAt x i y j =>
    simp only [BV2.exec, boolExec] at hb ⊢
    by_cases hj : j.toNat < 2
    · rw [BV2.at_in b (σ y) j hj]
      simp only [Res.ok_bind]
      by_cases h : i.toNat < 2
      · rw [dif_pos ⟨h, hj⟩]
        obtain ⟨w, hw, hw'⟩ := BV2.set_in b (σ x) i (coord (σ y) ⟨j.toNat, hj⟩) h
        simp only [hw, Res.ok_bind]
        exact refines_update _ _ hw'
      · simp only [dif_neg (show ¬ (i.toNat < 2 ∧ j.toNat < 2) from fun c => h c.1), ne_eq, not_true_eq_false, or_false] at hb ⊢
    · simp only [dif_neg (show ¬ (i.toNat < 2 ∧ j.toNat < 2) from fun c => hj c.2), ne_eq, not_true_eq_false, or_false] at hb ⊢
  | read x i =>
    simp only [BV2.exec, boolExec] at hb ⊢
    by_cases h : i.toNat < 2
    · rw [dif_pos h, BV2.at_in b (σ x) i h]
      exact ⟨σ, rfl, fun _ => rfl⟩
    · simp only [dif_neg h, ne_eq, not_true_eq_false, or_false] at hb ⊢
  | assign x y => exact refines_update _ _ rfl
  | op x k y =>
    cases k <;> (refine refines_update _ _ ?_; funext i; fin_cases i <;> simp [BoolOp.apply, BV2.andAssign, BV2.orAssign, BV2.xorAssign])
  | opS x k a =>
    cases k <;> (refine refines_update _ _ ?_; funext i; fin_cases i <;> simp [BoolOp.apply, BV2.andAssignS, BV2.orAssignS, BV2.xorAssignS])
  | not x y => refine refines_update _ _ ?_; funext i; fin_cases i <;> rfl
  | all x =>
    refine ⟨σ, ?_, fun _ => rfl⟩
    have : BV2.all (σ x) = decide (∀ i, coord (σ x) i = true) := by
      rw [Bool.eq_iff_iff]
      simp [BV2.all, Fin.forall_fin_succ, Fin.exists_fin_succ, and_assoc, or_assoc]
    simp only [BV2.exec, this]
  | any x =>
    refine ⟨σ, ?_, fun _ => rfl⟩
    have : BV2.any (σ x) = decide (∃ i, coord (σ x) i = true) := by
      rw [Bool.eq_iff_iff]
      simp [BV2.any, Fin.forall_fin_succ, Fin.exists_fin_succ, and_assoc, or_assoc]
    simp only [BV2.exec, this]

/-! ## bvec3 -/

theorem BV3.at_in (b : Build) (v : V3 Bool) (i : UInt32) (h : i.toNat < 3) :
    BV3.at b v i = .ok (coord v ⟨i.toNat, h⟩) := by
  have hi : i = UInt32.ofNat i.toNat := by simp
  generalize i.toNat = k at h hi
  subst hi
  interval_cases k <;> cases b <;> rfl

theorem BV3.set_in (b : Build) (v : V3 Bool) (i : UInt32) (a : Bool) (h : i.toNat < 3) :
    ∃ w, BV3.set b v i a = .ok w ∧ coord w = Function.update (coord v) ⟨i.toNat, h⟩ a := by
  have hi : i = UInt32.ofNat i.toNat := by simp
  generalize i.toNat = k at h hi
  subst hi
  interval_cases k <;> cases b <;> exact ⟨_, rfl, by funext j; fin_cases j <;> rfl⟩

theorem BV3.at_out (v : V3 Bool) (i : UInt32) (h : ¬ i.toNat < 3) : BV3.at .debug v i = .abort := by
  have : ¬ i < 3 := by rw [UInt32.lt_iff_toNat_lt]; exact h
  simp [BV3.at, cassert, this]

theorem BV3.set_out (v : V3 Bool) (i : UInt32) (a : Bool) (h : ¬ i.toNat < 3) : BV3.set .debug v i a = .abort := by
  have : ¬ i < 3 := by rw [UInt32.lt_iff_toNat_lt]; exact h
  simp [BV3.set, cassert, this]

theorem BV3.exec_same (b : Build) (c : BvecCmd) (σ : ℕ → V3 Bool)
    (hb : b = .debug ∨ boolExec c (fun x => coord (σ x)) ≠ .outside) :
    Refines coord (BV3.exec b c σ) (boolExec c fun x => coord (σ x)) := by
  cases c with
  | write x i a =>
    simp only [BV3.exec, boolExec] at hb ⊢
    by_cases h : i.toNat < 3
    · obtain ⟨w, hw, hw'⟩ := BV3.set_in b (σ x) i a h
      simp only [dif_pos h, hw, Res.ok_bind]
      exact refines_update _ _ hw'
    · simp only [dif_neg h, ne_eq, not_true_eq_false, or_false] at hb ⊢
      subst hb
      rw [BV3.set_out _ _ _ h]
      exact not_ok_bind (by simp)
  | copyAt x i y j =>
    simp only [BV3.exec, boolExec] at hb ⊢
    by_cases hj : j.toNat < 3
    · rw [BV3.at_in b (σ y) j hj]
      simp only [Res.ok_bind]
      by_cases h : i.toNat < 3
      · rw [dif_pos ⟨h, hj⟩]
        obtain ⟨w, hw, hw'⟩ := BV3.set_in b (σ x) i (coord (σ y) ⟨j.toNat, hj⟩) h
        simp only [hw, Res.ok_bind]
        exact refines_update _ _ hw'
      · simp only [dif_neg (show ¬ (i.toNat < 3 ∧ j.toNat < 3) from fun c => h c.1), ne_eq, not_true_eq_false, or_false] at hb ⊢
        subst hb
        rw [BV3.set_out _ _ _ h]
        exact not_ok_bind (by simp)
    · simp only [dif_neg (show ¬ (i.toNat < 3 ∧ j.toNat < 3) from fun c => hj c.2), ne_eq, not_true_eq_false, or_false] at hb ⊢
      subst hb
      rw [BV3.at_out _ _ hj]
      exact not_ok_bind (by simp)
  | read x i =>
    simp only [BV3.exec, boolExec] at hb ⊢
    by_cases h : i.toNat < 3
    · rw [dif_pos h, BV3.at_in b (σ x) i h]
      exact ⟨σ, rfl, fun _ => rfl⟩
    · simp only [dif_neg h, ne_eq, not_true_eq_false, or_false] at hb ⊢
      subst hb
      rw [BV3.at_out _ _ h]
      exact not_ok_bind (by simp)
  | assign x y => exact refines_update _ _ rfl
  | op x k y =>
    cases k <;> (refine refines_update _ _ ?_; funext i; fin_cases i <;> simp [BoolOp.apply, BV3.andAssign, BV3.orAssign, BV3.xorAssign])
  | opS x k a =>
    cases k <;> (refine refines_update _ _ ?_; funext i; fin_cases i <;> simp [BoolOp.apply, BV3.andAssignS, BV3.orAssignS, BV3.xorAssignS])
  | not x y => refine refines_update _ _ ?_; funext i; fin_cases i <;> rfl
  | all x =>
    refine ⟨σ, ?_, fun _ => rfl⟩
    have : BV3.all (σ x) = decide (∀ i, coord (σ x) i = true) := by
      rw [Bool.eq_iff_iff]
      simp [BV3.all, Fin.forall_fin_succ, Fin.exists_fin_succ, and_assoc, or_assoc]
    simp only [BV3.exec, this]
  | any x =>
    refine ⟨σ, ?_, fun _ => rfl⟩
    have : BV3.any (σ x) = decide (∃ i, coord (σ x) i = true) := by
      rw [Bool.eq_iff_iff]
      simp [BV3.any, Fin.forall_fin_succ, Fin.exists_fin_succ, and_assoc, or_assoc]
    simp only [BV3.exec, this]

/-! ## bvec4 -/

theorem BV4.at_in (b : Build) (v : V4 Bool) (i : UInt32) (h : i.toNat < 4) :
    BV4.at b v i = .ok (coord v ⟨i.toNat, h⟩) := by
  have hi : i = UInt32.ofNat i.toNat := by simp
  generalize i.toNat = k at h hi
  subst hi
  interval_cases k <;> cases b <;> rfl

theorem BV4.set_in (b : Build) (v : V4 Bool) (i : UInt32) (a : Bool) (h : i.toNat < 4) :
    ∃ w, BV4.set b v i a = .ok w ∧ coord w = Function.update (coord v) ⟨i.toNat, h⟩ a := by
  have hi : i = UInt32.ofNat i.toNat := by simp
  generalize i.toNat = k at h hi
  subst hi
  interval_cases k <;> cases b <;> exact ⟨_, rfl, by funext j; fin_cases j <;> rfl⟩

theorem BV4.at_out (v : V4 Bool) (i : UInt32) (h : ¬ i.toNat < 4) : BV4.at .debug v i = .abort := by
  have : ¬ i < 4 := by rw [UInt32.lt_iff_toNat_lt]; exact h
  simp [BV4.at, cassert, this]

theorem BV4.set_out (v : V4 Bool) (i : UInt32) (a : Bool) (h : ¬ i.toNat < 4) : BV4.set .debug v i a = .abort := by
  have : ¬ i < 4 := by rw [UInt32.lt_iff_toNat_lt]; exact h
  simp [BV4.set, cassert, this]

theorem BV4.exec_same (b : Build) (c : BvecCmd) (σ : ℕ → V4 Bool)
    (hb : b = .debug ∨ boolExec c (fun x => coord (σ x)) ≠ .outside) :
    Refines coord (BV4.exec b c σ) (boolExec c fun x => coord (σ x)) := by
  cases c with
  | write x i a =>
    simp only [BV4.exec, boolExec] at hb ⊢
    by_cases h : i.toNat < 4
    · obtain ⟨w, hw, hw'⟩ := BV4.set_in b (σ x) i a h
      simp only [dif_pos h, hw, Res.ok_bind]
      exact refines_update _ _ hw'
    · simp only [dif_neg h, ne_eq, not_true_eq_false, or_false] at hb ⊢
      subst hb
      rw [BV4.set_out _ _ _ h]
      exact not_ok_bind (by simp)
  | copyAt x i y j =>
    simp only [BV4.exec, boolExec] at hb ⊢
    by_cases hj : j.toNat < 4
    · rw [BV4.at_in b (σ y) j hj]
      simp only [Res.ok_bind]
      by_cases h : i.toNat < 4
      · rw [dif_pos ⟨h, hj⟩]
        obtain ⟨w, hw, hw'⟩ := BV4.set_in b (σ x) i (coord (σ y) ⟨j.toNat, hj⟩) h
        simp only [hw, Res.ok_bind]
        exact refines_update _ _ hw'
      · simp only [dif_neg (show ¬ (i.toNat < 4 ∧ j.toNat < 4) from fun c => h c.1), ne_eq, not_true_eq_false, or_false] at hb ⊢
        subst hb
        rw [BV4.set_out _ _ _ h]
        exact not_ok_bind (by simp)
    · simp only [dif_neg (show ¬ (i.toNat < 4 ∧ j.toNat < 4) from fun c => hj c.2), ne_eq, not_true_eq_false, or_false] at hb ⊢
      subst hb
      rw [BV4.at_out _ _ hj]
      exact not_ok_bind (by simp)
  | read x i =>
    simp only [BV4.exec, boolExec] at hb ⊢
    by_cases h : i.toNat < 4
    · rw [dif_pos h, BV4.at_in b (σ x) i h]
      exact ⟨σ, rfl, fun _ => rfl⟩
    · simp only [dif_neg h, ne_eq, not_true_eq_false, or_false] at hb ⊢
      subst hb
      rw [BV4.at_out _ _ h]
      exact not_ok_bind (by simp)
  | assign x y => exact refines_update _ _ rfl
  | op x k y =>
    cases k <;> (refine refines_update _ _ ?_; funext i; fin_cases i <;> simp [BoolOp.apply, BV4.andAssign, BV4.orAssign, BV4.xorAssign])
  | opS x k a =>
    cases k <;> (refine refines_update _ _ ?_; funext i; fin_cases i <;> simp [BoolOp.apply, BV4.andAssignS, BV4.orAssignS, BV4.xorAssignS])
  | not x y => refine refines_update _ _ ?_; funext i; fin_cases i <;> rfl
  | all x =>
    refine ⟨σ, ?_, fun _ => rfl⟩
    have : BV4.all (σ x) = decide (∀ i, coord (σ x) i = true) := by
      rw [Bool.eq_iff_iff]
      simp [BV4.all, Fin.forall_fin_succ, Fin.exists_fin_succ, and_assoc, or_assoc]
    simp only [BV4.exec, this]
  | any x =>
    refine ⟨σ, ?_, fun _ => rfl⟩
    have : BV4.any (σ x) = decide (∃ i, coord (σ x) i = true) := by
      rw [Bool.eq_iff_iff]
      simp [BV4.any, Fin.forall_fin_succ, Fin.exists_fin_succ, and_assoc, or_assoc]
    simp only [BV4.exec, this]

end Zcm
