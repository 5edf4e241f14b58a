import Verif.Spec.History
import Mathlib.Tactic.IntervalCases

/-!
# One statement on vectors and on arrays
-/

set_option linter.unusedSectionVars false

namespace Zcm

variable {α : Type} [Add α] [Sub α] [Mul α] [Div α] [FloatOps α]

theorem cassert_ok_iff {b : Build} {c : Bool} {β : Type} {f : Unit → Res β} {q : β} :
    (cassert b c >>= f) = .ok q ↔ (b = .debug → c = true) ∧ f () = .ok q := by
  cases b <;> cases c <;> simp [cassert]

theorem V2.data_coord (v : V2 α) : v.data = coord v := by
  funext j; fin_cases j <;> rfl

theorem V2.coord_ofData (f : Fin 2 → α) : coord (V2.ofData f) = f := by
  funext j; fin_cases j <;> rfl

theorem V2.lookup_eq (l : Letter) :
    V2.scalars.lookup l = if h : letterIndex l < 2 then some ⟨letterIndex l, h⟩ else none := by
  cases l <;> rfl

theorem V2.at_in (b : Build) (v : V2 α) (i : UInt32) (h : i.toNat < 2) :
    V2.at b v i = .ok (coord v ⟨i.toNat, h⟩) := by
  have hi : i = UInt32.ofNat i.toNat := by simp
  generalize i.toNat = k at h hi
  subst hi
  interval_cases k <;> cases b <;> rfl

theorem V2.at_out (b : Build) (v : V2 α) (i : UInt32) (h : ¬ i.toNat < 2) (a : α) :
    V2.at b v i ≠ .ok a := by
  intro e
  unfold V2.at at e
  rw [cassert_ok_iff] at e
  obtain ⟨_, e⟩ := e
  split at e <;> first | omega | cases e

theorem V2.set_in (b : Build) (v : V2 α) (i : UInt32) (a : α) (h : i.toNat < 2) :
    ∃ w, V2.set b v i a = .ok w ∧ ∀ j, coord w j = if j = ⟨i.toNat, h⟩ then a else coord v j := by
  have hi : i = UInt32.ofNat i.toNat := by simp
  generalize i.toNat = k at h hi
  subst hi
  interval_cases k <;> cases b <;> exact ⟨_, rfl, fun j => by fin_cases j <;> rfl⟩

theorem V2.set_out (b : Build) (v : V2 α) (i : UInt32) (a : α) (h : ¬ i.toNat < 2) (w : V2 α) :
    V2.set b v i a ≠ .ok w := by
  intro e
  unfold V2.set at e
  rw [cassert_ok_iff] at e
  obtain ⟨_, e⟩ := e
  split at e <;> first | omega | cases e

theorem V2.coord_update (σ : ℕ → V2 α) (x : ℕ) (w : V2 α) (i : Fin 2) (a : α)
    (h : ∀ j, coord w j = if j = i then a else coord (σ x) j) (y : ℕ) (j : Fin 2) :
    coord (Function.update σ x w y) j = setCell (fun x => coord (σ x)) x i a y j := by
  unfold setCell
  by_cases hy : y = x
  · subst hy
    simp only [Function.update_self, true_and]
    exact h j
  · simp [hy]

theorem V2.coord_updateAll (σ : ℕ → V2 α) (x : ℕ) (w : V2 α) (f : Fin 2 → α)
    (h : ∀ j, coord w j = f j) (y : ℕ) (j : Fin 2) :
    coord (Function.update σ x w y) j = setAll (fun x => coord (σ x)) x f y j := by
  unfold setAll
  by_cases hy : y = x
  · subst hy
    simp only [Function.update_self, if_true]
    exact h j
  · simp [hy]

theorem V2.exec_same (b : Build) (c : VecCmd α) (σ : ℕ → V2 α) :
    SameOutcome (V2.exec b c σ) (arrayExec c fun x => coord (σ x)) := by
  cases c with
  | write x i a =>
    simp only [V2.exec, arrayExec]
    by_cases h : i.toNat < 2
    · rw [dif_pos h]
      obtain ⟨w, hw, hj⟩ := V2.set_in b (σ x) i a h
      rw [hw]
      exact ⟨_, rfl, V2.coord_update σ x w _ a hj⟩
    · rw [dif_neg h]
      intro q hq
      cases e : V2.set b (σ x) i a with
      | ok w => exact V2.set_out b (σ x) i a h w e
      | abort => rw [e] at hq; cases hq
      | ub => rw [e] at hq; cases hq
  | copyAt x i y j =>
    simp only [V2.exec, arrayExec]
    by_cases h2 : j.toNat < 2
    · rw [V2.at_in b (σ y) j h2]
      simp only [Res.ok_bind]
      by_cases h : i.toNat < 2
      · rw [dif_pos ⟨h, h2⟩]
        obtain ⟨w, hw, hj⟩ := V2.set_in b (σ x) i (coord (σ y) ⟨j.toNat, h2⟩) h
        rw [hw]
        exact ⟨_, rfl, V2.coord_update σ x w _ _ hj⟩
      · rw [dif_neg (fun c => h c.1)]
        intro q hq
        cases e : V2.set b (σ x) i (coord (σ y) ⟨j.toNat, h2⟩) with
        | ok w => exact V2.set_out b (σ x) i _ h w e
        | abort => rw [e] at hq; cases hq
        | ub => rw [e] at hq; cases hq
    · rw [dif_neg (fun c => h2 c.2)]
      intro q hq
      cases e : V2.at b (σ y) j with
      | ok w => exact V2.at_out b (σ y) j h2 w e
      | abort => rw [e] at hq; cases hq
      | ub => rw [e] at hq; cases hq
  | read x i =>
    simp only [V2.exec, arrayExec]
    by_cases h : i.toNat < 2
    · rw [dif_pos h, V2.at_in b (σ x) i h]
      exact ⟨_, rfl, fun _ _ => rfl⟩
    · rw [dif_neg h]
      intro q hq
      cases e : V2.at b (σ x) i with
      | ok w => exact V2.at_out b (σ x) i h w e
      | abort => rw [e] at hq; cases hq
      | ub => rw [e] at hq; cases hq
  | readName x l =>
    simp only [V2.exec, arrayExec, V2.lookup_eq, V2.data_coord]
    by_cases h : letterIndex l < 2
    · simp only [dif_pos h]
      exact ⟨_, rfl, fun _ _ => rfl⟩
    · simp only [dif_neg h]
      exact fun q hq => by cases hq
  | name x l a =>
    simp only [V2.exec, arrayExec, V2.lookup_eq, V2.data_coord]
    by_cases h : letterIndex l < 2
    · simp only [dif_pos h]
      refine ⟨_, rfl, V2.coord_update σ x _ _ _ fun j => ?_⟩
      rw [V2.coord_ofData, Acc.assign, Function.update_apply]
    · simp only [dif_neg h]
      exact fun q hq => by cases hq
  | nameOp x l k a =>
    simp only [V2.exec, arrayExec, V2.lookup_eq, V2.data_coord]
    by_cases h : letterIndex l < 2
    · simp only [dif_pos h]
      refine ⟨_, rfl, V2.coord_update σ x _ _ _ fun j => ?_⟩
      rw [V2.coord_ofData]
      cases k <;> simp only [Acc.op, Acc.addAssign, Acc.subAssign, Acc.mulAssign, Acc.divAssign,
        Function.update_apply, OpKind.apply]
    · simp only [dif_neg h]
      exact fun q hq => by cases hq
  | nameStep x l k =>
    simp only [V2.exec, arrayExec, V2.lookup_eq, V2.data_coord]
    by_cases h : letterIndex l < 2
    · simp only [dif_pos h]
      refine ⟨_, ?_, V2.coord_update σ x (V2.ofData (Acc.step k (coord (σ x)) ⟨letterIndex l, h⟩).1) _ _
        fun j => ?_⟩
      · cases k <;> simp [Acc.step, Acc.preInc, Acc.postInc, Acc.preDec, Acc.postDec, StepKind.result]
      · rw [V2.coord_ofData]
        cases k <;> simp only [Acc.step, Acc.preInc, Acc.postInc, Acc.preDec, Acc.postDec,
          Function.update_apply, StepKind.new]
    · simp only [dif_neg h]
      exact fun q hq => by cases hq
  | assign x y => exact ⟨_, rfl, V2.coord_updateAll σ x _ _ fun _ => rfl⟩
  | vecOp x k y =>
    refine ⟨_, rfl, V2.coord_updateAll σ x _ _ fun j => ?_⟩
    cases k <;> fin_cases j <;> rfl
  | scalarOp x k a =>
    refine ⟨_, rfl, V2.coord_updateAll σ x _ _ fun j => ?_⟩
    cases k <;> fin_cases j <;> rfl
  | step x k =>
    refine ⟨Function.update σ x (V2.incDec k (σ x)).1, ?_, V2.coord_updateAll σ x _ _ fun j => ?_⟩
    · cases k <;> rfl
    · cases k <;> fin_cases j <;> rfl

theorem V3.data_coord (v : V3 α) : v.data = coord v := by
  funext j; fin_cases j <;> rfl

theorem V3.coord_ofData (f : Fin 3 → α) : coord (V3.ofData f) = f := by
  funext j; fin_cases j <;> rfl

theorem V3.lookup_eq (l : Letter) :
    V3.scalars.lookup l = if h : letterIndex l < 3 then some ⟨letterIndex l, h⟩ else none := by
  cases l <;> rfl

theorem V3.at_in (b : Build) (v : V3 α) (i : UInt32) (h : i.toNat < 3) :
    V3.at b v i = .ok (coord v ⟨i.toNat, h⟩) := by
  have hi : i = UInt32.ofNat i.toNat := by simp
  generalize i.toNat = k at h hi
  subst hi
  interval_cases k <;> cases b <;> rfl

theorem V3.at_out (b : Build) (v : V3 α) (i : UInt32) (h : ¬ i.toNat < 3) (a : α) :
    V3.at b v i ≠ .ok a := by
  intro e
  unfold V3.at at e
  rw [cassert_ok_iff] at e
  obtain ⟨_, e⟩ := e
  split at e <;> first | omega | cases e

theorem V3.set_in (b : Build) (v : V3 α) (i : UInt32) (a : α) (h : i.toNat < 3) :
    ∃ w, V3.set b v i a = .ok w ∧ ∀ j, coord w j = if j = ⟨i.toNat, h⟩ then a else coord v j := by
  have hi : i = UInt32.ofNat i.toNat := by simp
  generalize i.toNat = k at h hi
  subst hi
  interval_cases k <;> cases b <;> exact ⟨_, rfl, fun j => by fin_cases j <;> rfl⟩

theorem V3.set_out (b : Build) (v : V3 α) (i : UInt32) (a : α) (h : ¬ i.toNat < 3) (w : V3 α) :
    V3.set b v i a ≠ .ok w := by
  intro e
  unfold V3.set at e
  rw [cassert_ok_iff] at e
  obtain ⟨_, e⟩ := e
  split at e <;> first | omega | cases e

theorem V3.coord_update (σ : ℕ → V3 α) (x : ℕ) (w : V3 α) (i : Fin 3) (a : α)
    (h : ∀ j, coord w j = if j = i then a else coord (σ x) j) (y : ℕ) (j : Fin 3) :
    coord (Function.update σ x w y) j = setCell (fun x => coord (σ x)) x i a y j := by
  unfold setCell
  by_cases hy : y = x
  · subst hy
    simp only [Function.update_self, true_and]
    exact h j
  · simp [hy]

theorem V3.coord_updateAll (σ : ℕ → V3 α) (x : ℕ) (w : V3 α) (f : Fin 3 → α)
    (h : ∀ j, coord w j = f j) (y : ℕ) (j : Fin 3) :
    coord (Function.update σ x w y) j = setAll (fun x => coord (σ x)) x f y j := by
  unfold setAll
  by_cases hy : y = x
  · subst hy
    simp only [Function.update_self, if_true]
    exact h j
  · simp [hy]

theorem V3.exec_same (b : Build) (c : VecCmd α) (σ : ℕ → V3 α) :
    SameOutcome (V3.exec b c σ) (arrayExec c fun x => coord (σ x)) := by
  cases c with
  | write x i a =>
    simp only [V3.exec, arrayExec]
    by_cases h : i.toNat < 3
    · rw [dif_pos h]
      obtain ⟨w, hw, hj⟩ := V3.set_in b (σ x) i a h
      rw [hw]
      exact ⟨_, rfl, V3.coord_update σ x w _ a hj⟩
    · rw [dif_neg h]
      intro q hq
      cases e : V3.set b (σ x) i a with
      | ok w => exact V3.set_out b (σ x) i a h w e
      | abort => rw [e] at hq; cases hq
      | ub => rw [e] at hq; cases hq
  | copyAt x i y j =>
    simp only [V3.exec, arrayExec]
    by_cases h2 : j.toNat < 3
    · rw [V3.at_in b (σ y) j h2]
      simp only [Res.ok_bind]
      by_cases h : i.toNat < 3
      · rw [dif_pos ⟨h, h2⟩]
        obtain ⟨w, hw, hj⟩ := V3.set_in b (σ x) i (coord (σ y) ⟨j.toNat, h2⟩) h
        rw [hw]
        exact ⟨_, rfl, V3.coord_update σ x w _ _ hj⟩
      · rw [dif_neg (fun c => h c.1)]
        intro q hq
        cases e : V3.set b (σ x) i (coord (σ y) ⟨j.toNat, h2⟩) with
        | ok w => exact V3.set_out b (σ x) i _ h w e
        | abort => rw [e] at hq; cases hq
        | ub => rw [e] at hq; cases hq
    · rw [dif_neg (fun c => h2 c.2)]
      intro q hq
      cases e : V3.at b (σ y) j with
      | ok w => exact V3.at_out b (σ y) j h2 w e
      | abort => rw [e] at hq; cases hq
      | ub => rw [e] at hq; cases hq
  | read x i =>
    simp only [V3.exec, arrayExec]
    by_cases h : i.toNat < 3
    · rw [dif_pos h, V3.at_in b (σ x) i h]
      exact ⟨_, rfl, fun _ _ => rfl⟩
    · rw [dif_neg h]
      intro q hq
      cases e : V3.at b (σ x) i with
      | ok w => exact V3.at_out b (σ x) i h w e
      | abort => rw [e] at hq; cases hq
      | ub => rw [e] at hq; cases hq
  | readName x l =>
    simp only [V3.exec, arrayExec, V3.lookup_eq, V3.data_coord]
    by_cases h : letterIndex l < 3
    · simp only [dif_pos h]
      exact ⟨_, rfl, fun _ _ => rfl⟩
    · simp only [dif_neg h]
      exact fun q hq => by cases hq
  | name x l a =>
    simp only [V3.exec, arrayExec, V3.lookup_eq, V3.data_coord]
    by_cases h : letterIndex l < 3
    · simp only [dif_pos h]
      refine ⟨_, rfl, V3.coord_update σ x _ _ _ fun j => ?_⟩
      rw [V3.coord_ofData, Acc.assign, Function.update_apply]
    · simp only [dif_neg h]
      exact fun q hq => by cases hq
  | nameOp x l k a =>
    simp only [V3.exec, arrayExec, V3.lookup_eq, V3.data_coord]
    by_cases h : letterIndex l < 3
    · simp only [dif_pos h]
      refine ⟨_, rfl, V3.coord_update σ x _ _ _ fun j => ?_⟩
      rw [V3.coord_ofData]
      cases k <;> simp only [Acc.op, Acc.addAssign, Acc.subAssign, Acc.mulAssign, Acc.divAssign,
        Function.update_apply, OpKind.apply]
    · simp only [dif_neg h]
      exact fun q hq => by cases hq
  | nameStep x l k =>
    simp only [V3.exec, arrayExec, V3.lookup_eq, V3.data_coord]
    by_cases h : letterIndex l < 3
    · simp only [dif_pos h]
      refine ⟨_, ?_, V3.coord_update σ x (V3.ofData (Acc.step k (coord (σ x)) ⟨letterIndex l, h⟩).1) _ _
        fun j => ?_⟩
      · cases k <;> simp [Acc.step, Acc.preInc, Acc.postInc, Acc.preDec, Acc.postDec, StepKind.result]
      · rw [V3.coord_ofData]
        cases k <;> simp only [Acc.step, Acc.preInc, Acc.postInc, Acc.preDec, Acc.postDec,
          Function.update_apply, StepKind.new]
    · simp only [dif_neg h]
      exact fun q hq => by cases hq
  | assign x y => exact ⟨_, rfl, V3.coord_updateAll σ x _ _ fun _ => rfl⟩
  | vecOp x k y =>
    refine ⟨_, rfl, V3.coord_updateAll σ x _ _ fun j => ?_⟩
    cases k <;> fin_cases j <;> rfl
  | scalarOp x k a =>
    refine ⟨_, rfl, V3.coord_updateAll σ x _ _ fun j => ?_⟩
    cases k <;> fin_cases j <;> rfl
  | step x k =>
    refine ⟨Function.update σ x (V3.incDec k (σ x)).1, ?_, V3.coord_updateAll σ x _ _ fun j => ?_⟩
    · cases k <;> rfl
    · cases k <;> fin_cases j <;> rfl

theorem V4.data_coord (v : V4 α) : v.data = coord v := by
  funext j; fin_cases j <;> rfl

theorem V4.coord_ofData (f : Fin 4 → α) : coord (V4.ofData f) = f := by
  funext j; fin_cases j <;> rfl

theorem V4.lookup_eq (l : Letter) :
    V4.scalars.lookup l = if h : letterIndex l < 4 then some ⟨letterIndex l, h⟩ else none := by
  cases l <;> rfl

theorem V4.at_in (b : Build) (v : V4 α) (i : UInt32) (h : i.toNat < 4) :
    V4.at b v i = .ok (coord v ⟨i.toNat, h⟩) := by
  have hi : i = UInt32.ofNat i.toNat := by simp
  generalize i.toNat = k at h hi
  subst hi
  interval_cases k <;> cases b <;> rfl

theorem V4.at_out (b : Build) (v : V4 α) (i : UInt32) (h : ¬ i.toNat < 4) (a : α) :
    V4.at b v i ≠ .ok a := by
  intro e
  unfold V4.at at e
  rw [cassert_ok_iff] at e
  obtain ⟨_, e⟩ := e
  split at e <;> first | omega | cases e

theorem V4.set_in (b : Build) (v : V4 α) (i : UInt32) (a : α) (h : i.toNat < 4) :
    ∃ w, V4.set b v i a = .ok w ∧ ∀ j, coord w j = if j = ⟨i.toNat, h⟩ then a else coord v j := by
  have hi : i = UInt32.ofNat i.toNat := by simp
  generalize i.toNat = k at h hi
  subst hi
  interval_cases k <;> cases b <;> exact ⟨_, rfl, fun j => by fin_cases j <;> rfl⟩

theorem V4.set_out (b : Build) (v : V4 α) (i : UInt32) (a : α) (h : ¬ i.toNat < 4) (w : V4 α) :
    V4.set b v i a ≠ .ok w := by
  intro e
  unfold V4.set at e
  rw [cassert_ok_iff] at e
  obtain ⟨_, e⟩ := e
  split at e <;> first | omega | cases e

theorem V4.coord_update (σ : ℕ → V4 α) (x : ℕ) (w : V4 α) (i : Fin 4) (a : α)
    (h : ∀ j, coord w j = if j = i then a else coord (σ x) j) (y : ℕ) (j : Fin 4) :
    coord (Function.update σ x w y) j = setCell (fun x => coord (σ x)) x i a y j := by
  unfold setCell
  by_cases hy : y = x
  · subst hy
    simp only [Function.update_self, true_and]
    exact h j
  · simp [hy]

theorem V4.coord_updateAll (σ : ℕ → V4 α) (x : ℕ) (w : V4 α) (f : Fin 4 → α)
    (h : ∀ j, coord w j = f j) (y : ℕ) (j : Fin 4) :
    coord (Function.update σ x w y) j = setAll (fun x => coord (σ x)) x f y j := by
  unfold setAll
  by_cases hy : y = x
  · subst hy
    simp only [Function.update_self, if_true]
    exact h j
  · simp [hy]

theorem V4.exec_same (b : Build) (c : VecCmd α) (σ : ℕ → V4 α) :
    SameOutcome (V4.exec b c σ) (arrayExec c fun x => coord (σ x)) := by
  cases c with
  | write x i a =>
    simp only [V4.exec, arrayExec]
    by_cases h : i.toNat < 4
    · rw [dif_pos h]
      obtain ⟨w, hw, hj⟩ := V4.set_in b (σ x) i a h
      rw [hw]
      exact ⟨_, rfl, V4.coord_update σ x w _ a hj⟩
    · rw [dif_neg h]
      intro q hq
      cases e : V4.set b (σ x) i a with
      | ok w => exact V4.set_out b (σ x) i a h w e
      | abort => rw [e] at hq; cases hq
      | ub => rw [e] at hq; cases hq
  | copyAt x i y j =>
    simp only [V4.exec, arrayExec]
    by_cases h2 : j.toNat < 4
    · rw [V4.at_in b (σ y) j h2]
      simp only [Res.ok_bind]
      by_cases h : i.toNat < 4
      · rw [dif_pos ⟨h, h2⟩]
        obtain ⟨w, hw, hj⟩ := V4.set_in b (σ x) i (coord (σ y) ⟨j.toNat, h2⟩) h
        rw [hw]
        exact ⟨_, rfl, V4.coord_update σ x w _ _ hj⟩
      · rw [dif_neg (fun c => h c.1)]
        intro q hq
        cases e : V4.set b (σ x) i (coord (σ y) ⟨j.toNat, h2⟩) with
        | ok w => exact V4.set_out b (σ x) i _ h w e
        | abort => rw [e] at hq; cases hq
        | ub => rw [e] at hq; cases hq
    · rw [dif_neg (fun c => h2 c.2)]
      intro q hq
      cases e : V4.at b (σ y) j with
      | ok w => exact V4.at_out b (σ y) j h2 w e
      | abort => rw [e] at hq; cases hq
      | ub => rw [e] at hq; cases hq
  | read x i =>
    simp only [V4.exec, arrayExec]
    by_cases h : i.toNat < 4
    · rw [dif_pos h, V4.at_in b (σ x) i h]
      exact ⟨_, rfl, fun _ _ => rfl⟩
    · rw [dif_neg h]
      intro q hq
      cases e : V4.at b (σ x) i with
      | ok w => exact V4.at_out b (σ x) i h w e
      | abort => rw [e] at hq; cases hq
      | ub => rw [e] at hq; cases hq
  | readName x l =>
    simp only [V4.exec, arrayExec, V4.lookup_eq, V4.data_coord]
    by_cases h : letterIndex l < 4
    · simp only [dif_pos h]
      exact ⟨_, rfl, fun _ _ => rfl⟩
    · simp only [dif_neg h]
      exact fun q hq => by cases hq
  | name x l a =>
    simp only [V4.exec, arrayExec, V4.lookup_eq, V4.data_coord]
    by_cases h : letterIndex l < 4
    · simp only [dif_pos h]
      refine ⟨_, rfl, V4.coord_update σ x _ _ _ fun j => ?_⟩
      rw [V4.coord_ofData, Acc.assign, Function.update_apply]
    · simp only [dif_neg h]
      exact fun q hq => by cases hq
  | nameOp x l k a =>
    simp only [V4.exec, arrayExec, V4.lookup_eq, V4.data_coord]
    by_cases h : letterIndex l < 4
    · simp only [dif_pos h]
      refine ⟨_, rfl, V4.coord_update σ x _ _ _ fun j => ?_⟩
      rw [V4.coord_ofData]
      cases k <;> simp only [Acc.op, Acc.addAssign, Acc.subAssign, Acc.mulAssign, Acc.divAssign,
        Function.update_apply, OpKind.apply]
    · simp only [dif_neg h]
      exact fun q hq => by cases hq
  | nameStep x l k =>
    simp only [V4.exec, arrayExec, V4.lookup_eq, V4.data_coord]
    by_cases h : letterIndex l < 4
    · simp only [dif_pos h]
      refine ⟨_, ?_, V4.coord_update σ x (V4.ofData (Acc.step k (coord (σ x)) ⟨letterIndex l, h⟩).1) _ _
        fun j => ?_⟩
      · cases k <;> simp [Acc.step, Acc.preInc, Acc.postInc, Acc.preDec, Acc.postDec, StepKind.result]
      · rw [V4.coord_ofData]
        cases k <;> simp only [Acc.step, Acc.preInc, Acc.postInc, Acc.preDec, Acc.postDec,
          Function.update_apply, StepKind.new]
    · simp only [dif_neg h]
      exact fun q hq => by cases hq
  | assign x y => exact ⟨_, rfl, V4.coord_updateAll σ x _ _ fun _ => rfl⟩
  | vecOp x k y =>
    refine ⟨_, rfl, V4.coord_updateAll σ x _ _ fun j => ?_⟩
    cases k <;> fin_cases j <;> rfl
  | scalarOp x k a =>
    refine ⟨_, rfl, V4.coord_updateAll σ x _ _ fun j => ?_⟩
    cases k <;> fin_cases j <;> rfl
  | step x k =>
    refine ⟨Function.update σ x (V4.incDec k (σ x)).1, ?_, V4.coord_updateAll σ x _ _ fun j => ?_⟩
    · cases k <;> rfl
    · cases k <;> fin_cases j <;> rfl

end Zcm
