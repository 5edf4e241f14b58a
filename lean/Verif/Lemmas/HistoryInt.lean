import Verif.Lemmas.History
import Verif.Lemmas.Int
import Verif.Spec.HistoryInt

/-!
# One statement on integer vectors and on arrays of integers
-/

namespace Zcm

theorem Res.bind_ne_ok {α β : Type} {r : Res α} {f : α → Res β} (h : ∀ a, r ≠ .ok a) (q : β) : (r >>= f) ≠ .ok q := by
  cases r with
  | ok a => exact absurd rfl (h a)
  | abort => exact fun h => nomatch h
  | ub => exact fun h => nomatch h

theorem IsInt.some' {r : Res I32} {s : Option ℤ} (h : IsInt r s) {z : ℤ} (e : s = some z) :
    ∃ x, r = .ok x ∧ x.toInt = z := by
  subst e; exact h

theorem IsInt.none' {r : Res I32} {s : Option ℤ} (h : IsInt r s) (e : s = none) : r = .ub := by
  subst e; exact h

theorem allDefined_some {n : ℕ} {f : Fin n → Option ℤ} {g : Fin n → ℤ} (h : allDefined f = some g) :
    (∀ i, (f i).isSome) ∧ ∀ i, f i = some (g i) := by
  unfold allDefined at h
  split at h
  · rename_i h1
    refine ⟨h1, fun i => ?_⟩
    cases h
    have := h1 i
    cases e : f i with
    | none => rw [e] at this; cases this
    | some z => simp only [e, Option.getD_some]
  · cases h

theorem allDefined_none {n : ℕ} {f : Fin n → Option ℤ} (h : allDefined f = none) : ∃ i, f i = none := by
  unfold allDefined at h
  split at h
  · cases h
  · rename_i h1
    rw [not_forall] at h1
    obtain ⟨i, hi⟩ := h1
    exact ⟨i, by simpa using hi⟩

/-- the operator on `int32_t` -/
def IntKind.op (k : IntKind) : I32 → I32 → Res I32 :=
  match k with
  | .add => I32.add
  | .sub => I32.sub
  | .mul => I32.mul
  | .div => I32.div
  | .mod => I32.mod
  | .shl => I32.shl
  | .shr => I32.shr

/-- the value `++`/`--` stores, on `int32_t` -/
def StepKind.op (k : StepKind) (a : I32) : Res I32 :=
  match k with
  | .preInc | .postInc => I32.add a (I32.lit 1)
  | .preDec | .postDec => I32.sub a (I32.lit 1)

theorem isInt_op (k : IntKind) (a b : I32) : IsInt (k.op a b) (k.apply a.toInt b.toInt) := by
  cases k
  · exact isInt_add a b
  · exact isInt_sub a b
  · exact isInt_mul a b
  · exact isInt_div a b
  · exact isInt_mod a b
  · exact isInt_shl a b
  · exact isInt_shr a b

theorem isInt_step (k : StepKind) (a : I32) : IsInt (k.op a) (k.newInt a.toInt) := by
  have e : (I32.lit 1).toInt = 1 := by decide
  have h1 := isInt_add a (I32.lit 1)
  have h2 := isInt_sub a (I32.lit 1)
  rw [e] at h1 h2
  cases k <;> first | exact h1 | exact h2

theorem Acc.opI_eq {n : ℕ} (k : IntKind) (d : Fin n → I32) (i : Fin n) (a : I32) :
    Acc.opI k d i a = (do let r ← k.op (d i) a; .ok (Function.update d i r)) := by
  cases k <;> rfl

theorem Acc.stepI_eq {n : ℕ} (k : StepKind) (d : Fin n → I32) (i : Fin n) :
    Acc.stepI k d i = (do let r ← k.op (d i); .ok (Function.update d i r, k.pick (d i) r)) := by
  cases k <;> rfl

theorem IV2.lookup_eq (l : Letter) :
    IV2.scalars.lookup l = if h : letterIndex l < 2 then some ⟨letterIndex l, h⟩ else none := by
  cases l <;> rfl

theorem V2.data_icoord (v : V2 I32) : v.data = coord v := by
  funext j; fin_cases j <;> rfl

theorem V2.coord_ofDataI (f : Fin 2 → I32) : coord (V2.ofData f) = f := by
  funext j; fin_cases j <;> rfl

theorem IV2.at_in (b : Build) (v : V2 I32) (i : UInt32) (h : i.toNat < 2) :
    IV2.at b v i = .ok (coord v ⟨i.toNat, h⟩) := by
  have hi : i = UInt32.ofNat i.toNat := by simp
  generalize i.toNat = k at h hi
  subst hi
  interval_cases k <;> cases b <;> rfl

theorem IV2.at_out (b : Build) (v : V2 I32) (i : UInt32) (h : ¬ i.toNat < 2) (a : I32) :
    IV2.at b v i ≠ .ok a := by
  intro e
  unfold IV2.at at e
  rw [cassert_ok_iff] at e
  obtain ⟨_, e⟩ := e
  split at e <;> first | omega | cases e

theorem IV2.set_in (b : Build) (v : V2 I32) (i : UInt32) (a : I32) (h : i.toNat < 2) :
    ∃ w, IV2.set b v i a = .ok w ∧ ∀ j, coord w j = if j = ⟨i.toNat, h⟩ then a else coord v j := by
  have hi : i = UInt32.ofNat i.toNat := by simp
  generalize i.toNat = k at h hi
  subst hi
  interval_cases k <;> cases b <;> exact ⟨_, rfl, fun j => by fin_cases j <;> rfl⟩

theorem IV2.set_out (b : Build) (v : V2 I32) (i : UInt32) (a : I32) (h : ¬ i.toNat < 2) (w : V2 I32) :
    IV2.set b v i a ≠ .ok w := by
  intro e
  unfold IV2.set at e
  rw [cassert_ok_iff] at e
  obtain ⟨_, e⟩ := e
  split at e <;> first | omega | cases e

theorem IV2.icoord_update (σ : ℕ → V2 I32) (x : ℕ) (w : V2 I32) (i : Fin 2) (a : I32)
    (h : ∀ j, coord w j = if j = i then a else coord (σ x) j) (y : ℕ) (j : Fin 2) :
    icoord (Function.update σ x w y) j = setCell (fun x => icoord (σ x)) x i a.toInt y j := by
  unfold setCell icoord
  by_cases hy : y = x
  · subst hy
    simp only [Function.update_self, true_and]
    rw [h j]
    split <;> rfl
  · simp [hy]

theorem IV2.icoord_updateAll (σ : ℕ → V2 I32) (x : ℕ) (w : V2 I32) (f : Fin 2 → ℤ)
    (h : ∀ j, icoord w j = f j) (y : ℕ) (j : Fin 2) :
    icoord (Function.update σ x w y) j = setAll (fun x => icoord (σ x)) x f y j := by
  unfold setAll
  by_cases hy : y = x
  · subst hy
    simp only [Function.update_self, if_true]
    exact h j
  · simp [hy]

theorem IV2.op_spec (k : IntKind) (v w : V2 I32) :
    IsIntVec (IV2.op k v w) fun i => k.apply (icoord v i) (icoord w i) := by
  have e : IV2.op k v w = V2.macroVV k.op v w := by cases k <;> first | rfl | cases h
  rw [e]
  exact isIntVec_VV2 (isInt_op k) v w

theorem IV2.opS_spec (k : IntKind) (v : V2 I32) (a : I32) :
    IsIntVec (IV2.opS k v a) fun i => k.apply (icoord v i) a.toInt := by
  have e : IV2.opS k v a = V2.macroVS k.op v a := by cases k <;> first | rfl | cases h
  rw [e]
  exact isIntVec_VS2 (isInt_op k) v a

theorem IV2.incDec_eq (k : StepKind) (v : V2 I32) :
    IV2.incDec k v = (do
      let w ← V2.macroVS (fun a _ => k.op a) v v.x
      .ok (w, (V2.ofData fun i => k.pick (coord v i) (coord w i)))) := by
  cases h0 : k.op v.x with
  | ub => cases k <;> simp only [StepKind.op] at h0 <;> simp [IV2.incDec, IV2.preInc, IV2.postInc, IV2.preDec, IV2.postDec, V2.macroVS, StepKind.op, h0]
  | abort => cases k <;> simp only [StepKind.op] at h0 <;> simp [IV2.incDec, IV2.preInc, IV2.postInc, IV2.preDec, IV2.postDec, V2.macroVS, StepKind.op, h0]
  | ok r0 =>
    cases h1 : k.op v.y with
    | ub => cases k <;> simp only [StepKind.op] at h0 h1 <;> simp [IV2.incDec, IV2.preInc, IV2.postInc, IV2.preDec, IV2.postDec, V2.macroVS, StepKind.op, h0, h1]
    | abort => cases k <;> simp only [StepKind.op] at h0 h1 <;> simp [IV2.incDec, IV2.preInc, IV2.postInc, IV2.preDec, IV2.postDec, V2.macroVS, StepKind.op, h0, h1]
    | ok r1 =>
      cases k <;> simp only [StepKind.op] at h0 h1 <;> simp [IV2.incDec, IV2.preInc, IV2.postInc, IV2.preDec, IV2.postDec, V2.macroVS, StepKind.op, StepKind.pick, V2.ofData, h0, h1]

theorem IV2.incDec_spec (k : StepKind) (v : V2 I32) :
    IsIntVec (V2.macroVS (fun a _ => k.op a) v v.x) fun i => k.newInt (icoord v i) :=
  isIntVec_VS2 (spec := fun a _ => k.newInt a) (fun a _ => isInt_step k a) v v.x

theorem IV2.exec_same (b : Build) (c : IvecCmd) (σ : ℕ → V2 I32) :
    SameIntOutcome (IV2.exec b c σ) (intArrayExec c fun x => icoord (σ x)) := by
  cases c with
  | write x i a =>
    simp only [IV2.exec, intArrayExec]
    by_cases h : i.toNat < 2
    · rw [dif_pos h]
      obtain ⟨w, hw, hj⟩ := IV2.set_in b (σ x) i a h
      rw [hw]
      exact ⟨_, _, rfl, rfl, IV2.icoord_update σ x w _ a hj⟩
    · rw [dif_neg h]
      exact Res.bind_ne_ok (IV2.set_out b (σ x) i a h)
  | copyAt x i y j =>
    simp only [IV2.exec, intArrayExec]
    by_cases h2 : j.toNat < 2
    · rw [IV2.at_in b (σ y) j h2]
      simp only [Res.ok_bind]
      by_cases h : i.toNat < 2
      · rw [dif_pos ⟨h, h2⟩]
        obtain ⟨w, hw, hj⟩ := IV2.set_in b (σ x) i (coord (σ y) ⟨j.toNat, h2⟩) h
        rw [hw]
        exact ⟨_, _, rfl, rfl, IV2.icoord_update σ x w _ _ hj⟩
      · rw [dif_neg (fun c => h c.1)]
        exact Res.bind_ne_ok (IV2.set_out b (σ x) i _ h)
    · rw [dif_neg (fun c => h2 c.2)]
      exact Res.bind_ne_ok (IV2.at_out b (σ y) j h2)
  | read x i =>
    simp only [IV2.exec, intArrayExec]
    by_cases h : i.toNat < 2
    · rw [dif_pos h, IV2.at_in b (σ x) i h]
      exact ⟨_, _, rfl, rfl, fun _ _ => rfl⟩
    · rw [dif_neg h]
      exact Res.bind_ne_ok (IV2.at_out b (σ x) i h)
  | readName x l =>
    simp only [IV2.exec, intArrayExec, IV2.lookup_eq, V2.data_icoord]
    by_cases h : letterIndex l < 2
    · simp only [dif_pos h]
      exact ⟨_, _, rfl, rfl, fun _ _ => rfl⟩
    · simp only [dif_neg h]
      exact fun q hq => by cases hq
  | name x l a =>
    simp only [IV2.exec, intArrayExec, IV2.lookup_eq, V2.data_icoord]
    by_cases h : letterIndex l < 2
    · simp only [dif_pos h]
      refine ⟨_, _, rfl, rfl, IV2.icoord_update σ x _ _ _ fun j => ?_⟩
      rw [V2.coord_ofDataI, Acc.assign, Function.update_apply]
    · simp only [dif_neg h]
      exact fun q hq => by cases hq
  | nameOp x l k a =>
    simp only [IV2.exec, intArrayExec, IV2.lookup_eq, V2.data_icoord]
    by_cases h : letterIndex l < 2
    · simp only [dif_pos h, Acc.opI_eq]
      have hk := isInt_op k (coord (σ x) ⟨letterIndex l, h⟩) a
      cases e : k.apply (icoord (σ x) ⟨letterIndex l, h⟩) a.toInt with
      | none =>
        rw [hk.none' e]
        exact fun q hq => by cases hq
      | some z =>
        obtain ⟨r, hr, hz⟩ := hk.some' e
        rw [hr, ← hz]
        refine ⟨_, _, rfl, rfl, IV2.icoord_update σ x _ _ _ fun j => ?_⟩
        rw [V2.coord_ofDataI, Function.update_apply]
    · simp only [dif_neg h]
      exact fun q hq => by cases hq
  | nameStep x l k =>
    simp only [IV2.exec, intArrayExec, IV2.lookup_eq, V2.data_icoord]
    by_cases h : letterIndex l < 2
    · simp only [dif_pos h, Acc.stepI_eq]
      have hk := isInt_step k (coord (σ x) ⟨letterIndex l, h⟩)
      cases e : k.newInt (icoord (σ x) ⟨letterIndex l, h⟩) with
      | none =>
        rw [hk.none' e]
        exact fun q hq => by cases hq
      | some z =>
        obtain ⟨r, hr, hz⟩ := hk.some' e
        rw [hr, ← hz]
        refine ⟨_, _, rfl, ?_, IV2.icoord_update σ x _ _ _ fun j => ?_⟩
        · cases k <;> rfl
        · rw [V2.coord_ofDataI]
          exact Function.update_apply _ _ _ _
    · simp only [dif_neg h]
      exact fun q hq => by cases hq
  | assign x y => exact ⟨_, _, rfl, rfl, IV2.icoord_updateAll σ x _ _ fun _ => rfl⟩
  | vecOp x k y =>
    simp only [IV2.exec, intArrayExec]
    by_cases hon : k.onIvec 2 = true
    · rw [if_pos hon]
      have hk := IV2.op_spec k (σ x) (σ y)
      cases e : allDefined (fun i => k.apply (icoord (σ x) i) (icoord (σ y) i)) with
      | none =>
        rw [hk.2 (allDefined_none e)]
        exact fun q hq => by cases hq
      | some f =>
        obtain ⟨h1, h2⟩ := allDefined_some e
        obtain ⟨w, hw, h3⟩ := hk.1 h1
        rw [hw]
        refine ⟨_, _, rfl, rfl, IV2.icoord_updateAll σ x w f fun j => ?_⟩
        exact Option.some.inj ((h3 j).trans (h2 j))
    · rw [if_neg hon]
      exact absurd (by cases k <;> rfl) hon
  | scalarOp x k a =>
    simp only [IV2.exec, intArrayExec]
    by_cases hon : k.onIvec 2 = true
    · rw [if_pos hon]
      have hk := IV2.opS_spec k (σ x) a
      cases e : allDefined (fun i => k.apply (icoord (σ x) i) a.toInt) with
      | none =>
        rw [hk.2 (allDefined_none e)]
        exact fun q hq => by cases hq
      | some f =>
        obtain ⟨h1, h2⟩ := allDefined_some e
        obtain ⟨w, hw, h3⟩ := hk.1 h1
        rw [hw]
        refine ⟨_, _, rfl, rfl, IV2.icoord_updateAll σ x w f fun j => ?_⟩
        exact Option.some.inj ((h3 j).trans (h2 j))
    · rw [if_neg hon]
      exact absurd (by cases k <;> rfl) hon
  | step x k =>
    simp only [IV2.exec, intArrayExec, IV2.incDec_eq]
    have hk := IV2.incDec_spec k (σ x)
    cases e : allDefined (fun i => k.newInt (icoord (σ x) i)) with
    | none =>
      rw [hk.2 (allDefined_none e)]
      exact fun q hq => by cases hq
    | some f =>
      obtain ⟨h1, h2⟩ := allDefined_some e
      obtain ⟨w, hw, h3⟩ := hk.1 h1
      rw [hw]
      have hf : f = fun j => icoord w j := by
        funext j
        exact (Option.some.inj ((h3 j).trans (h2 j))).symm
      subst hf
      refine ⟨_, _, rfl, ?_, IV2.icoord_updateAll σ x w _ fun j => rfl⟩
      cases k <;> rfl

theorem IV3.lookup_eq (l : Letter) :
    IV3.scalars.lookup l = if h : letterIndex l < 3 then some ⟨letterIndex l, h⟩ else none := by
  cases l <;> rfl

theorem V3.data_icoord (v : V3 I32) : v.data = coord v := by
  funext j; fin_cases j <;> rfl

theorem V3.coord_ofDataI (f : Fin 3 → I32) : coord (V3.ofData f) = f := by
  funext j; fin_cases j <;> rfl

theorem IV3.at_in (b : Build) (v : V3 I32) (i : UInt32) (h : i.toNat < 3) :
    IV3.at b v i = .ok (coord v ⟨i.toNat, h⟩) := by
  have hi : i = UInt32.ofNat i.toNat := by simp
  generalize i.toNat = k at h hi
  subst hi
  interval_cases k <;> cases b <;> rfl

theorem IV3.at_out (b : Build) (v : V3 I32) (i : UInt32) (h : ¬ i.toNat < 3) (a : I32) :
    IV3.at b v i ≠ .ok a := by
  intro e
  unfold IV3.at at e
  rw [cassert_ok_iff] at e
  obtain ⟨_, e⟩ := e
  split at e <;> first | omega | cases e

theorem IV3.set_in (b : Build) (v : V3 I32) (i : UInt32) (a : I32) (h : i.toNat < 3) :
    ∃ w, IV3.set b v i a = .ok w ∧ ∀ j, coord w j = if j = ⟨i.toNat, h⟩ then a else coord v j := by
  have hi : i = UInt32.ofNat i.toNat := by simp
  generalize i.toNat = k at h hi
  subst hi
  interval_cases k <;> cases b <;> exact ⟨_, rfl, fun j => by fin_cases j <;> rfl⟩

theorem IV3.set_out (b : Build) (v : V3 I32) (i : UInt32) (a : I32) (h : ¬ i.toNat < 3) (w : V3 I32) :
    IV3.set b v i a ≠ .ok w := by
  intro e
  unfold IV3.set at e
  rw [cassert_ok_iff] at e
  obtain ⟨_, e⟩ := e
  split at e <;> first | omega | cases e

theorem IV3.icoord_update (σ : ℕ → V3 I32) (x : ℕ) (w : V3 I32) (i : Fin 3) (a : I32)
    (h : ∀ j, coord w j = if j = i then a else coord (σ x) j) (y : ℕ) (j : Fin 3) :
    icoord (Function.update σ x w y) j = setCell (fun x => icoord (σ x)) x i a.toInt y j := by
  unfold setCell icoord
  by_cases hy : y = x
  · subst hy
    simp only [Function.update_self, true_and]
    rw [h j]
    split <;> rfl
  · simp [hy]

theorem IV3.icoord_updateAll (σ : ℕ → V3 I32) (x : ℕ) (w : V3 I32) (f : Fin 3 → ℤ)
    (h : ∀ j, icoord w j = f j) (y : ℕ) (j : Fin 3) :
    icoord (Function.update σ x w y) j = setAll (fun x => icoord (σ x)) x f y j := by
  unfold setAll
  by_cases hy : y = x
  · subst hy
    simp only [Function.update_self, if_true]
    exact h j
  · simp [hy]

theorem IV3.op_spec (k : IntKind) (v w : V3 I32) :
    IsIntVec (IV3.op k v w) fun i => k.apply (icoord v i) (icoord w i) := by
  have e : IV3.op k v w = V3.macroVV k.op v w := by cases k <;> first | rfl | cases h
  rw [e]
  exact isIntVec_VV3 (isInt_op k) v w

theorem IV3.opS_spec (k : IntKind) (v : V3 I32) (a : I32) :
    IsIntVec (IV3.opS k v a) fun i => k.apply (icoord v i) a.toInt := by
  have e : IV3.opS k v a = V3.macroVS k.op v a := by cases k <;> first | rfl | cases h
  rw [e]
  exact isIntVec_VS3 (isInt_op k) v a

theorem IV3.incDec_eq (k : StepKind) (v : V3 I32) :
    IV3.incDec k v = (do
      let w ← V3.macroVS (fun a _ => k.op a) v v.x
      .ok (w, (V3.ofData fun i => k.pick (coord v i) (coord w i)))) := by
  cases h0 : k.op v.x with
  | ub => cases k <;> simp only [StepKind.op] at h0 <;> simp [IV3.incDec, IV3.preInc, IV3.postInc, IV3.preDec, IV3.postDec, V3.macroVS, StepKind.op, h0]
  | abort => cases k <;> simp only [StepKind.op] at h0 <;> simp [IV3.incDec, IV3.preInc, IV3.postInc, IV3.preDec, IV3.postDec, V3.macroVS, StepKind.op, h0]
  | ok r0 =>
    cases h1 : k.op v.y with
    | ub => cases k <;> simp only [StepKind.op] at h0 h1 <;> simp [IV3.incDec, IV3.preInc, IV3.postInc, IV3.preDec, IV3.postDec, V3.macroVS, StepKind.op, h0, h1]
    | abort => cases k <;> simp only [StepKind.op] at h0 h1 <;> simp [IV3.incDec, IV3.preInc, IV3.postInc, IV3.preDec, IV3.postDec, V3.macroVS, StepKind.op, h0, h1]
    | ok r1 =>
      cases h2 : k.op v.z with
      | ub => cases k <;> simp only [StepKind.op] at h0 h1 h2 <;> simp [IV3.incDec, IV3.preInc, IV3.postInc, IV3.preDec, IV3.postDec, V3.macroVS, StepKind.op, h0, h1, h2]
      | abort => cases k <;> simp only [StepKind.op] at h0 h1 h2 <;> simp [IV3.incDec, IV3.preInc, IV3.postInc, IV3.preDec, IV3.postDec, V3.macroVS, StepKind.op, h0, h1, h2]
      | ok r2 =>
        cases k <;> simp only [StepKind.op] at h0 h1 h2 <;> simp [IV3.incDec, IV3.preInc, IV3.postInc, IV3.preDec, IV3.postDec, V3.macroVS, StepKind.op, StepKind.pick, V3.ofData, h0, h1, h2]

theorem IV3.incDec_spec (k : StepKind) (v : V3 I32) :
    IsIntVec (V3.macroVS (fun a _ => k.op a) v v.x) fun i => k.newInt (icoord v i) :=
  isIntVec_VS3 (spec := fun a _ => k.newInt a) (fun a _ => isInt_step k a) v v.x

theorem IV3.exec_same (b : Build) (c : IvecCmd) (σ : ℕ → V3 I32) :
    SameIntOutcome (IV3.exec b c σ) (intArrayExec c fun x => icoord (σ x)) := by
  cases c with
  | write x i a =>
    simp only [IV3.exec, intArrayExec]
    by_cases h : i.toNat < 3
    · rw [dif_pos h]
      obtain ⟨w, hw, hj⟩ := IV3.set_in b (σ x) i a h
      rw [hw]
      exact ⟨_, _, rfl, rfl, IV3.icoord_update σ x w _ a hj⟩
    · rw [dif_neg h]
      exact Res.bind_ne_ok (IV3.set_out b (σ x) i a h)
  | copyAt x i y j =>
    simp only [IV3.exec, intArrayExec]
    by_cases h2 : j.toNat < 3
    · rw [IV3.at_in b (σ y) j h2]
      simp only [Res.ok_bind]
      by_cases h : i.toNat < 3
      · rw [dif_pos ⟨h, h2⟩]
        obtain ⟨w, hw, hj⟩ := IV3.set_in b (σ x) i (coord (σ y) ⟨j.toNat, h2⟩) h
        rw [hw]
        exact ⟨_, _, rfl, rfl, IV3.icoord_update σ x w _ _ hj⟩
      · rw [dif_neg (fun c => h c.1)]
        exact Res.bind_ne_ok (IV3.set_out b (σ x) i _ h)
    · rw [dif_neg (fun c => h2 c.2)]
      exact Res.bind_ne_ok (IV3.at_out b (σ y) j h2)
  | read x i =>
    simp only [IV3.exec, intArrayExec]
    by_cases h : i.toNat < 3
    · rw [dif_pos h, IV3.at_in b (σ x) i h]
      exact ⟨_, _, rfl, rfl, fun _ _ => rfl⟩
    · rw [dif_neg h]
      exact Res.bind_ne_ok (IV3.at_out b (σ x) i h)
  | readName x l =>
    simp only [IV3.exec, intArrayExec, IV3.lookup_eq, V3.data_icoord]
    by_cases h : letterIndex l < 3
    · simp only [dif_pos h]
      exact ⟨_, _, rfl, rfl, fun _ _ => rfl⟩
    · simp only [dif_neg h]
      exact fun q hq => by cases hq
  | name x l a =>
    simp only [IV3.exec, intArrayExec, IV3.lookup_eq, V3.data_icoord]
    by_cases h : letterIndex l < 3
    · simp only [dif_pos h]
      refine ⟨_, _, rfl, rfl, IV3.icoord_update σ x _ _ _ fun j => ?_⟩
      rw [V3.coord_ofDataI, Acc.assign, Function.update_apply]
    · simp only [dif_neg h]
      exact fun q hq => by cases hq
  | nameOp x l k a =>
    simp only [IV3.exec, intArrayExec, IV3.lookup_eq, V3.data_icoord]
    by_cases h : letterIndex l < 3
    · simp only [dif_pos h, Acc.opI_eq]
      have hk := isInt_op k (coord (σ x) ⟨letterIndex l, h⟩) a
      cases e : k.apply (icoord (σ x) ⟨letterIndex l, h⟩) a.toInt with
      | none =>
        rw [hk.none' e]
        exact fun q hq => by cases hq
      | some z =>
        obtain ⟨r, hr, hz⟩ := hk.some' e
        rw [hr, ← hz]
        refine ⟨_, _, rfl, rfl, IV3.icoord_update σ x _ _ _ fun j => ?_⟩
        rw [V3.coord_ofDataI, Function.update_apply]
    · simp only [dif_neg h]
      exact fun q hq => by cases hq
  | nameStep x l k =>
    simp only [IV3.exec, intArrayExec, IV3.lookup_eq, V3.data_icoord]
    by_cases h : letterIndex l < 3
    · simp only [dif_pos h, Acc.stepI_eq]
      have hk := isInt_step k (coord (σ x) ⟨letterIndex l, h⟩)
      cases e : k.newInt (icoord (σ x) ⟨letterIndex l, h⟩) with
      | none =>
        rw [hk.none' e]
        exact fun q hq => by cases hq
      | some z =>
        obtain ⟨r, hr, hz⟩ := hk.some' e
        rw [hr, ← hz]
        refine ⟨_, _, rfl, ?_, IV3.icoord_update σ x _ _ _ fun j => ?_⟩
        · cases k <;> rfl
        · rw [V3.coord_ofDataI]
          exact Function.update_apply _ _ _ _
    · simp only [dif_neg h]
      exact fun q hq => by cases hq
  | assign x y => exact ⟨_, _, rfl, rfl, IV3.icoord_updateAll σ x _ _ fun _ => rfl⟩
  | vecOp x k y =>
    simp only [IV3.exec, intArrayExec]
    by_cases hon : k.onIvec 3 = true
    · rw [if_pos hon]
      have hk := IV3.op_spec k (σ x) (σ y)
      cases e : allDefined (fun i => k.apply (icoord (σ x) i) (icoord (σ y) i)) with
      | none =>
        rw [hk.2 (allDefined_none e)]
        exact fun q hq => by cases hq
      | some f =>
        obtain ⟨h1, h2⟩ := allDefined_some e
        obtain ⟨w, hw, h3⟩ := hk.1 h1
        rw [hw]
        refine ⟨_, _, rfl, rfl, IV3.icoord_updateAll σ x w f fun j => ?_⟩
        exact Option.some.inj ((h3 j).trans (h2 j))
    · rw [if_neg hon]
      exact absurd (by cases k <;> rfl) hon
  | scalarOp x k a =>
    simp only [IV3.exec, intArrayExec]
    by_cases hon : k.onIvec 3 = true
    · rw [if_pos hon]
      have hk := IV3.opS_spec k (σ x) a
      cases e : allDefined (fun i => k.apply (icoord (σ x) i) a.toInt) with
      | none =>
        rw [hk.2 (allDefined_none e)]
        exact fun q hq => by cases hq
      | some f =>
        obtain ⟨h1, h2⟩ := allDefined_some e
        obtain ⟨w, hw, h3⟩ := hk.1 h1
        rw [hw]
        refine ⟨_, _, rfl, rfl, IV3.icoord_updateAll σ x w f fun j => ?_⟩
        exact Option.some.inj ((h3 j).trans (h2 j))
    · rw [if_neg hon]
      exact absurd (by cases k <;> rfl) hon
  | step x k =>
    simp only [IV3.exec, intArrayExec, IV3.incDec_eq]
    have hk := IV3.incDec_spec k (σ x)
    cases e : allDefined (fun i => k.newInt (icoord (σ x) i)) with
    | none =>
      rw [hk.2 (allDefined_none e)]
      exact fun q hq => by cases hq
    | some f =>
      obtain ⟨h1, h2⟩ := allDefined_some e
      obtain ⟨w, hw, h3⟩ := hk.1 h1
      rw [hw]
      have hf : f = fun j => icoord w j := by
        funext j
        exact (Option.some.inj ((h3 j).trans (h2 j))).symm
      subst hf
      refine ⟨_, _, rfl, ?_, IV3.icoord_updateAll σ x w _ fun j => rfl⟩
      cases k <;> rfl

theorem IV4.lookup_eq (l : Letter) :
    IV4.scalars.lookup l = if h : letterIndex l < 4 then some ⟨letterIndex l, h⟩ else none := by
  cases l <;> rfl

theorem V4.data_icoord (v : V4 I32) : v.data = coord v := by
  funext j; fin_cases j <;> rfl

theorem V4.coord_ofDataI (f : Fin 4 → I32) : coord (V4.ofData f) = f := by
  funext j; fin_cases j <;> rfl

theorem IV4.at_in (b : Build) (v : V4 I32) (i : UInt32) (h : i.toNat < 4) :
    IV4.at b v i = .ok (coord v ⟨i.toNat, h⟩) := by
  have hi : i = UInt32.ofNat i.toNat := by simp
  generalize i.toNat = k at h hi
  subst hi
  interval_cases k <;> cases b <;> rfl

theorem IV4.at_out (b : Build) (v : V4 I32) (i : UInt32) (h : ¬ i.toNat < 4) (a : I32) :
    IV4.at b v i ≠ .ok a := by
  intro e
  unfold IV4.at at e
  rw [cassert_ok_iff] at e
  obtain ⟨_, e⟩ := e
  split at e <;> first | omega | cases e

theorem IV4.set_in (b : Build) (v : V4 I32) (i : UInt32) (a : I32) (h : i.toNat < 4) :
    ∃ w, IV4.set b v i a = .ok w ∧ ∀ j, coord w j = if j = ⟨i.toNat, h⟩ then a else coord v j := by
  have hi : i = UInt32.ofNat i.toNat := by simp
  generalize i.toNat = k at h hi
  subst hi
  interval_cases k <;> cases b <;> exact ⟨_, rfl, fun j => by fin_cases j <;> rfl⟩

theorem IV4.set_out (b : Build) (v : V4 I32) (i : UInt32) (a : I32) (h : ¬ i.toNat < 4) (w : V4 I32) :
    IV4.set b v i a ≠ .ok w := by
  intro e
  unfold IV4.set at e
  rw [cassert_ok_iff] at e
  obtain ⟨_, e⟩ := e
  split at e <;> first | omega | cases e

theorem IV4.icoord_update (σ : ℕ → V4 I32) (x : ℕ) (w : V4 I32) (i : Fin 4) (a : I32)
    (h : ∀ j, coord w j = if j = i then a else coord (σ x) j) (y : ℕ) (j : Fin 4) :
    icoord (Function.update σ x w y) j = setCell (fun x => icoord (σ x)) x i a.toInt y j := by
  unfold setCell icoord
  by_cases hy : y = x
  · subst hy
    simp only [Function.update_self, true_and]
    rw [h j]
    split <;> rfl
  · simp [hy]

theorem IV4.icoord_updateAll (σ : ℕ → V4 I32) (x : ℕ) (w : V4 I32) (f : Fin 4 → ℤ)
    (h : ∀ j, icoord w j = f j) (y : ℕ) (j : Fin 4) :
    icoord (Function.update σ x w y) j = setAll (fun x => icoord (σ x)) x f y j := by
  unfold setAll
  by_cases hy : y = x
  · subst hy
    simp only [Function.update_self, if_true]
    exact h j
  · simp [hy]

theorem IV4.op_spec (k : IntKind) (h : k.onIvec 4 = true) (v w : V4 I32) :
    IsIntVec (IV4.op k v w) fun i => k.apply (icoord v i) (icoord w i) := by
  have e : IV4.op k v w = V4.macroVV k.op v w := by cases k <;> first | rfl | cases h
  rw [e]
  exact isIntVec_VV4 (isInt_op k) v w

theorem IV4.opS_spec (k : IntKind) (h : k.onIvec 4 = true) (v : V4 I32) (a : I32) :
    IsIntVec (IV4.opS k v a) fun i => k.apply (icoord v i) a.toInt := by
  have e : IV4.opS k v a = V4.macroVS k.op v a := by cases k <;> first | rfl | cases h
  rw [e]
  exact isIntVec_VS4 (isInt_op k) v a

theorem IV4.incDec_eq (k : StepKind) (v : V4 I32) :
    IV4.incDec k v = (do
      let w ← V4.macroVS (fun a _ => k.op a) v v.x
      .ok (w, (V4.ofData fun i => k.pick (coord v i) (coord w i)))) := by
  cases h0 : k.op v.x with
  | ub => cases k <;> simp only [StepKind.op] at h0 <;> simp [IV4.incDec, IV4.preInc, IV4.postInc, IV4.preDec, IV4.postDec, V4.macroVS, StepKind.op, h0]
  | abort => cases k <;> simp only [StepKind.op] at h0 <;> simp [IV4.incDec, IV4.preInc, IV4.postInc, IV4.preDec, IV4.postDec, V4.macroVS, StepKind.op, h0]
  | ok r0 =>
    cases h1 : k.op v.y with
    | ub => cases k <;> simp only [StepKind.op] at h0 h1 <;> simp [IV4.incDec, IV4.preInc, IV4.postInc, IV4.preDec, IV4.postDec, V4.macroVS, StepKind.op, h0, h1]
    | abort => cases k <;> simp only [StepKind.op] at h0 h1 <;> simp [IV4.incDec, IV4.preInc, IV4.postInc, IV4.preDec, IV4.postDec, V4.macroVS, StepKind.op, h0, h1]
    | ok r1 =>
      cases h2 : k.op v.z with
      | ub => cases k <;> simp only [StepKind.op] at h0 h1 h2 <;> simp [IV4.incDec, IV4.preInc, IV4.postInc, IV4.preDec, IV4.postDec, V4.macroVS, StepKind.op, h0, h1, h2]
      | abort => cases k <;> simp only [StepKind.op] at h0 h1 h2 <;> simp [IV4.incDec, IV4.preInc, IV4.postInc, IV4.preDec, IV4.postDec, V4.macroVS, StepKind.op, h0, h1, h2]
      | ok r2 =>
        cases h3 : k.op v.w with
        | ub => cases k <;> simp only [StepKind.op] at h0 h1 h2 h3 <;> simp [IV4.incDec, IV4.preInc, IV4.postInc, IV4.preDec, IV4.postDec, V4.macroVS, StepKind.op, h0, h1, h2, h3]
        | abort => cases k <;> simp only [StepKind.op] at h0 h1 h2 h3 <;> simp [IV4.incDec, IV4.preInc, IV4.postInc, IV4.preDec, IV4.postDec, V4.macroVS, StepKind.op, h0, h1, h2, h3]
        | ok r3 =>
          cases k <;> simp only [StepKind.op] at h0 h1 h2 h3 <;> simp [IV4.incDec, IV4.preInc, IV4.postInc, IV4.preDec, IV4.postDec, V4.macroVS, StepKind.op, StepKind.pick, V4.ofData, h0, h1, h2, h3]

theorem IV4.incDec_spec (k : StepKind) (v : V4 I32) :
    IsIntVec (V4.macroVS (fun a _ => k.op a) v v.x) fun i => k.newInt (icoord v i) :=
  isIntVec_VS4 (spec := fun a _ => k.newInt a) (fun a _ => isInt_step k a) v v.x

theorem IV4.exec_same (b : Build) (c : IvecCmd) (σ : ℕ → V4 I32) :
    SameIntOutcome (IV4.exec b c σ) (intArrayExec c fun x => icoord (σ x)) := by
  cases c with
  | write x i a =>
    simp only [IV4.exec, intArrayExec]
    by_cases h : i.toNat < 4
    · rw [dif_pos h]
      obtain ⟨w, hw, hj⟩ := IV4.set_in b (σ x) i a h
      rw [hw]
      exact ⟨_, _, rfl, rfl, IV4.icoord_update σ x w _ a hj⟩
    · rw [dif_neg h]
      exact Res.bind_ne_ok (IV4.set_out b (σ x) i a h)
  | copyAt x i y j =>
    simp only [IV4.exec, intArrayExec]
    by_cases h2 : j.toNat < 4
    · rw [IV4.at_in b (σ y) j h2]
      simp only [Res.ok_bind]
      by_cases h : i.toNat < 4
      · rw [dif_pos ⟨h, h2⟩]
        obtain ⟨w, hw, hj⟩ := IV4.set_in b (σ x) i (coord (σ y) ⟨j.toNat, h2⟩) h
        rw [hw]
        exact ⟨_, _, rfl, rfl, IV4.icoord_update σ x w _ _ hj⟩
      · rw [dif_neg (fun c => h c.1)]
        exact Res.bind_ne_ok (IV4.set_out b (σ x) i _ h)
    · rw [dif_neg (fun c => h2 c.2)]
      exact Res.bind_ne_ok (IV4.at_out b (σ y) j h2)
  | read x i =>
    simp only [IV4.exec, intArrayExec]
    by_cases h : i.toNat < 4
    · rw [dif_pos h, IV4.at_in b (σ x) i h]
      exact ⟨_, _, rfl, rfl, fun _ _ => rfl⟩
    · rw [dif_neg h]
      exact Res.bind_ne_ok (IV4.at_out b (σ x) i h)
  | readName x l =>
    simp only [IV4.exec, intArrayExec, IV4.lookup_eq, V4.data_icoord]
    by_cases h : letterIndex l < 4
    · simp only [dif_pos h]
      exact ⟨_, _, rfl, rfl, fun _ _ => rfl⟩
    · simp only [dif_neg h]
      exact fun q hq => by cases hq
  | name x l a =>
    simp only [IV4.exec, intArrayExec, IV4.lookup_eq, V4.data_icoord]
    by_cases h : letterIndex l < 4
    · simp only [dif_pos h]
      refine ⟨_, _, rfl, rfl, IV4.icoord_update σ x _ _ _ fun j => ?_⟩
      rw [V4.coord_ofDataI, Acc.assign, Function.update_apply]
    · simp only [dif_neg h]
      exact fun q hq => by cases hq
  | nameOp x l k a =>
    simp only [IV4.exec, intArrayExec, IV4.lookup_eq, V4.data_icoord]
    by_cases h : letterIndex l < 4
    · simp only [dif_pos h, Acc.opI_eq]
      have hk := isInt_op k (coord (σ x) ⟨letterIndex l, h⟩) a
      cases e : k.apply (icoord (σ x) ⟨letterIndex l, h⟩) a.toInt with
      | none =>
        rw [hk.none' e]
        exact fun q hq => by cases hq
      | some z =>
        obtain ⟨r, hr, hz⟩ := hk.some' e
        rw [hr, ← hz]
        refine ⟨_, _, rfl, rfl, IV4.icoord_update σ x _ _ _ fun j => ?_⟩
        rw [V4.coord_ofDataI, Function.update_apply]
    · simp only [dif_neg h]
      exact fun q hq => by cases hq
  | nameStep x l k =>
    simp only [IV4.exec, intArrayExec, IV4.lookup_eq, V4.data_icoord]
    by_cases h : letterIndex l < 4
    · simp only [dif_pos h, Acc.stepI_eq]
      have hk := isInt_step k (coord (σ x) ⟨letterIndex l, h⟩)
      cases e : k.newInt (icoord (σ x) ⟨letterIndex l, h⟩) with
      | none =>
        rw [hk.none' e]
        exact fun q hq => by cases hq
      | some z =>
        obtain ⟨r, hr, hz⟩ := hk.some' e
        rw [hr, ← hz]
        refine ⟨_, _, rfl, ?_, IV4.icoord_update σ x _ _ _ fun j => ?_⟩
        · cases k <;> rfl
        · rw [V4.coord_ofDataI]
          exact Function.update_apply _ _ _ _
    · simp only [dif_neg h]
      exact fun q hq => by cases hq
  | assign x y => exact ⟨_, _, rfl, rfl, IV4.icoord_updateAll σ x _ _ fun _ => rfl⟩
  | vecOp x k y =>
    simp only [IV4.exec, intArrayExec]
    by_cases hon : k.onIvec 4 = true
    · rw [if_pos hon]
      have hk := IV4.op_spec k hon (σ x) (σ y)
      cases e : allDefined (fun i => k.apply (icoord (σ x) i) (icoord (σ y) i)) with
      | none =>
        rw [hk.2 (allDefined_none e)]
        exact fun q hq => by cases hq
      | some f =>
        obtain ⟨h1, h2⟩ := allDefined_some e
        obtain ⟨w, hw, h3⟩ := hk.1 h1
        rw [hw]
        refine ⟨_, _, rfl, rfl, IV4.icoord_updateAll σ x w f fun j => ?_⟩
        exact Option.some.inj ((h3 j).trans (h2 j))
    · rw [if_neg hon]
      cases k <;> first | exact absurd rfl hon | exact fun q hq => by cases hq
  | scalarOp x k a =>
    simp only [IV4.exec, intArrayExec]
    by_cases hon : k.onIvec 4 = true
    · rw [if_pos hon]
      have hk := IV4.opS_spec k hon (σ x) a
      cases e : allDefined (fun i => k.apply (icoord (σ x) i) a.toInt) with
      | none =>
        rw [hk.2 (allDefined_none e)]
        exact fun q hq => by cases hq
      | some f =>
        obtain ⟨h1, h2⟩ := allDefined_some e
        obtain ⟨w, hw, h3⟩ := hk.1 h1
        rw [hw]
        refine ⟨_, _, rfl, rfl, IV4.icoord_updateAll σ x w f fun j => ?_⟩
        exact Option.some.inj ((h3 j).trans (h2 j))
    · rw [if_neg hon]
      cases k <;> first | exact absurd rfl hon | exact fun q hq => by cases hq
  | step x k =>
    simp only [IV4.exec, intArrayExec, IV4.incDec_eq]
    have hk := IV4.incDec_spec k (σ x)
    cases e : allDefined (fun i => k.newInt (icoord (σ x) i)) with
    | none =>
      rw [hk.2 (allDefined_none e)]
      exact fun q hq => by cases hq
    | some f =>
      obtain ⟨h1, h2⟩ := allDefined_some e
      obtain ⟨w, hw, h3⟩ := hk.1 h1
      rw [hw]
      have hf : f = fun j => icoord w j := by
        funext j
        exact (Option.some.inj ((h3 j).trans (h2 j))).symm
      subst hf
      refine ⟨_, _, rfl, ?_, IV4.icoord_updateAll σ x w _ fun j => rfl⟩
      cases k <;> rfl

end Zcm
