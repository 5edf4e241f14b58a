import Verif.Spec.Builds
import Verif.Model.HistoryInt
import Verif.Model.HistoryMat
import Verif.Model.MatrixTransform
import Verif.Model.IVec
import Verif.Lemmas.F32Proj
import Verif.Props.C85

/-!
# C127: assertions only stop a program, they never change what it computes

For every program of statements on the variables of one type, with any indices, and for every function that asserts.
`C127_perspective` and `C127_lerp` say in IEEE arithmetic for exactly which arguments a debug build stops, NaN included.
-/

namespace Zcm

variable {α : Type} [Add α] [Sub α] [Mul α] [Div α] [Neg α] [FloatOps α] [Libm α]

theorem BuildsAgree.ok {β : Type} (a : β) : BuildsAgree fun _ => Res.ok a := ⟨nofun, Or.inr rfl⟩

theorem BuildsAgree.pure {β : Type} (a : β) : BuildsAgree fun _ => (Pure.pure a : Res β) := ⟨nofun, Or.inr rfl⟩

theorem BuildsAgree.ub {β : Type} : BuildsAgree fun _ => (Res.ub : Res β) := ⟨nofun, Or.inr rfl⟩

theorem BuildsAgree.assert (c : Bool) : BuildsAgree fun b => cassert b c := by
  refine ⟨nofun, ?_⟩
  cases c
  · exact Or.inl rfl
  · exact Or.inr rfl

theorem BuildsAgree.then {β γ : Type} {f : Build → Res β} {g : β → Build → Res γ} (hf : BuildsAgree f)
    (hg : ∀ a, BuildsAgree (g a)) : BuildsAgree fun b => f b >>= fun a => g a b := by
  obtain ⟨h1, h2⟩ := hf
  unfold BuildsAgree
  rcases h2 with h | h
  · dsimp only
    refine ⟨?_, Or.inl (by rw [h]; rfl)⟩
    rcases hr : f .release with a | _ | _
    · exact (hg a).1
    · exact absurd hr h1
    · nofun
  · dsimp only
    rw [h]
    rcases hr : f .release with a | _ | _
    · exact hg a
    · exact absurd hr h1
    · exact ⟨nofun, Or.inr rfl⟩

theorem V2.at_builds (v : V2 α) (i : UInt32) : BuildsAgree fun b => V2.at b v i := by
  unfold V2.at
  refine BuildsAgree.then (BuildsAgree.assert _) fun _ => ?_
  repeat' split
  all_goals first | exact BuildsAgree.ok _ | exact BuildsAgree.ub

theorem V2.set_builds (v : V2 α) (i : UInt32) (a : α) : BuildsAgree fun b => V2.set b v i a := by
  unfold V2.set
  refine BuildsAgree.then (BuildsAgree.assert _) fun _ => ?_
  repeat' split
  all_goals first | exact BuildsAgree.ok _ | exact BuildsAgree.ub

theorem IV2.at_builds (v : V2 I32) (i : UInt32) : BuildsAgree fun b => IV2.at b v i := by
  unfold IV2.at
  refine BuildsAgree.then (BuildsAgree.assert _) fun _ => ?_
  repeat' split
  all_goals first | exact BuildsAgree.ok _ | exact BuildsAgree.ub

theorem IV2.set_builds (v : V2 I32) (i : UInt32) (a : I32) : BuildsAgree fun b => IV2.set b v i a := by
  unfold IV2.set
  refine BuildsAgree.then (BuildsAgree.assert _) fun _ => ?_
  repeat' split
  all_goals first | exact BuildsAgree.ok _ | exact BuildsAgree.ub

theorem BV2.at_builds (v : V2 Bool) (i : UInt32) : BuildsAgree fun b => BV2.at b v i := by
  unfold BV2.at
  refine BuildsAgree.then (BuildsAgree.assert _) fun _ => ?_
  repeat' split
  all_goals exact BuildsAgree.ok _

theorem BV2.set_builds (v : V2 Bool) (i : UInt32) (a : Bool) : BuildsAgree fun b => BV2.set b v i a := by
  unfold BV2.set
  refine BuildsAgree.then (BuildsAgree.assert _) fun _ => ?_
  repeat' split
  all_goals exact BuildsAgree.ok _

theorem M2.at_builds (v : M2 α) (i : UInt32) : BuildsAgree fun b => M2.at b v i := by
  unfold M2.at
  refine BuildsAgree.then (BuildsAgree.assert _) fun _ => ?_
  repeat' split
  all_goals first | exact BuildsAgree.ok _ | exact BuildsAgree.ub

theorem M2.set_builds (v : M2 α) (i : UInt32) (a : V2 α) : BuildsAgree fun b => M2.set b v i a := by
  unfold M2.set
  refine BuildsAgree.then (BuildsAgree.assert _) fun _ => ?_
  repeat' split
  all_goals first | exact BuildsAgree.ok _ | exact BuildsAgree.ub

theorem V3.at_builds (v : V3 α) (i : UInt32) : BuildsAgree fun b => V3.at b v i := by
  unfold V3.at
  refine BuildsAgree.then (BuildsAgree.assert _) fun _ => ?_
  repeat' split
  all_goals first | exact BuildsAgree.ok _ | exact BuildsAgree.ub

theorem V3.set_builds (v : V3 α) (i : UInt32) (a : α) : BuildsAgree fun b => V3.set b v i a := by
  unfold V3.set
  refine BuildsAgree.then (BuildsAgree.assert _) fun _ => ?_
  repeat' split
  all_goals first | exact BuildsAgree.ok _ | exact BuildsAgree.ub

theorem IV3.at_builds (v : V3 I32) (i : UInt32) : BuildsAgree fun b => IV3.at b v i := by
  unfold IV3.at
  refine BuildsAgree.then (BuildsAgree.assert _) fun _ => ?_
  repeat' split
  all_goals first | exact BuildsAgree.ok _ | exact BuildsAgree.ub

theorem IV3.set_builds (v : V3 I32) (i : UInt32) (a : I32) : BuildsAgree fun b => IV3.set b v i a := by
  unfold IV3.set
  refine BuildsAgree.then (BuildsAgree.assert _) fun _ => ?_
  repeat' split
  all_goals first | exact BuildsAgree.ok _ | exact BuildsAgree.ub

theorem BV3.at_builds (v : V3 Bool) (i : UInt32) : BuildsAgree fun b => BV3.at b v i := by
  unfold BV3.at
  refine BuildsAgree.then (BuildsAgree.assert _) fun _ => ?_
  repeat' split
  all_goals exact BuildsAgree.ok _

theorem BV3.set_builds (v : V3 Bool) (i : UInt32) (a : Bool) : BuildsAgree fun b => BV3.set b v i a := by
  unfold BV3.set
  refine BuildsAgree.then (BuildsAgree.assert _) fun _ => ?_
  repeat' split
  all_goals exact BuildsAgree.ok _

theorem M3.at_builds (v : M3 α) (i : UInt32) : BuildsAgree fun b => M3.at b v i := by
  unfold M3.at
  refine BuildsAgree.then (BuildsAgree.assert _) fun _ => ?_
  repeat' split
  all_goals first | exact BuildsAgree.ok _ | exact BuildsAgree.ub

theorem M3.set_builds (v : M3 α) (i : UInt32) (a : V3 α) : BuildsAgree fun b => M3.set b v i a := by
  unfold M3.set
  refine BuildsAgree.then (BuildsAgree.assert _) fun _ => ?_
  repeat' split
  all_goals first | exact BuildsAgree.ok _ | exact BuildsAgree.ub

theorem V4.at_builds (v : V4 α) (i : UInt32) : BuildsAgree fun b => V4.at b v i := by
  unfold V4.at
  refine BuildsAgree.then (BuildsAgree.assert _) fun _ => ?_
  repeat' split
  all_goals first | exact BuildsAgree.ok _ | exact BuildsAgree.ub

theorem V4.set_builds (v : V4 α) (i : UInt32) (a : α) : BuildsAgree fun b => V4.set b v i a := by
  unfold V4.set
  refine BuildsAgree.then (BuildsAgree.assert _) fun _ => ?_
  repeat' split
  all_goals first | exact BuildsAgree.ok _ | exact BuildsAgree.ub

theorem IV4.at_builds (v : V4 I32) (i : UInt32) : BuildsAgree fun b => IV4.at b v i := by
  unfold IV4.at
  refine BuildsAgree.then (BuildsAgree.assert _) fun _ => ?_
  repeat' split
  all_goals first | exact BuildsAgree.ok _ | exact BuildsAgree.ub

theorem IV4.set_builds (v : V4 I32) (i : UInt32) (a : I32) : BuildsAgree fun b => IV4.set b v i a := by
  unfold IV4.set
  refine BuildsAgree.then (BuildsAgree.assert _) fun _ => ?_
  repeat' split
  all_goals first | exact BuildsAgree.ok _ | exact BuildsAgree.ub

theorem BV4.at_builds (v : V4 Bool) (i : UInt32) : BuildsAgree fun b => BV4.at b v i := by
  unfold BV4.at
  refine BuildsAgree.then (BuildsAgree.assert _) fun _ => ?_
  repeat' split
  all_goals exact BuildsAgree.ok _

theorem BV4.set_builds (v : V4 Bool) (i : UInt32) (a : Bool) : BuildsAgree fun b => BV4.set b v i a := by
  unfold BV4.set
  refine BuildsAgree.then (BuildsAgree.assert _) fun _ => ?_
  repeat' split
  all_goals exact BuildsAgree.ok _

theorem M4.at_builds (v : M4 α) (i : UInt32) : BuildsAgree fun b => M4.at b v i := by
  unfold M4.at
  refine BuildsAgree.then (BuildsAgree.assert _) fun _ => ?_
  repeat' split
  all_goals first | exact BuildsAgree.ok _ | exact BuildsAgree.ub

theorem M4.set_builds (v : M4 α) (i : UInt32) (a : V4 α) : BuildsAgree fun b => M4.set b v i a := by
  unfold M4.set
  refine BuildsAgree.then (BuildsAgree.assert _) fun _ => ?_
  repeat' split
  all_goals first | exact BuildsAgree.ok _ | exact BuildsAgree.ub

theorem Quat.at_builds (v : Quat α) (i : UInt32) : BuildsAgree fun b => Quat.at b v i := by
  unfold Quat.at
  refine BuildsAgree.then (BuildsAgree.assert _) fun _ => ?_
  repeat' split
  all_goals exact BuildsAgree.ok _

theorem Quat.set_builds (v : Quat α) (i : UInt32) (a : α) : BuildsAgree fun b => Quat.set b v i a := by
  unfold Quat.set
  refine BuildsAgree.then (BuildsAgree.assert _) fun _ => ?_
  repeat' split
  all_goals exact BuildsAgree.ok _

theorem M2.entry_builds (m : M2 α) (i j : UInt32) : BuildsAgree fun b => M2.entry b m i j := by
  unfold M2.entry
  exact BuildsAgree.then (M2.at_builds _ _) fun _ => V2.at_builds _ _

theorem M2.setEntry_builds (m : M2 α) (i j : UInt32) (a : α) : BuildsAgree fun b => M2.setEntry b m i j a := by
  unfold M2.setEntry
  exact BuildsAgree.then (M2.at_builds _ _) fun _ => BuildsAgree.then (V2.set_builds _ _ _) fun _ => M2.set_builds _ _ _

theorem M3.entry_builds (m : M3 α) (i j : UInt32) : BuildsAgree fun b => M3.entry b m i j := by
  unfold M3.entry
  exact BuildsAgree.then (M3.at_builds _ _) fun _ => V3.at_builds _ _

theorem M3.setEntry_builds (m : M3 α) (i j : UInt32) (a : α) : BuildsAgree fun b => M3.setEntry b m i j a := by
  unfold M3.setEntry
  exact BuildsAgree.then (M3.at_builds _ _) fun _ => BuildsAgree.then (V3.set_builds _ _ _) fun _ => M3.set_builds _ _ _

theorem M4.entry_builds (m : M4 α) (i j : UInt32) : BuildsAgree fun b => M4.entry b m i j := by
  unfold M4.entry
  exact BuildsAgree.then (M4.at_builds _ _) fun _ => V4.at_builds _ _

theorem M4.setEntry_builds (m : M4 α) (i j : UInt32) (a : α) : BuildsAgree fun b => M4.setEntry b m i j a := by
  unfold M4.setEntry
  exact BuildsAgree.then (M4.at_builds _ _) fun _ => BuildsAgree.then (V4.set_builds _ _ _) fun _ => M4.set_builds _ _ _

theorem I32.add_builds (a b : I32) : BuildsAgree fun _ => I32.add a b := by
  simp only [I32.add, I32.ofInt?]
  repeat' first | exact BuildsAgree.ok _ | exact BuildsAgree.ub | refine BuildsAgree.then ?_ fun _ => ?_ | split

theorem I32.sub_builds (a b : I32) : BuildsAgree fun _ => I32.sub a b := by
  simp only [I32.sub, I32.ofInt?]
  repeat' first | exact BuildsAgree.ok _ | exact BuildsAgree.ub | refine BuildsAgree.then ?_ fun _ => ?_ | split

theorem I32.mul_builds (a b : I32) : BuildsAgree fun _ => I32.mul a b := by
  simp only [I32.mul, I32.ofInt?]
  repeat' first | exact BuildsAgree.ok _ | exact BuildsAgree.ub | refine BuildsAgree.then ?_ fun _ => ?_ | split

theorem I32.div_builds (a b : I32) : BuildsAgree fun _ => I32.div a b := by
  simp only [I32.div, I32.ofInt?]
  repeat' first | exact BuildsAgree.ok _ | exact BuildsAgree.ub | refine BuildsAgree.then ?_ fun _ => ?_ | split

theorem I32.mod_builds (a b : I32) : BuildsAgree fun _ => I32.mod a b := by
  simp only [I32.mod, I32.ofInt?]
  repeat' first | exact BuildsAgree.ok _ | exact BuildsAgree.ub | refine BuildsAgree.then ?_ fun _ => ?_ | split

theorem I32.shl_builds (a b : I32) : BuildsAgree fun _ => I32.shl a b := by
  simp only [I32.shl]
  repeat' first | exact BuildsAgree.ok _ | exact BuildsAgree.ub | refine BuildsAgree.then ?_ fun _ => ?_ | split

theorem I32.shr_builds (a b : I32) : BuildsAgree fun _ => I32.shr a b := by
  simp only [I32.shr]
  repeat' first | exact BuildsAgree.ok _ | exact BuildsAgree.ub | refine BuildsAgree.then ?_ fun _ => ?_ | split

theorem V2.macroCV_builds {op : I32 → I32 → Res I32} (h : ∀ a b, BuildsAgree fun _ => op a b) (v : V2 I32)
    (w : V2 I32) : BuildsAgree fun _ => V2.macroCV op v w := by
  unfold V2.macroCV
  exact BuildsAgree.then (h _ _) fun _ => BuildsAgree.then (h _ _) fun _ => BuildsAgree.pure _

theorem V2.macroCS_builds {op : I32 → I32 → Res I32} (h : ∀ a b, BuildsAgree fun _ => op a b) (v : V2 I32)
    (s : I32) : BuildsAgree fun _ => V2.macroCS op v s := by
  unfold V2.macroCS
  exact BuildsAgree.then (h _ _) fun _ => BuildsAgree.then (h _ _) fun _ => BuildsAgree.pure _

theorem V3.macroCV_builds {op : I32 → I32 → Res I32} (h : ∀ a b, BuildsAgree fun _ => op a b) (v : V3 I32)
    (w : V3 I32) : BuildsAgree fun _ => V3.macroCV op v w := by
  unfold V3.macroCV
  exact BuildsAgree.then (h _ _) fun _ => BuildsAgree.then (h _ _) fun _ => BuildsAgree.then (h _ _) fun _ => BuildsAgree.pure _

theorem V3.macroCS_builds {op : I32 → I32 → Res I32} (h : ∀ a b, BuildsAgree fun _ => op a b) (v : V3 I32)
    (s : I32) : BuildsAgree fun _ => V3.macroCS op v s := by
  unfold V3.macroCS
  exact BuildsAgree.then (h _ _) fun _ => BuildsAgree.then (h _ _) fun _ => BuildsAgree.then (h _ _) fun _ => BuildsAgree.pure _

theorem V4.macroCV_builds {op : I32 → I32 → Res I32} (h : ∀ a b, BuildsAgree fun _ => op a b) (v : V4 I32)
    (w : V4 I32) : BuildsAgree fun _ => V4.macroCV op v w := by
  unfold V4.macroCV
  exact BuildsAgree.then (h _ _) fun _ => BuildsAgree.then (h _ _) fun _ => BuildsAgree.then (h _ _) fun _ => BuildsAgree.then (h _ _) fun _ => BuildsAgree.pure _

theorem V4.macroCS_builds {op : I32 → I32 → Res I32} (h : ∀ a b, BuildsAgree fun _ => op a b) (v : V4 I32)
    (s : I32) : BuildsAgree fun _ => V4.macroCS op v s := by
  unfold V4.macroCS
  exact BuildsAgree.then (h _ _) fun _ => BuildsAgree.then (h _ _) fun _ => BuildsAgree.then (h _ _) fun _ => BuildsAgree.then (h _ _) fun _ => BuildsAgree.pure _

theorem Acc.opI_builds {n : ℕ} (k : IntKind) (d : Fin n → I32) (i : Fin n) (a : I32) : BuildsAgree fun _ => Acc.opI k d i a := by
  cases k <;> simp only [Acc.opI, Acc.addAssignI, Acc.subAssignI, Acc.mulAssignI, Acc.divAssignI, Acc.modAssignI, Acc.shlAssignI, Acc.shrAssignI] <;> repeat' first
    | exact BuildsAgree.ok _
    | exact BuildsAgree.pure _
    | exact I32.add_builds _ _ | exact I32.sub_builds _ _ | exact I32.mul_builds _ _ | exact I32.div_builds _ _ | exact I32.mod_builds _ _ | exact I32.shl_builds _ _ | exact I32.shr_builds _ _
    | refine BuildsAgree.then ?_ fun _ => ?_

theorem Acc.stepI_builds {n : ℕ} (k : StepKind) (d : Fin n → I32) (i : Fin n) : BuildsAgree fun _ => Acc.stepI k d i := by
  cases k <;> simp only [Acc.stepI, Acc.preIncI, Acc.postIncI, Acc.preDecI, Acc.postDecI] <;> repeat' first
    | exact BuildsAgree.ok _
    | exact BuildsAgree.pure _
    | exact I32.add_builds _ _ | exact I32.sub_builds _ _ | exact I32.mul_builds _ _ | exact I32.div_builds _ _ | exact I32.mod_builds _ _ | exact I32.shl_builds _ _ | exact I32.shr_builds _ _
    | refine BuildsAgree.then ?_ fun _ => ?_

theorem IV2.op_builds (k : IntKind) (v w : V2 I32) : BuildsAgree fun _ => IV2.op k v w := by
  cases k
  · exact V2.macroCV_builds I32.add_builds _ _
  · exact V2.macroCV_builds I32.sub_builds _ _
  · exact V2.macroCV_builds I32.mul_builds _ _
  · exact V2.macroCV_builds I32.div_builds _ _
  · exact V2.macroCV_builds I32.mod_builds _ _
  · exact V2.macroCV_builds I32.shl_builds _ _
  · exact V2.macroCV_builds I32.shr_builds _ _

theorem IV2.opS_builds (k : IntKind) (v : V2 I32) (a : I32) : BuildsAgree fun _ => IV2.opS k v a := by
  cases k
  · exact V2.macroCS_builds I32.add_builds _ _
  · exact V2.macroCS_builds I32.sub_builds _ _
  · exact V2.macroCS_builds I32.mul_builds _ _
  · exact V2.macroCS_builds I32.div_builds _ _
  · exact V2.macroCS_builds I32.mod_builds _ _
  · exact V2.macroCS_builds I32.shl_builds _ _
  · exact V2.macroCS_builds I32.shr_builds _ _

theorem IV2.incDec_builds (k : StepKind) (v : V2 I32) : BuildsAgree fun _ => IV2.incDec k v := by
  cases k
  · exact BuildsAgree.then (I32.add_builds _ _) fun _ => BuildsAgree.then (I32.add_builds _ _) fun _ => BuildsAgree.pure _
  · exact BuildsAgree.then (I32.add_builds _ _) fun _ => BuildsAgree.then (I32.add_builds _ _) fun _ => BuildsAgree.pure _
  · exact BuildsAgree.then (I32.sub_builds _ _) fun _ => BuildsAgree.then (I32.sub_builds _ _) fun _ => BuildsAgree.pure _
  · exact BuildsAgree.then (I32.sub_builds _ _) fun _ => BuildsAgree.then (I32.sub_builds _ _) fun _ => BuildsAgree.pure _

theorem IV3.op_builds (k : IntKind) (v w : V3 I32) : BuildsAgree fun _ => IV3.op k v w := by
  cases k
  · exact V3.macroCV_builds I32.add_builds _ _
  · exact V3.macroCV_builds I32.sub_builds _ _
  · exact V3.macroCV_builds I32.mul_builds _ _
  · exact V3.macroCV_builds I32.div_builds _ _
  · exact V3.macroCV_builds I32.mod_builds _ _
  · exact V3.macroCV_builds I32.shl_builds _ _
  · exact V3.macroCV_builds I32.shr_builds _ _

theorem IV3.opS_builds (k : IntKind) (v : V3 I32) (a : I32) : BuildsAgree fun _ => IV3.opS k v a := by
  cases k
  · exact V3.macroCS_builds I32.add_builds _ _
  · exact V3.macroCS_builds I32.sub_builds _ _
  · exact V3.macroCS_builds I32.mul_builds _ _
  · exact V3.macroCS_builds I32.div_builds _ _
  · exact V3.macroCS_builds I32.mod_builds _ _
  · exact V3.macroCS_builds I32.shl_builds _ _
  · exact V3.macroCS_builds I32.shr_builds _ _

theorem IV3.incDec_builds (k : StepKind) (v : V3 I32) : BuildsAgree fun _ => IV3.incDec k v := by
  cases k
  · exact BuildsAgree.then (I32.add_builds _ _) fun _ => BuildsAgree.then (I32.add_builds _ _) fun _ => BuildsAgree.then (I32.add_builds _ _) fun _ => BuildsAgree.pure _
  · exact BuildsAgree.then (I32.add_builds _ _) fun _ => BuildsAgree.then (I32.add_builds _ _) fun _ => BuildsAgree.then (I32.add_builds _ _) fun _ => BuildsAgree.pure _
  · exact BuildsAgree.then (I32.sub_builds _ _) fun _ => BuildsAgree.then (I32.sub_builds _ _) fun _ => BuildsAgree.then (I32.sub_builds _ _) fun _ => BuildsAgree.pure _
  · exact BuildsAgree.then (I32.sub_builds _ _) fun _ => BuildsAgree.then (I32.sub_builds _ _) fun _ => BuildsAgree.then (I32.sub_builds _ _) fun _ => BuildsAgree.pure _

theorem IV4.op_builds (k : IntKind) (v w : V4 I32) : BuildsAgree fun _ => IV4.op k v w := by
  cases k
  · exact V4.macroCV_builds I32.add_builds _ _
  · exact V4.macroCV_builds I32.sub_builds _ _
  · exact V4.macroCV_builds I32.mul_builds _ _
  · exact V4.macroCV_builds I32.div_builds _ _
  · exact BuildsAgree.ub
  · exact BuildsAgree.ub
  · exact BuildsAgree.ub

theorem IV4.opS_builds (k : IntKind) (v : V4 I32) (a : I32) : BuildsAgree fun _ => IV4.opS k v a := by
  cases k
  · exact V4.macroCS_builds I32.add_builds _ _
  · exact V4.macroCS_builds I32.sub_builds _ _
  · exact V4.macroCS_builds I32.mul_builds _ _
  · exact V4.macroCS_builds I32.div_builds _ _
  · exact BuildsAgree.ub
  · exact BuildsAgree.ub
  · exact BuildsAgree.ub

theorem IV4.incDec_builds (k : StepKind) (v : V4 I32) : BuildsAgree fun _ => IV4.incDec k v := by
  cases k
  · exact BuildsAgree.then (I32.add_builds _ _) fun _ => BuildsAgree.then (I32.add_builds _ _) fun _ => BuildsAgree.then (I32.add_builds _ _) fun _ => BuildsAgree.then (I32.add_builds _ _) fun _ => BuildsAgree.pure _
  · exact BuildsAgree.then (I32.add_builds _ _) fun _ => BuildsAgree.then (I32.add_builds _ _) fun _ => BuildsAgree.then (I32.add_builds _ _) fun _ => BuildsAgree.then (I32.add_builds _ _) fun _ => BuildsAgree.pure _
  · exact BuildsAgree.then (I32.sub_builds _ _) fun _ => BuildsAgree.then (I32.sub_builds _ _) fun _ => BuildsAgree.then (I32.sub_builds _ _) fun _ => BuildsAgree.then (I32.sub_builds _ _) fun _ => BuildsAgree.pure _
  · exact BuildsAgree.then (I32.sub_builds _ _) fun _ => BuildsAgree.then (I32.sub_builds _ _) fun _ => BuildsAgree.then (I32.sub_builds _ _) fun _ => BuildsAgree.then (I32.sub_builds _ _) fun _ => BuildsAgree.pure _

theorem V2.exec_builds (c : VecCmd α) (σ : ℕ → V2 α) : BuildsAgree fun b => V2.exec b c σ := by
  cases c <;> simp only [V2.exec] <;> repeat' first
    | with_reducible exact BuildsAgree.ok _
    | with_reducible exact BuildsAgree.ub
    | with_reducible exact V2.at_builds _ _
    | with_reducible exact V2.set_builds _ _ _
    | refine BuildsAgree.then ?_ fun _ => ?_
    | split

theorem IV2.exec_builds (c : IvecCmd) (σ : ℕ → V2 I32) : BuildsAgree fun b => IV2.exec b c σ := by
  cases c <;> simp only [IV2.exec] <;> repeat' first
    | with_reducible exact BuildsAgree.ok _
    | with_reducible exact BuildsAgree.ub
    | with_reducible exact IV2.at_builds _ _
    | with_reducible exact IV2.set_builds _ _ _
    | with_reducible exact Acc.opI_builds _ _ _ _
    | with_reducible exact Acc.stepI_builds _ _ _
    | with_reducible exact IV2.op_builds _ _ _
    | with_reducible exact IV2.opS_builds _ _ _
    | with_reducible exact IV2.incDec_builds _ _
    | refine BuildsAgree.then ?_ fun _ => ?_
    | split

theorem BV2.exec_builds (c : BvecCmd) (σ : ℕ → V2 Bool) : BuildsAgree fun b => BV2.exec b c σ := by
  cases c <;> simp only [BV2.exec] <;> repeat' first
    | with_reducible exact BuildsAgree.ok _
    | with_reducible exact BuildsAgree.ub
    | with_reducible exact BV2.at_builds _ _
    | with_reducible exact BV2.set_builds _ _ _
    | refine BuildsAgree.then ?_ fun _ => ?_
    | split

theorem M2.exec_builds (c : MatCmd α) (σ : ℕ → M2 α) : BuildsAgree fun b => M2.exec b c σ := by
  cases c <;> simp only [M2.exec] <;> repeat' first
    | with_reducible exact BuildsAgree.ok _
    | with_reducible exact BuildsAgree.ub
    | with_reducible exact M2.at_builds _ _
    | with_reducible exact M2.set_builds _ _ _
    | with_reducible exact M2.entry_builds _ _ _
    | with_reducible exact M2.setEntry_builds _ _ _ _
    | refine BuildsAgree.then ?_ fun _ => ?_
    | split

theorem V3.exec_builds (c : VecCmd α) (σ : ℕ → V3 α) : BuildsAgree fun b => V3.exec b c σ := by
  cases c <;> simp only [V3.exec] <;> repeat' first
    | with_reducible exact BuildsAgree.ok _
    | with_reducible exact BuildsAgree.ub
    | with_reducible exact V3.at_builds _ _
    | with_reducible exact V3.set_builds _ _ _
    | refine BuildsAgree.then ?_ fun _ => ?_
    | split

theorem IV3.exec_builds (c : IvecCmd) (σ : ℕ → V3 I32) : BuildsAgree fun b => IV3.exec b c σ := by
  cases c <;> simp only [IV3.exec] <;> repeat' first
    | with_reducible exact BuildsAgree.ok _
    | with_reducible exact BuildsAgree.ub
    | with_reducible exact IV3.at_builds _ _
    | with_reducible exact IV3.set_builds _ _ _
    | with_reducible exact Acc.opI_builds _ _ _ _
    | with_reducible exact Acc.stepI_builds _ _ _
    | with_reducible exact IV3.op_builds _ _ _
    | with_reducible exact IV3.opS_builds _ _ _
    | with_reducible exact IV3.incDec_builds _ _
    | refine BuildsAgree.then ?_ fun _ => ?_
    | split

theorem BV3.exec_builds (c : BvecCmd) (σ : ℕ → V3 Bool) : BuildsAgree fun b => BV3.exec b c σ := by
  cases c <;> simp only [BV3.exec] <;> repeat' first
    | with_reducible exact BuildsAgree.ok _
    | with_reducible exact BuildsAgree.ub
    | with_reducible exact BV3.at_builds _ _
    | with_reducible exact BV3.set_builds _ _ _
    | refine BuildsAgree.then ?_ fun _ => ?_
    | split

theorem M3.exec_builds (c : MatCmd α) (σ : ℕ → M3 α) : BuildsAgree fun b => M3.exec b c σ := by
  cases c <;> simp only [M3.exec] <;> repeat' first
    | with_reducible exact BuildsAgree.ok _
    | with_reducible exact BuildsAgree.ub
    | with_reducible exact M3.at_builds _ _
    | with_reducible exact M3.set_builds _ _ _
    | with_reducible exact M3.entry_builds _ _ _
    | with_reducible exact M3.setEntry_builds _ _ _ _
    | refine BuildsAgree.then ?_ fun _ => ?_
    | split

theorem V4.exec_builds (c : VecCmd α) (σ : ℕ → V4 α) : BuildsAgree fun b => V4.exec b c σ := by
  cases c <;> simp only [V4.exec] <;> repeat' first
    | with_reducible exact BuildsAgree.ok _
    | with_reducible exact BuildsAgree.ub
    | with_reducible exact V4.at_builds _ _
    | with_reducible exact V4.set_builds _ _ _
    | refine BuildsAgree.then ?_ fun _ => ?_
    | split

theorem IV4.exec_builds (c : IvecCmd) (σ : ℕ → V4 I32) : BuildsAgree fun b => IV4.exec b c σ := by
  cases c <;> simp only [IV4.exec] <;> repeat' first
    | with_reducible exact BuildsAgree.ok _
    | with_reducible exact BuildsAgree.ub
    | with_reducible exact IV4.at_builds _ _
    | with_reducible exact IV4.set_builds _ _ _
    | with_reducible exact Acc.opI_builds _ _ _ _
    | with_reducible exact Acc.stepI_builds _ _ _
    | with_reducible exact IV4.op_builds _ _ _
    | with_reducible exact IV4.opS_builds _ _ _
    | with_reducible exact IV4.incDec_builds _ _
    | refine BuildsAgree.then ?_ fun _ => ?_
    | split

theorem BV4.exec_builds (c : BvecCmd) (σ : ℕ → V4 Bool) : BuildsAgree fun b => BV4.exec b c σ := by
  cases c <;> simp only [BV4.exec] <;> repeat' first
    | with_reducible exact BuildsAgree.ok _
    | with_reducible exact BuildsAgree.ub
    | with_reducible exact BV4.at_builds _ _
    | with_reducible exact BV4.set_builds _ _ _
    | refine BuildsAgree.then ?_ fun _ => ?_
    | split

theorem M4.exec_builds (c : MatCmd α) (σ : ℕ → M4 α) : BuildsAgree fun b => M4.exec b c σ := by
  cases c <;> simp only [M4.exec] <;> repeat' first
    | with_reducible exact BuildsAgree.ok _
    | with_reducible exact BuildsAgree.ub
    | with_reducible exact M4.at_builds _ _
    | with_reducible exact M4.set_builds _ _ _
    | with_reducible exact M4.entry_builds _ _ _
    | with_reducible exact M4.setEntry_builds _ _ _ _
    | refine BuildsAgree.then ?_ fun _ => ?_
    | split

theorem Quat.exec_builds (c : QuatCmd α) (σ : ℕ → Quat α) : BuildsAgree fun b => Quat.exec b c σ := by
  cases c <;> simp only [Quat.exec] <;> repeat' first
    | with_reducible exact BuildsAgree.ok _
    | with_reducible exact BuildsAgree.ub
    | with_reducible exact Quat.at_builds _ _
    | with_reducible exact Quat.set_builds _ _ _
    | refine BuildsAgree.then ?_ fun _ => ?_
    | split

theorem runStatements_builds {C S O : Type} {exec : Build → C → S → Res (S × List O)}
    (h : ∀ c σ, BuildsAgree fun b => exec b c σ) (p : List C) (σ : S) : BuildsAgree fun b => runStatements (exec b) p σ := by
  induction p generalizing σ with
  | nil => exact BuildsAgree.ok _
  | cons c p ih => exact BuildsAgree.then (h c σ) fun r => BuildsAgree.then (ih r.1) fun _ => BuildsAgree.ok _

/-- C127, programs on `vec2` variables -/
theorem C127_vec2 (p : List (VecCmd α)) (σ : ℕ → V2 α) : BuildsAgree fun b => V2.run b p σ := by
  induction p generalizing σ with
  | nil => exact BuildsAgree.ok _
  | cons c p ih => exact BuildsAgree.then (V2.exec_builds c σ) fun r => BuildsAgree.then (ih r.1) fun _ => BuildsAgree.ok _

/-- C127, programs on `ivec2` variables -/
theorem C127_ivec2 (p : List IvecCmd) (σ : ℕ → V2 I32) : BuildsAgree fun b => IV2.run b p σ := by
  induction p generalizing σ with
  | nil => exact BuildsAgree.ok _
  | cons c p ih => exact BuildsAgree.then (IV2.exec_builds c σ) fun r => BuildsAgree.then (ih r.1) fun _ => BuildsAgree.ok _

/-- C127, programs on `bvec2` variables -/
theorem C127_bvec2 (p : List BvecCmd) (σ : ℕ → V2 Bool) :
    BuildsAgree fun b => runStatements (BV2.exec b) p σ :=
  runStatements_builds BV2.exec_builds p σ

/-- C127, programs on `mat2` variables -/
theorem C127_mat2 (p : List (MatCmd α)) (σ : ℕ → M2 α) :
    BuildsAgree fun b => runStatements (M2.exec b) p σ :=
  runStatements_builds M2.exec_builds p σ

/-- C127, programs on `vec3` variables -/
theorem C127_vec3 (p : List (VecCmd α)) (σ : ℕ → V3 α) : BuildsAgree fun b => V3.run b p σ := by
  induction p generalizing σ with
  | nil => exact BuildsAgree.ok _
  | cons c p ih => exact BuildsAgree.then (V3.exec_builds c σ) fun r => BuildsAgree.then (ih r.1) fun _ => BuildsAgree.ok _

/-- C127, programs on `ivec3` variables -/
theorem C127_ivec3 (p : List IvecCmd) (σ : ℕ → V3 I32) : BuildsAgree fun b => IV3.run b p σ := by
  induction p generalizing σ with
  | nil => exact BuildsAgree.ok _
  | cons c p ih => exact BuildsAgree.then (IV3.exec_builds c σ) fun r => BuildsAgree.then (ih r.1) fun _ => BuildsAgree.ok _

/-- C127, programs on `bvec3` variables -/
theorem C127_bvec3 (p : List BvecCmd) (σ : ℕ → V3 Bool) :
    BuildsAgree fun b => runStatements (BV3.exec b) p σ :=
  runStatements_builds BV3.exec_builds p σ

/-- C127, programs on `mat3` variables -/
theorem C127_mat3 (p : List (MatCmd α)) (σ : ℕ → M3 α) :
    BuildsAgree fun b => runStatements (M3.exec b) p σ :=
  runStatements_builds M3.exec_builds p σ

/-- C127, programs on `vec4` variables -/
theorem C127_vec4 (p : List (VecCmd α)) (σ : ℕ → V4 α) : BuildsAgree fun b => V4.run b p σ := by
  induction p generalizing σ with
  | nil => exact BuildsAgree.ok _
  | cons c p ih => exact BuildsAgree.then (V4.exec_builds c σ) fun r => BuildsAgree.then (ih r.1) fun _ => BuildsAgree.ok _

/-- C127, programs on `ivec4` variables -/
theorem C127_ivec4 (p : List IvecCmd) (σ : ℕ → V4 I32) : BuildsAgree fun b => IV4.run b p σ := by
  induction p generalizing σ with
  | nil => exact BuildsAgree.ok _
  | cons c p ih => exact BuildsAgree.then (IV4.exec_builds c σ) fun r => BuildsAgree.then (ih r.1) fun _ => BuildsAgree.ok _

/-- C127, programs on `bvec4` variables -/
theorem C127_bvec4 (p : List BvecCmd) (σ : ℕ → V4 Bool) :
    BuildsAgree fun b => runStatements (BV4.exec b) p σ :=
  runStatements_builds BV4.exec_builds p σ

/-- C127, programs on `mat4` variables -/
theorem C127_mat4 (p : List (MatCmd α)) (σ : ℕ → M4 α) :
    BuildsAgree fun b => runStatements (M4.exec b) p σ :=
  runStatements_builds M4.exec_builds p σ

/-- C127, programs on `quat` variables -/
theorem C127_quat (p : List (QuatCmd α)) (σ : ℕ → Quat α) : BuildsAgree fun b => runStatements (Quat.exec b) p σ :=
  runStatements_builds Quat.exec_builds p σ

/-- C127, `make_vec2`: a null pointer is stopped in a debug build and undefined behaviour in a release build; everything else is read -/
theorem C127_make_vec2 (p : Option (ℕ → α)) :
    BuildsAgree (fun b => V2.make b p) ∧ (V2.make .debug p = .abort ↔ p = none) ∧ (V2.make .release p = .ub ↔ p = none) := by
  cases p
  · exact ⟨⟨nofun, Or.inl rfl⟩, ⟨fun _ => rfl, fun _ => rfl⟩, ⟨fun _ => rfl, fun _ => rfl⟩⟩
  · exact ⟨⟨nofun, Or.inr rfl⟩, ⟨nofun, nofun⟩, ⟨nofun, nofun⟩⟩

/-- C127, `make_vec3`: a null pointer is stopped in a debug build and undefined behaviour in a release build; everything else is read -/
theorem C127_make_vec3 (p : Option (ℕ → α)) :
    BuildsAgree (fun b => V3.make b p) ∧ (V3.make .debug p = .abort ↔ p = none) ∧ (V3.make .release p = .ub ↔ p = none) := by
  cases p
  · exact ⟨⟨nofun, Or.inl rfl⟩, ⟨fun _ => rfl, fun _ => rfl⟩, ⟨fun _ => rfl, fun _ => rfl⟩⟩
  · exact ⟨⟨nofun, Or.inr rfl⟩, ⟨nofun, nofun⟩, ⟨nofun, nofun⟩⟩

/-- C127, `make_vec4`: a null pointer is stopped in a debug build and undefined behaviour in a release build; everything else is read -/
theorem C127_make_vec4 (p : Option (ℕ → α)) :
    BuildsAgree (fun b => V4.make b p) ∧ (V4.make .debug p = .abort ↔ p = none) ∧ (V4.make .release p = .ub ↔ p = none) := by
  cases p
  · exact ⟨⟨nofun, Or.inl rfl⟩, ⟨fun _ => rfl, fun _ => rfl⟩, ⟨fun _ => rfl, fun _ => rfl⟩⟩
  · exact ⟨⟨nofun, Or.inr rfl⟩, ⟨nofun, nofun⟩, ⟨nofun, nofun⟩⟩

/-- C127, `make_ivec2`: a null pointer is stopped in a debug build and undefined behaviour in a release build; everything else is read -/
theorem C127_make_ivec2 (p : Option (ℕ → I32)) :
    BuildsAgree (fun b => IV2.make b p) ∧ (IV2.make .debug p = .abort ↔ p = none) ∧ (IV2.make .release p = .ub ↔ p = none) := by
  cases p
  · exact ⟨⟨nofun, Or.inl rfl⟩, ⟨fun _ => rfl, fun _ => rfl⟩, ⟨fun _ => rfl, fun _ => rfl⟩⟩
  · exact ⟨⟨nofun, Or.inr rfl⟩, ⟨nofun, nofun⟩, ⟨nofun, nofun⟩⟩

/-- C127, `make_ivec3`: a null pointer is stopped in a debug build and undefined behaviour in a release build; everything else is read -/
theorem C127_make_ivec3 (p : Option (ℕ → I32)) :
    BuildsAgree (fun b => IV3.make b p) ∧ (IV3.make .debug p = .abort ↔ p = none) ∧ (IV3.make .release p = .ub ↔ p = none) := by
  cases p
  · exact ⟨⟨nofun, Or.inl rfl⟩, ⟨fun _ => rfl, fun _ => rfl⟩, ⟨fun _ => rfl, fun _ => rfl⟩⟩
  · exact ⟨⟨nofun, Or.inr rfl⟩, ⟨nofun, nofun⟩, ⟨nofun, nofun⟩⟩

/-- C127, `make_ivec4`: a null pointer is stopped in a debug build and undefined behaviour in a release build; everything else is read -/
theorem C127_make_ivec4 (p : Option (ℕ → I32)) :
    BuildsAgree (fun b => IV4.make b p) ∧ (IV4.make .debug p = .abort ↔ p = none) ∧ (IV4.make .release p = .ub ↔ p = none) := by
  cases p
  · exact ⟨⟨nofun, Or.inl rfl⟩, ⟨fun _ => rfl, fun _ => rfl⟩, ⟨fun _ => rfl, fun _ => rfl⟩⟩
  · exact ⟨⟨nofun, Or.inr rfl⟩, ⟨nofun, nofun⟩, ⟨nofun, nofun⟩⟩

/-- C127, `make_bvec2`: a null pointer is stopped in a debug build and undefined behaviour in a release build; everything else is read -/
theorem C127_make_bvec2 (p : Option (ℕ → Bool)) :
    BuildsAgree (fun b => BV2.make b p) ∧ (BV2.make .debug p = .abort ↔ p = none) ∧ (BV2.make .release p = .ub ↔ p = none) := by
  cases p
  · exact ⟨⟨nofun, Or.inl rfl⟩, ⟨fun _ => rfl, fun _ => rfl⟩, ⟨fun _ => rfl, fun _ => rfl⟩⟩
  · exact ⟨⟨nofun, Or.inr rfl⟩, ⟨nofun, nofun⟩, ⟨nofun, nofun⟩⟩

/-- C127, `make_bvec3`: a null pointer is stopped in a debug build and undefined behaviour in a release build; everything else is read -/
theorem C127_make_bvec3 (p : Option (ℕ → Bool)) :
    BuildsAgree (fun b => BV3.make b p) ∧ (BV3.make .debug p = .abort ↔ p = none) ∧ (BV3.make .release p = .ub ↔ p = none) := by
  cases p
  · exact ⟨⟨nofun, Or.inl rfl⟩, ⟨fun _ => rfl, fun _ => rfl⟩, ⟨fun _ => rfl, fun _ => rfl⟩⟩
  · exact ⟨⟨nofun, Or.inr rfl⟩, ⟨nofun, nofun⟩, ⟨nofun, nofun⟩⟩

/-- C127, `make_bvec4`: a null pointer is stopped in a debug build and undefined behaviour in a release build; everything else is read -/
theorem C127_make_bvec4 (p : Option (ℕ → Bool)) :
    BuildsAgree (fun b => BV4.make b p) ∧ (BV4.make .debug p = .abort ↔ p = none) ∧ (BV4.make .release p = .ub ↔ p = none) := by
  cases p
  · exact ⟨⟨nofun, Or.inl rfl⟩, ⟨fun _ => rfl, fun _ => rfl⟩, ⟨fun _ => rfl, fun _ => rfl⟩⟩
  · exact ⟨⟨nofun, Or.inr rfl⟩, ⟨nofun, nofun⟩, ⟨nofun, nofun⟩⟩

/-- C127, `make_mat2`: a null pointer is stopped in a debug build and undefined behaviour in a release build; everything else is read -/
theorem C127_make_mat2 (p : Option (ℕ → α)) :
    BuildsAgree (fun b => M2.make b p) ∧ (M2.make .debug p = .abort ↔ p = none) ∧ (M2.make .release p = .ub ↔ p = none) := by
  cases p
  · exact ⟨⟨nofun, Or.inl rfl⟩, ⟨fun _ => rfl, fun _ => rfl⟩, ⟨fun _ => rfl, fun _ => rfl⟩⟩
  · exact ⟨⟨nofun, Or.inr rfl⟩, ⟨nofun, nofun⟩, ⟨nofun, nofun⟩⟩

/-- C127, `make_mat3`: a null pointer is stopped in a debug build and undefined behaviour in a release build; everything else is read -/
theorem C127_make_mat3 (p : Option (ℕ → α)) :
    BuildsAgree (fun b => M3.make b p) ∧ (M3.make .debug p = .abort ↔ p = none) ∧ (M3.make .release p = .ub ↔ p = none) := by
  cases p
  · exact ⟨⟨nofun, Or.inl rfl⟩, ⟨fun _ => rfl, fun _ => rfl⟩, ⟨fun _ => rfl, fun _ => rfl⟩⟩
  · exact ⟨⟨nofun, Or.inr rfl⟩, ⟨nofun, nofun⟩, ⟨nofun, nofun⟩⟩

/-- C127, `make_mat4`: a null pointer is stopped in a debug build and undefined behaviour in a release build; everything else is read -/
theorem C127_make_mat4 (p : Option (ℕ → α)) :
    BuildsAgree (fun b => M4.make b p) ∧ (M4.make .debug p = .abort ↔ p = none) ∧ (M4.make .release p = .ub ↔ p = none) := by
  cases p
  · exact ⟨⟨nofun, Or.inl rfl⟩, ⟨fun _ => rfl, fun _ => rfl⟩, ⟨fun _ => rfl, fun _ => rfl⟩⟩
  · exact ⟨⟨nofun, Or.inr rfl⟩, ⟨nofun, nofun⟩, ⟨nofun, nofun⟩⟩

/-- C127, `make_quat`: a null pointer is stopped in a debug build and undefined behaviour in a release build; everything else is read -/
theorem C127_make_quat (p : Option (ℕ → α)) :
    BuildsAgree (fun b => Quat.make b p) ∧ (Quat.make .debug p = .abort ↔ p = none) ∧ (Quat.make .release p = .ub ↔ p = none) := by
  cases p
  · exact ⟨⟨nofun, Or.inl rfl⟩, ⟨fun _ => rfl, fun _ => rfl⟩, ⟨fun _ => rfl, fun _ => rfl⟩⟩
  · exact ⟨⟨nofun, Or.inr rfl⟩, ⟨nofun, nofun⟩, ⟨nofun, nofun⟩⟩

theorem abs_gt_of {x : F32} (h : lit 0 < x ∨ x < lit 0) : F.abs x > lit 0 := by
  rcases x with _ | s | ⟨s, k, hk⟩
  · rcases h with h | h
    · exact absurd rfl h.2.1
    · exact absurd rfl h.1
  · cases s <;> decide +kernel
  · refine ⟨by decide +kernel, nofun, ?_⟩
    have k0 : k ≠ 0 := by
      rintro rfl
      have z : (F32.fin s 0 hk).key = 0 := by cases s <;> rfl
      rcases h with h | h
      · exact absurd h.2.2 (by rw [z, F32.key_lit_zero]; decide)
      · exact absurd h.2.2 (by rw [z, F32.key_lit_zero]; decide)
    rw [F32.key_lit_zero]
    show 0 < (F32.fin false k hk).key
    rw [F32.key_fin_false]
    exact_mod_cast Nat.pos_of_ne_zero k0

/-- when `abs(aspect - epsilon) > 0` holds, in float arithmetic -/
theorem aspect_assert (a : F32) :
    F.abs (a - (epsilonf : F32)) > lit 0 ↔ ¬(a = .nan ∨ a.IsFin = true ∧ a.val = 1 / 2 ^ 23) := by
  constructor
  · rintro h (rfl | ⟨f, v⟩)
    · exact h.2.1 rfl
    · have e : a = (epsilonf : F32) := by
        have k : a.key = (epsilonf : F32).key := F32.key_eq_iff.2 (by rw [v]; decide +kernel)
        refine F32.eq_of_key (F32.isFin_ne_nan f) (by decide +kernel) k fun z => ?_
        rw [k] at z
        revert z
        decide +kernel
      rw [e] at h
      revert h
      decide +kernel
  · intro h
    by_cases fa : a.IsFin = true
    · by_cases big : |(a.val : ℝ)| ≤ 2 ^ 60
      · have := persp_assert_float (b := .debug) fa big (Or.inr fun v => h (Or.inr ⟨fa, v⟩))
        by_contra n
        rw [decide_eq_false n] at this
        cases this
      · have fe : (epsilonf : F32).IsFin = true := by decide +kernel
        have fp : (lit (2 ^ 40) : F32).IsFin = true := by decide +kernel
        have fm : (lit (-2 ^ 40) : F32).IsFin = true := by decide +kernel
        have vp : (lit (2 ^ 40) : F32).val = 2 ^ 40 := by decide +kernel
        have vm : (lit (-2 ^ 40) : F32).val = -2 ^ 40 := by decide +kernel
        rcases lt_abs.1 (not_le.1 big) with c | c
        · have w : ((2 ^ 40 : ℚ) : ℝ) < a.val := by push_cast; linarith
          have o : (lit (2 ^ 40) : F32) ≤ a :=
            ⟨F32.isFin_ne_nan fp, F32.isFin_ne_nan fa, F32.key_le_iff.2 (by rw [vp]; exact (Rat.cast_lt.1 w).le)⟩
          have t := (C85_float _ _ _ fp fa fe o).2.2.1
          have u : lit 0 < (lit (2 ^ 40) : F32) - epsilonf := by decide +kernel
          exact abs_gt_of (Or.inl ⟨u.1, t.2.1, lt_of_lt_of_le u.2.2 t.2.2⟩)
        · have w : (a.val : ℝ) < ((-2 ^ 40 : ℚ) : ℝ) := by push_cast; linarith
          have o : a ≤ (lit (-2 ^ 40) : F32) :=
            ⟨F32.isFin_ne_nan fa, F32.isFin_ne_nan fm, F32.key_le_iff.2 (by rw [vm]; exact (Rat.cast_lt.1 w).le)⟩
          have t := (C85_float _ _ _ fa fm fe o).2.2.1
          have u : (lit (-2 ^ 40) : F32) - epsilonf < lit 0 := by decide +kernel
          exact abs_gt_of (Or.inr ⟨t.1, u.2.1, lt_of_le_of_lt t.2.2 u.2.2⟩)
    · rcases a with _ | s | ⟨s, k, hk⟩
      · exact absurd (Or.inl rfl) h
      · cases s <;> decide +kernel
      · exact absurd rfl fa

theorem aspect_debug {r : Build → Res (M4 F32)} {m : M4 F32} (a : F32)
    (hr : ∀ b, r b = do cassert b (decide (F.abs (a - (epsilonf : F32)) > lit 0)); pure m) :
    BuildsAgree r ∧ (∃ M, r .release = .ok M) ∧ (r .debug = .abort ↔ a = .nan ∨ a.IsFin = true ∧ a.val = 1 / 2 ^ 23) := by
  refine ⟨?_, ⟨m, hr .release⟩, ?_⟩
  · rw [show r = _ from funext hr]
    exact BuildsAgree.then (BuildsAgree.assert _) fun _ => BuildsAgree.pure _
  · rw [hr .debug]
    by_cases h : F.abs (a - (epsilonf : F32)) > lit 0
    · rw [decide_eq_true h]
      exact ⟨nofun, fun n => absurd n ((aspect_assert a).1 h)⟩
    · rw [decide_eq_false h]
      exact ⟨fun _ => not_not.1 fun n => h ((aspect_assert a).2 n), fun _ => rfl⟩

/-- C127, `perspectiveRH_ZO`: a release build always returns a matrix, a debug build stops exactly for the aspects NaN and `2⁻²³` -/
theorem C127_perspectiveRH_ZO [Libm F32] (fovy aspect zNear zFar : F32) :
    BuildsAgree (fun b => M4.perspectiveRH_ZO b fovy aspect zNear zFar) ∧
    (∃ M, M4.perspectiveRH_ZO .release fovy aspect zNear zFar = .ok M) ∧
    (M4.perspectiveRH_ZO .debug fovy aspect zNear zFar = .abort ↔ aspect = .nan ∨ aspect.IsFin = true ∧ aspect.val = 1 / 2 ^ 23) :=
  aspect_debug aspect fun _ => rfl

/-- C127, `perspectiveRH_NO`: a release build always returns a matrix, a debug build stops exactly for the aspects NaN and `2⁻²³` -/
theorem C127_perspectiveRH_NO [Libm F32] (fovy aspect zNear zFar : F32) :
    BuildsAgree (fun b => M4.perspectiveRH_NO b fovy aspect zNear zFar) ∧
    (∃ M, M4.perspectiveRH_NO .release fovy aspect zNear zFar = .ok M) ∧
    (M4.perspectiveRH_NO .debug fovy aspect zNear zFar = .abort ↔ aspect = .nan ∨ aspect.IsFin = true ∧ aspect.val = 1 / 2 ^ 23) :=
  aspect_debug aspect fun _ => rfl

/-- C127, `perspectiveLH_ZO`: a release build always returns a matrix, a debug build stops exactly for the aspects NaN and `2⁻²³` -/
theorem C127_perspectiveLH_ZO [Libm F32] (fovy aspect zNear zFar : F32) :
    BuildsAgree (fun b => M4.perspectiveLH_ZO b fovy aspect zNear zFar) ∧
    (∃ M, M4.perspectiveLH_ZO .release fovy aspect zNear zFar = .ok M) ∧
    (M4.perspectiveLH_ZO .debug fovy aspect zNear zFar = .abort ↔ aspect = .nan ∨ aspect.IsFin = true ∧ aspect.val = 1 / 2 ^ 23) :=
  aspect_debug aspect fun _ => rfl

/-- C127, `perspectiveLH_NO`: a release build always returns a matrix, a debug build stops exactly for the aspects NaN and `2⁻²³` -/
theorem C127_perspectiveLH_NO [Libm F32] (fovy aspect zNear zFar : F32) :
    BuildsAgree (fun b => M4.perspectiveLH_NO b fovy aspect zNear zFar) ∧
    (∃ M, M4.perspectiveLH_NO .release fovy aspect zNear zFar = .ok M) ∧
    (M4.perspectiveLH_NO .debug fovy aspect zNear zFar = .abort ↔ aspect = .nan ∨ aspect.IsFin = true ∧ aspect.val = 1 / 2 ^ 23) :=
  aspect_debug aspect fun _ => rfl

/-- C127, `lerp`: a release build always returns a quaternion, a debug build stops exactly if `t` is not between 0 and 1 (a NaN is not) -/
theorem C127_lerp (x y : Quat F32) (t : F32) :
    BuildsAgree (fun b => Quat.lerp b x y t) ∧ (∃ q, Quat.lerp .release x y t = .ok q) ∧
    (Quat.lerp .debug x y t = .abort ↔ ¬(lit 0 ≤ t ∧ t ≤ lit 1)) := by
  have k : (decide (t ≥ lit 0) = true ∧ decide (t ≤ lit 1) = true) ↔ (lit 0 ≤ t ∧ t ≤ lit 1) := by
    rw [decide_eq_true_iff, decide_eq_true_iff]
  rw [← k]
  simp only [Quat.lerp]
  generalize decide (t ≥ lit 0) = c
  generalize decide (t ≤ lit 1) = d
  refine ⟨?_, ⟨_, rfl⟩, ?_⟩
  · exact BuildsAgree.then (BuildsAgree.assert _) fun _ => BuildsAgree.then (BuildsAgree.assert _) fun _ => BuildsAgree.pure _
  · cases c <;> cases d <;> simp [cassert]

/-- C127, `nlerp`: a release build always returns a quaternion, a debug build stops exactly if `t` is not between 0 and 1 (a NaN is not) -/
theorem C127_nlerp (x y : Quat F32) (t : F32) :
    BuildsAgree (fun b => Quat.nlerp b x y t) ∧ (∃ q, Quat.nlerp .release x y t = .ok q) ∧
    (Quat.nlerp .debug x y t = .abort ↔ ¬(lit 0 ≤ t ∧ t ≤ lit 1)) := by
  have k : (decide (t ≥ lit 0) = true ∧ decide (t ≤ lit 1) = true) ↔ (lit 0 ≤ t ∧ t ≤ lit 1) := by
    rw [decide_eq_true_iff, decide_eq_true_iff]
  rw [← k]
  simp only [Quat.lerp, Quat.nlerp]
  generalize decide (t ≥ lit 0) = c
  generalize decide (t ≤ lit 1) = d
  refine ⟨?_, ⟨_, rfl⟩, ?_⟩
  · exact BuildsAgree.then (BuildsAgree.then (BuildsAgree.assert _) fun _ => BuildsAgree.then (BuildsAgree.assert _) fun _ => BuildsAgree.pure _) fun _ => BuildsAgree.pure _
  · cases c <;> cases d <;> simp [cassert]

/-- a program that a debug build stops at its second statement, where a release build writes outside the object -/
example : V3.run .debug [.write 0 2 (lit 7), .write 0 3 (lit 7)] (fun _ => (⟨lit 10, lit 20, lit 30⟩ : V3 F32)) = .abort ∧
    V3.run .release [.write 0 2 (lit 7), .write 0 3 (lit 7)] (fun _ => (⟨lit 10, lit 20, lit 30⟩ : V3 F32)) = .ub := ⟨rfl, rfl⟩

/-- a program that runs in both builds -/
example (b : Build) : V3.run b [.write 0 2 (lit 7), .read 0 2] (fun _ => (⟨lit 10, lit 20, lit 30⟩ : V3 F32)) =
    .ok (Function.update (fun _ => ⟨lit 10, lit 20, lit 30⟩) 0 ⟨lit 10, lit 20, lit 7⟩, [lit 7]) := by cases b <;> rfl

/-- what `BuildsAgree` excludes: an assertion with a side effect -/
example : ¬BuildsAgree fun b => match b with
    | .debug => Res.ok 1
    | .release => Res.ok 0 := by
  rintro ⟨_, h | h⟩ <;> cases h

/-- a NaN aspect is stopped in a debug build, the aspect 0 is not -/
example [Libm F32] : M4.perspectiveRH_ZO .debug (lit 1 : F32) .nan (lit 1) (lit 2) = .abort ∧
    M4.perspectiveRH_ZO .debug (lit 1 : F32) (lit 0) (lit 1) (lit 2) ≠ .abort := by
  rw [(C127_perspectiveRH_ZO _ _ _ _).2.2, ne_eq, (C127_perspectiveRH_ZO _ _ _ _).2.2]
  exact ⟨Or.inl rfl, by decide +kernel⟩

example (x y : Quat F32) : Quat.lerp .debug x y (lit 2) = .abort ∧ Quat.lerp .debug x y .nan = .abort ∧
    Quat.lerp .debug x y (lit 0.5) ≠ .abort := by
  rw [(C127_lerp _ _ _).2.2, (C127_lerp _ _ _).2.2, ne_eq, (C127_lerp _ _ _).2.2]
  decide +kernel

end Zcm
