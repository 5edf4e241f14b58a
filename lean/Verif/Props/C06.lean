import Verif.Spec.Names

/-!
# C06: named component writes touch only that component

`v.l op= s` is `ofData (Acc.… (data v) i s)` where `(l, i)` is the header's entry for the name `l`.
The claim holds for every right-hand side that is a number, and for `a.l = b.m` when the two names
denote *different* components.  For the same component (`a.x = b.x`) the implicitly declared copy
assignment of the accessor is chosen and it copies the whole array: the claim is false
(`C06_…_assignFrom_false`), and so it is for assignments between equal swizzles.
-/

namespace Zcm

variable {α : Type} [Add α] [Sub α] [Mul α] [Div α] [FloatOps α]

/-- C06 for `vec2` and every right-hand side that is a number. -/
theorem C06_vec2 (l : Letter) (i : Fin 2) (h : (l, i) ∈ V2.scalars) (v : V2 α) (s : α) :
    i.val = letterIndex l ∧
    some (Acc.get v.data i) = named v l ∧
    WritesOnly v (V2.ofData (Acc.assign v.data i s)) i s ∧
    WritesOnly v (V2.ofData (Acc.addAssign v.data i s)) i (coord v i + s) ∧
    WritesOnly v (V2.ofData (Acc.subAssign v.data i s)) i (coord v i - s) ∧
    WritesOnly v (V2.ofData (Acc.mulAssign v.data i s)) i (coord v i * s) ∧
    WritesOnly v (V2.ofData (Acc.divAssign v.data i s)) i (coord v i / s) ∧
    (WritesOnly v (V2.ofData (Acc.preInc v.data i).1) i (coord v i + lit 1) ∧
      (Acc.preInc v.data i).2 = coord v i + lit 1) ∧
    (WritesOnly v (V2.ofData (Acc.postInc v.data i).1) i (coord v i + lit 1) ∧
      (Acc.postInc v.data i).2 = coord v i) ∧
    (WritesOnly v (V2.ofData (Acc.preDec v.data i).1) i (coord v i - lit 1) ∧
      (Acc.preDec v.data i).2 = coord v i - lit 1) ∧
    (WritesOnly v (V2.ofData (Acc.postDec v.data i).1) i (coord v i - lit 1) ∧
      (Acc.postDec v.data i).2 = coord v i) := by
  have hi : i.val = letterIndex l := by
    revert h; revert i; cases l <;> decide
  have hd : ∀ j, V2.data v j = coord v j := by intro j; fin_cases j <;> rfl
  have key : ∀ a, WritesOnly v (V2.ofData (Function.update v.data i a)) i a := by
    intro a j
    rw [show coord (V2.ofData (Function.update v.data i a)) j = Function.update v.data i a j by
      fin_cases j <;> rfl, Function.update_apply, hd]
  have hn : some (coord v i) = named v l := by
    unfold named
    rw [dif_pos (by omega)]
    congr 2
    exact Fin.ext hi
  simp only [Acc.get, Acc.assign, Acc.addAssign, Acc.subAssign, Acc.mulAssign, Acc.divAssign,
    Acc.preInc, Acc.postInc, Acc.preDec, Acc.postDec, hd, Function.update_self]
  exact ⟨hi, hn, key _, key _, key _, key _, key _, ⟨key _, trivial⟩, ⟨key _, trivial⟩, ⟨key _, trivial⟩, ⟨key _, trivial⟩⟩

/-- C06 for `vec3` and every right-hand side that is a number. -/
theorem C06_vec3 (l : Letter) (i : Fin 3) (h : (l, i) ∈ V3.scalars) (v : V3 α) (s : α) :
    i.val = letterIndex l ∧
    some (Acc.get v.data i) = named v l ∧
    WritesOnly v (V3.ofData (Acc.assign v.data i s)) i s ∧
    WritesOnly v (V3.ofData (Acc.addAssign v.data i s)) i (coord v i + s) ∧
    WritesOnly v (V3.ofData (Acc.subAssign v.data i s)) i (coord v i - s) ∧
    WritesOnly v (V3.ofData (Acc.mulAssign v.data i s)) i (coord v i * s) ∧
    WritesOnly v (V3.ofData (Acc.divAssign v.data i s)) i (coord v i / s) ∧
    (WritesOnly v (V3.ofData (Acc.preInc v.data i).1) i (coord v i + lit 1) ∧
      (Acc.preInc v.data i).2 = coord v i + lit 1) ∧
    (WritesOnly v (V3.ofData (Acc.postInc v.data i).1) i (coord v i + lit 1) ∧
      (Acc.postInc v.data i).2 = coord v i) ∧
    (WritesOnly v (V3.ofData (Acc.preDec v.data i).1) i (coord v i - lit 1) ∧
      (Acc.preDec v.data i).2 = coord v i - lit 1) ∧
    (WritesOnly v (V3.ofData (Acc.postDec v.data i).1) i (coord v i - lit 1) ∧
      (Acc.postDec v.data i).2 = coord v i) := by
  have hi : i.val = letterIndex l := by
    revert h; revert i; cases l <;> decide
  have hd : ∀ j, V3.data v j = coord v j := by intro j; fin_cases j <;> rfl
  have key : ∀ a, WritesOnly v (V3.ofData (Function.update v.data i a)) i a := by
    intro a j
    rw [show coord (V3.ofData (Function.update v.data i a)) j = Function.update v.data i a j by
      fin_cases j <;> rfl, Function.update_apply, hd]
  have hn : some (coord v i) = named v l := by
    unfold named
    rw [dif_pos (by omega)]
    congr 2
    exact Fin.ext hi
  simp only [Acc.get, Acc.assign, Acc.addAssign, Acc.subAssign, Acc.mulAssign, Acc.divAssign,
    Acc.preInc, Acc.postInc, Acc.preDec, Acc.postDec, hd, Function.update_self]
  exact ⟨hi, hn, key _, key _, key _, key _, key _, ⟨key _, trivial⟩, ⟨key _, trivial⟩, ⟨key _, trivial⟩, ⟨key _, trivial⟩⟩

/-- C06 for `vec4` and every right-hand side that is a number. -/
theorem C06_vec4 (l : Letter) (i : Fin 4) (h : (l, i) ∈ V4.scalars) (v : V4 α) (s : α) :
    i.val = letterIndex l ∧
    some (Acc.get v.data i) = named v l ∧
    WritesOnly v (V4.ofData (Acc.assign v.data i s)) i s ∧
    WritesOnly v (V4.ofData (Acc.addAssign v.data i s)) i (coord v i + s) ∧
    WritesOnly v (V4.ofData (Acc.subAssign v.data i s)) i (coord v i - s) ∧
    WritesOnly v (V4.ofData (Acc.mulAssign v.data i s)) i (coord v i * s) ∧
    WritesOnly v (V4.ofData (Acc.divAssign v.data i s)) i (coord v i / s) ∧
    (WritesOnly v (V4.ofData (Acc.preInc v.data i).1) i (coord v i + lit 1) ∧
      (Acc.preInc v.data i).2 = coord v i + lit 1) ∧
    (WritesOnly v (V4.ofData (Acc.postInc v.data i).1) i (coord v i + lit 1) ∧
      (Acc.postInc v.data i).2 = coord v i) ∧
    (WritesOnly v (V4.ofData (Acc.preDec v.data i).1) i (coord v i - lit 1) ∧
      (Acc.preDec v.data i).2 = coord v i - lit 1) ∧
    (WritesOnly v (V4.ofData (Acc.postDec v.data i).1) i (coord v i - lit 1) ∧
      (Acc.postDec v.data i).2 = coord v i) := by
  have hi : i.val = letterIndex l := by
    revert h; revert i; cases l <;> decide
  have hd : ∀ j, V4.data v j = coord v j := by intro j; fin_cases j <;> rfl
  have key : ∀ a, WritesOnly v (V4.ofData (Function.update v.data i a)) i a := by
    intro a j
    rw [show coord (V4.ofData (Function.update v.data i a)) j = Function.update v.data i a j by
      fin_cases j <;> rfl, Function.update_apply, hd]
  have hn : some (coord v i) = named v l := by
    unfold named
    rw [dif_pos (by omega)]
    congr 2
    exact Fin.ext hi
  simp only [Acc.get, Acc.assign, Acc.addAssign, Acc.subAssign, Acc.mulAssign, Acc.divAssign,
    Acc.preInc, Acc.postInc, Acc.preDec, Acc.postDec, hd, Function.update_self]
  exact ⟨hi, hn, key _, key _, key _, key _, key _, ⟨key _, trivial⟩, ⟨key _, trivial⟩, ⟨key _, trivial⟩, ⟨key _, trivial⟩⟩

/-- C06 for `ivec2`: whenever the built-in operator is defined, only that component changes;
otherwise the whole statement is undefined. -/
theorem C06_ivec2 (l : Letter) (i : Fin 2) (h : (l, i) ∈ IV2.scalars) (v : V2 I32) (s : I32) :
    i.val = letterIndex l ∧
    some (Acc.get v.data i) = named v l ∧
    Acc.addAssignI v.data i s = (do
      let r ← I32.add (coord v i) s
      .ok (Function.update (coord v) i r)) ∧
    Acc.subAssignI v.data i s = (do
      let r ← I32.sub (coord v i) s
      .ok (Function.update (coord v) i r)) ∧
    Acc.mulAssignI v.data i s = (do
      let r ← I32.mul (coord v i) s
      .ok (Function.update (coord v) i r)) ∧
    Acc.divAssignI v.data i s = (do
      let r ← I32.div (coord v i) s
      .ok (Function.update (coord v) i r)) ∧
    Acc.modAssignI v.data i s = (do
      let r ← I32.mod (coord v i) s
      .ok (Function.update (coord v) i r)) ∧
    Acc.orAssignI v.data i s = (do
      let r ← I32.or (coord v i) s
      .ok (Function.update (coord v) i r)) ∧
    Acc.andAssignI v.data i s = (do
      let r ← I32.and (coord v i) s
      .ok (Function.update (coord v) i r)) ∧
    Acc.xorAssignI v.data i s = (do
      let r ← I32.xor (coord v i) s
      .ok (Function.update (coord v) i r)) ∧
    Acc.shlAssignI v.data i s = (do
      let r ← I32.shl (coord v i) s
      .ok (Function.update (coord v) i r)) ∧
    Acc.shrAssignI v.data i s = (do
      let r ← I32.shr (coord v i) s
      .ok (Function.update (coord v) i r)) ∧
    Acc.preIncI v.data i = (do
      let r ← I32.add (coord v i) (I32.lit 1)
      .ok (Function.update (coord v) i r, r)) ∧
    Acc.postIncI v.data i = (do
      let r ← I32.add (coord v i) (I32.lit 1)
      .ok (Function.update (coord v) i r, coord v i)) ∧
    Acc.preDecI v.data i = (do
      let r ← I32.sub (coord v i) (I32.lit 1)
      .ok (Function.update (coord v) i r, r)) ∧
    Acc.postDecI v.data i = (do
      let r ← I32.sub (coord v i) (I32.lit 1)
      .ok (Function.update (coord v) i r, coord v i)) ∧
    ∀ r, WritesOnly v (V2.ofData (Function.update (coord v) i r)) i r := by
  have hi : i.val = letterIndex l := by
    revert h; revert i; cases l <;> decide
  have hd : V2.data v = coord v := by funext j; fin_cases j <;> rfl
  have hn : some (coord v i) = named v l := by
    unfold named
    rw [dif_pos (by omega)]
    congr 2
    exact Fin.ext hi
  rw [hd]
  refine ⟨hi, hn, rfl, rfl, rfl, rfl, rfl, rfl, rfl, rfl, rfl, rfl, rfl, rfl, rfl, rfl, ?_⟩
  intro a j
  rw [show coord (V2.ofData (Function.update (coord v) i a)) j = Function.update (coord v) i a j by
    fin_cases j <;> rfl, Function.update_apply]

/-- C06 for `ivec3`: whenever the built-in operator is defined, only that component changes;
otherwise the whole statement is undefined. -/
theorem C06_ivec3 (l : Letter) (i : Fin 3) (h : (l, i) ∈ IV3.scalars) (v : V3 I32) (s : I32) :
    i.val = letterIndex l ∧
    some (Acc.get v.data i) = named v l ∧
    Acc.addAssignI v.data i s = (do
      let r ← I32.add (coord v i) s
      .ok (Function.update (coord v) i r)) ∧
    Acc.subAssignI v.data i s = (do
      let r ← I32.sub (coord v i) s
      .ok (Function.update (coord v) i r)) ∧
    Acc.mulAssignI v.data i s = (do
      let r ← I32.mul (coord v i) s
      .ok (Function.update (coord v) i r)) ∧
    Acc.divAssignI v.data i s = (do
      let r ← I32.div (coord v i) s
      .ok (Function.update (coord v) i r)) ∧
    Acc.modAssignI v.data i s = (do
      let r ← I32.mod (coord v i) s
      .ok (Function.update (coord v) i r)) ∧
    Acc.orAssignI v.data i s = (do
      let r ← I32.or (coord v i) s
      .ok (Function.update (coord v) i r)) ∧
    Acc.andAssignI v.data i s = (do
      let r ← I32.and (coord v i) s
      .ok (Function.update (coord v) i r)) ∧
    Acc.xorAssignI v.data i s = (do
      let r ← I32.xor (coord v i) s
      .ok (Function.update (coord v) i r)) ∧
    Acc.shlAssignI v.data i s = (do
      let r ← I32.shl (coord v i) s
      .ok (Function.update (coord v) i r)) ∧
    Acc.shrAssignI v.data i s = (do
      let r ← I32.shr (coord v i) s
      .ok (Function.update (coord v) i r)) ∧
    Acc.preIncI v.data i = (do
      let r ← I32.add (coord v i) (I32.lit 1)
      .ok (Function.update (coord v) i r, r)) ∧
    Acc.postIncI v.data i = (do
      let r ← I32.add (coord v i) (I32.lit 1)
      .ok (Function.update (coord v) i r, coord v i)) ∧
    Acc.preDecI v.data i = (do
      let r ← I32.sub (coord v i) (I32.lit 1)
      .ok (Function.update (coord v) i r, r)) ∧
    Acc.postDecI v.data i = (do
      let r ← I32.sub (coord v i) (I32.lit 1)
      .ok (Function.update (coord v) i r, coord v i)) ∧
    ∀ r, WritesOnly v (V3.ofData (Function.update (coord v) i r)) i r := by
  have hi : i.val = letterIndex l := by
    revert h; revert i; cases l <;> decide
  have hd : V3.data v = coord v := by funext j; fin_cases j <;> rfl
  have hn : some (coord v i) = named v l := by
    unfold named
    rw [dif_pos (by omega)]
    congr 2
    exact Fin.ext hi
  rw [hd]
  refine ⟨hi, hn, rfl, rfl, rfl, rfl, rfl, rfl, rfl, rfl, rfl, rfl, rfl, rfl, rfl, rfl, ?_⟩
  intro a j
  rw [show coord (V3.ofData (Function.update (coord v) i a)) j = Function.update (coord v) i a j by
    fin_cases j <;> rfl, Function.update_apply]

/-- C06 for `ivec4`: whenever the built-in operator is defined, only that component changes;
otherwise the whole statement is undefined. -/
theorem C06_ivec4 (l : Letter) (i : Fin 4) (h : (l, i) ∈ IV4.scalars) (v : V4 I32) (s : I32) :
    i.val = letterIndex l ∧
    some (Acc.get v.data i) = named v l ∧
    Acc.addAssignI v.data i s = (do
      let r ← I32.add (coord v i) s
      .ok (Function.update (coord v) i r)) ∧
    Acc.subAssignI v.data i s = (do
      let r ← I32.sub (coord v i) s
      .ok (Function.update (coord v) i r)) ∧
    Acc.mulAssignI v.data i s = (do
      let r ← I32.mul (coord v i) s
      .ok (Function.update (coord v) i r)) ∧
    Acc.divAssignI v.data i s = (do
      let r ← I32.div (coord v i) s
      .ok (Function.update (coord v) i r)) ∧
    Acc.modAssignI v.data i s = (do
      let r ← I32.mod (coord v i) s
      .ok (Function.update (coord v) i r)) ∧
    Acc.orAssignI v.data i s = (do
      let r ← I32.or (coord v i) s
      .ok (Function.update (coord v) i r)) ∧
    Acc.andAssignI v.data i s = (do
      let r ← I32.and (coord v i) s
      .ok (Function.update (coord v) i r)) ∧
    Acc.xorAssignI v.data i s = (do
      let r ← I32.xor (coord v i) s
      .ok (Function.update (coord v) i r)) ∧
    Acc.shlAssignI v.data i s = (do
      let r ← I32.shl (coord v i) s
      .ok (Function.update (coord v) i r)) ∧
    Acc.shrAssignI v.data i s = (do
      let r ← I32.shr (coord v i) s
      .ok (Function.update (coord v) i r)) ∧
    Acc.preIncI v.data i = (do
      let r ← I32.add (coord v i) (I32.lit 1)
      .ok (Function.update (coord v) i r, r)) ∧
    Acc.postIncI v.data i = (do
      let r ← I32.add (coord v i) (I32.lit 1)
      .ok (Function.update (coord v) i r, coord v i)) ∧
    Acc.preDecI v.data i = (do
      let r ← I32.sub (coord v i) (I32.lit 1)
      .ok (Function.update (coord v) i r, r)) ∧
    Acc.postDecI v.data i = (do
      let r ← I32.sub (coord v i) (I32.lit 1)
      .ok (Function.update (coord v) i r, coord v i)) ∧
    ∀ r, WritesOnly v (V4.ofData (Function.update (coord v) i r)) i r := by
  have hi : i.val = letterIndex l := by
    revert h; revert i; cases l <;> decide
  have hd : V4.data v = coord v := by funext j; fin_cases j <;> rfl
  have hn : some (coord v i) = named v l := by
    unfold named
    rw [dif_pos (by omega)]
    congr 2
    exact Fin.ext hi
  rw [hd]
  refine ⟨hi, hn, rfl, rfl, rfl, rfl, rfl, rfl, rfl, rfl, rfl, rfl, rfl, rfl, rfl, rfl, ?_⟩
  intro a j
  rw [show coord (V4.ofData (Function.update (coord v) i a)) j = Function.update (coord v) i a j by
    fin_cases j <;> rfl, Function.update_apply]

/-- Every letter that names a component of `vec2` is a member, for exactly that component. -/
theorem C06_vec2_names (l : Letter) (i : Fin 2) :
    (l, i) ∈ V2.scalars ↔ i.val = letterIndex l := by
  revert i; cases l <;> decide

/-- Every letter that names a component of `vec3` is a member, for exactly that component. -/
theorem C06_vec3_names (l : Letter) (i : Fin 3) :
    (l, i) ∈ V3.scalars ↔ i.val = letterIndex l := by
  revert i; cases l <;> decide

/-- Every letter that names a component of `vec4` is a member, for exactly that component. -/
theorem C06_vec4_names (l : Letter) (i : Fin 4) :
    (l, i) ∈ V4.scalars ↔ i.val = letterIndex l := by
  revert i; cases l <;> decide

/-- Every letter that names a component of `ivec2` is a member, for exactly that component. -/
theorem C06_ivec2_names (l : Letter) (i : Fin 2) :
    (l, i) ∈ IV2.scalars ↔ i.val = letterIndex l := by
  revert i; cases l <;> decide

/-- Every letter that names a component of `ivec3` is a member, for exactly that component. -/
theorem C06_ivec3_names (l : Letter) (i : Fin 3) :
    (l, i) ∈ IV3.scalars ↔ i.val = letterIndex l := by
  revert i; cases l <;> decide

/-- Every letter that names a component of `ivec4` is a member, for exactly that component. -/
theorem C06_ivec4_names (l : Letter) (i : Fin 4) :
    (l, i) ∈ IV4.scalars ↔ i.val = letterIndex l := by
  revert i; cases l <;> decide

/-- C06 for `a.l = b.m` on `vec2`, when the names denote different components.  Missing: equal
components, where the claim is false. -/
theorem C06_vec2_assignFrom_partial {β : Type} (i j : Fin 2) (hij : i ≠ j) (a b : V2 β) :
    WritesOnly a (V2.ofData (Acc.assignFrom a.data i b.data j)) i (coord b j) := by
  intro k
  have hd : ∀ (v : V2 β) j, V2.data v j = coord v j := by intro v j; fin_cases j <;> rfl
  simp only [Acc.assignFrom, if_neg hij, Acc.assign, Acc.get, hd]
  rw [show coord (V2.ofData (Function.update a.data i (coord b j))) k =
    Function.update a.data i (coord b j) k by fin_cases k <;> rfl, Function.update_apply, hd]

/-- What `a.l = b.m` really does when both names denote the same component: all of `b` is copied. -/
theorem C06_vec2_assignFrom_same {β : Type} (i : Fin 2) (a b : V2 β) :
    V2.ofData (Acc.assignFrom a.data i b.data i) = b := by
  simp [Acc.assignFrom, Acc.copyAssign, V2.ofData, V2.data]

/-- Hence the full claim is false for every type with two different values. -/
theorem C06_vec2_assignFrom_false {β : Type} [Nontrivial β] :
    ¬ ∀ (i j : Fin 2) (a b : V2 β),
      WritesOnly a (V2.ofData (Acc.assignFrom a.data i b.data j)) i (coord b j) := by
  intro h
  obtain ⟨p, q, hpq⟩ := exists_pair_ne β
  have := h 0 0 ⟨p, p⟩ ⟨q, q⟩ 1
  rw [C06_vec2_assignFrom_same] at this
  exact hpq this.symm

/-- C06 for `a.l = b.m` on `vec3`, when the names denote different components.  Missing: equal
components, where the claim is false. -/
theorem C06_vec3_assignFrom_partial {β : Type} (i j : Fin 3) (hij : i ≠ j) (a b : V3 β) :
    WritesOnly a (V3.ofData (Acc.assignFrom a.data i b.data j)) i (coord b j) := by
  intro k
  have hd : ∀ (v : V3 β) j, V3.data v j = coord v j := by intro v j; fin_cases j <;> rfl
  simp only [Acc.assignFrom, if_neg hij, Acc.assign, Acc.get, hd]
  rw [show coord (V3.ofData (Function.update a.data i (coord b j))) k =
    Function.update a.data i (coord b j) k by fin_cases k <;> rfl, Function.update_apply, hd]

/-- What `a.l = b.m` really does when both names denote the same component: all of `b` is copied. -/
theorem C06_vec3_assignFrom_same {β : Type} (i : Fin 3) (a b : V3 β) :
    V3.ofData (Acc.assignFrom a.data i b.data i) = b := by
  simp [Acc.assignFrom, Acc.copyAssign, V3.ofData, V3.data]

/-- Hence the full claim is false for every type with two different values. -/
theorem C06_vec3_assignFrom_false {β : Type} [Nontrivial β] :
    ¬ ∀ (i j : Fin 3) (a b : V3 β),
      WritesOnly a (V3.ofData (Acc.assignFrom a.data i b.data j)) i (coord b j) := by
  intro h
  obtain ⟨p, q, hpq⟩ := exists_pair_ne β
  have := h 0 0 ⟨p, p, p⟩ ⟨q, q, q⟩ 1
  rw [C06_vec3_assignFrom_same] at this
  exact hpq this.symm

/-- C06 for `a.l = b.m` on `vec4`, when the names denote different components.  Missing: equal
components, where the claim is false. -/
theorem C06_vec4_assignFrom_partial {β : Type} (i j : Fin 4) (hij : i ≠ j) (a b : V4 β) :
    WritesOnly a (V4.ofData (Acc.assignFrom a.data i b.data j)) i (coord b j) := by
  intro k
  have hd : ∀ (v : V4 β) j, V4.data v j = coord v j := by intro v j; fin_cases j <;> rfl
  simp only [Acc.assignFrom, if_neg hij, Acc.assign, Acc.get, hd]
  rw [show coord (V4.ofData (Function.update a.data i (coord b j))) k =
    Function.update a.data i (coord b j) k by fin_cases k <;> rfl, Function.update_apply, hd]

/-- What `a.l = b.m` really does when both names denote the same component: all of `b` is copied. -/
theorem C06_vec4_assignFrom_same {β : Type} (i : Fin 4) (a b : V4 β) :
    V4.ofData (Acc.assignFrom a.data i b.data i) = b := by
  simp [Acc.assignFrom, Acc.copyAssign, V4.ofData, V4.data]

/-- Hence the full claim is false for every type with two different values. -/
theorem C06_vec4_assignFrom_false {β : Type} [Nontrivial β] :
    ¬ ∀ (i j : Fin 4) (a b : V4 β),
      WritesOnly a (V4.ofData (Acc.assignFrom a.data i b.data j)) i (coord b j) := by
  intro h
  obtain ⟨p, q, hpq⟩ := exists_pair_ne β
  have := h 0 0 ⟨p, p, p, p⟩ ⟨q, q, q, q⟩ 1
  rw [C06_vec4_assignFrom_same] at this
  exact hpq this.symm

/-- The same happens for two equal swizzles: `a.xy = b.xy` on `vec3` also overwrites `a.z`. -/
theorem C06_swizzle_assign_false {β : Type} [Nontrivial β] :
    ¬ ∀ sw ∈ V3.swizzles, ∀ (a b : V3 β) (j : Fin 3), j ∉ sw.idx →
      coord (V3.ofData (sw.copyAssign a.data b.data)) j = coord a j := by
  intro h
  obtain ⟨p, q, hpq⟩ := exists_pair_ne β
  have := h ⟨[.x, .y], 2, [0, 1]⟩ (by decide +kernel) ⟨p, p, p⟩ ⟨q, q, q⟩ 2 (by decide)
  exact hpq this.symm

/-- Non-vacuity: `g` is a member of `vec4` and names component 1. -/
example : (Letter.g, (1 : Fin 4)) ∈ V4.scalars := by decide

/-- Non-vacuity of the partial theorem: `a.x = b.z`. -/
example : V3.ofData (Acc.assignFrom (V3.data ⟨1, 2, 3⟩) 0 (V3.data ⟨4, 5, 6⟩) 2) =
    (⟨6, 2, 3⟩ : V3 ℤ) := by decide

end Zcm
