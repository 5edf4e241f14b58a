import Verif.Model.HistoryInt
import Verif.Spec.History
import Verif.Spec.Int

/-!
# Specification: the same statements on arrays of mathematical integers

`τ x i` is cell `i` of variable `x`. The scalar operators are those of Spec/Int.lean: partial functions on
`ℤ`, undefined on overflow, division by zero and bad shift counts.
-/

namespace Zcm

/-- the arithmetic operator -/
def IntKind.apply (k : IntKind) : ℤ → ℤ → Option ℤ :=
  match k with
  | .add => intAdd
  | .sub => intSub
  | .mul => intMul
  | .div => intDiv
  | .mod => intMod
  | .shl => intShl
  | .shr => intShr

/-- the value `++`/`--` stores -/
def StepKind.newInt (k : StepKind) (a : ℤ) : Option ℤ :=
  match k with
  | .preInc | .postInc => intAdd a 1
  | .preDec | .postDec => intSub a 1

/-- the value of the expression, from the old and the new value of the operand -/
def StepKind.pick {β : Type} (k : StepKind) (old new : β) : β :=
  match k with
  | .preInc | .preDec => new
  | .postInc | .postDec => old

/-- all the values, if all are defined -/
def allDefined {n : ℕ} (f : Fin n → Option ℤ) : Option (Fin n → ℤ) :=
  if ∀ i, (f i).isSome then some fun i => (f i).getD 0 else none

/-- One statement on arrays; `none` if it uses a cell the arrays do not have, an operator that does not exist, or
an arithmetic operation that is undefined. -/
def intArrayExec {n : ℕ} (c : IvecCmd) (τ : ℕ → Fin n → ℤ) : Option ((ℕ → Fin n → ℤ) × List ℤ) :=
  match c with
  | .write x i a => if h : i.toNat < n then some (setCell τ x ⟨i.toNat, h⟩ a.toInt, []) else none
  | .copyAt x i y j =>
    if h : i.toNat < n ∧ j.toNat < n then some (setCell τ x ⟨i.toNat, h.1⟩ (τ y ⟨j.toNat, h.2⟩), []) else none
  | .read x i => if h : i.toNat < n then some (τ, [τ x ⟨i.toNat, h⟩]) else none
  | .readName x l => if h : letterIndex l < n then some (τ, [τ x ⟨letterIndex l, h⟩]) else none
  | .name x l a => if h : letterIndex l < n then some (setCell τ x ⟨letterIndex l, h⟩ a.toInt, []) else none
  | .nameOp x l k a =>
    if h : letterIndex l < n then
      (k.apply (τ x ⟨letterIndex l, h⟩) a.toInt).map fun r => (setCell τ x ⟨letterIndex l, h⟩ r, [])
    else none
  | .nameStep x l k =>
    if h : letterIndex l < n then
      (k.newInt (τ x ⟨letterIndex l, h⟩)).map fun r =>
        (setCell τ x ⟨letterIndex l, h⟩ r, [k.pick (τ x ⟨letterIndex l, h⟩) r])
    else none
  | .assign x y => some (setAll τ x (τ y), [])
  | .vecOp x k y =>
    if k.onIvec n then (allDefined fun i => k.apply (τ x i) (τ y i)).map fun f => (setAll τ x f, []) else none
  | .scalarOp x k a =>
    if k.onIvec n then (allDefined fun i => k.apply (τ x i) a.toInt).map fun f => (setAll τ x f, []) else none
  | .step x k =>
    (allDefined fun i => k.newInt (τ x i)).map fun f => (setAll τ x f, List.ofFn fun i => k.pick (τ x i) (f i))

/-- A program on arrays: the arrays at the end and everything it output. -/
def intArrayRun {n : ℕ} : List IvecCmd → (ℕ → Fin n → ℤ) → Option ((ℕ → Fin n → ℤ) × List ℤ)
  | [], τ => some (τ, [])
  | c :: p, τ =>
    match intArrayExec c τ with
    | none => none
    | some r =>
      match intArrayRun p r.1 with
      | none => none
      | some s => some (s.1, r.2 ++ s.2)

/-- The outcome `r` on vectors is the outcome `s` on arrays: the same output and the same contents of every
variable; and no normal outcome at all if `s` has none. -/
def SameIntOutcome {V : Type → Type} {n : ℕ} [Coords V n] (r : Res ((ℕ → V I32) × List I32))
    (s : Option ((ℕ → Fin n → ℤ) × List ℤ)) : Prop :=
  match s with
  | some (τ, out) => ∃ σ o, r = .ok (σ, o) ∧ o.map I32.toInt = out ∧ ∀ x i, icoord (σ x) i = τ x i
  | none => ∀ q, r ≠ .ok q

end Zcm
