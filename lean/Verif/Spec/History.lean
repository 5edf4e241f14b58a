import Verif.Model.History
import Verif.Spec.Names

/-!
# Specification: the same statements on plain arrays

Variables are arrays of `n` cells: `τ x i` is cell `i` of variable `x`.
-/

namespace Zcm

variable {α : Type} [Add α] [Sub α] [Mul α] [Div α] [FloatOps α]

/-- `τ` with cell `i` of variable `x` set to `a` -/
def setCell {β : Type} {n : ℕ} (τ : ℕ → Fin n → β) (x : ℕ) (i : Fin n) (a : β) : ℕ → Fin n → β :=
  fun y j => if y = x ∧ j = i then a else τ y j

/-- `τ` with every cell of variable `x` set by `f` -/
def setAll {β : Type} {n : ℕ} (τ : ℕ → Fin n → β) (x : ℕ) (f : Fin n → β) : ℕ → Fin n → β :=
  fun y j => if y = x then f j else τ y j

/-- the arithmetic operator -/
def OpKind.apply (k : OpKind) (a b : α) : α :=
  match k with
  | .add => a + b
  | .sub => a - b
  | .mul => a * b
  | .div => a / b

/-- the value `++`/`--` stores -/
def StepKind.new (k : StepKind) (a : α) : α :=
  match k with
  | .preInc | .postInc => a + lit 1
  | .preDec | .postDec => a - lit 1

/-- the value of the expression: the new one for the prefix forms, the old one for the postfix forms -/
def StepKind.result (k : StepKind) (a : α) : α :=
  match k with
  | .preInc => a + lit 1
  | .preDec => a - lit 1
  | .postInc | .postDec => a

/-- One statement on arrays; `none` if it uses a cell the arrays do not have. -/
def arrayExec {n : ℕ} (c : VecCmd α) (τ : ℕ → Fin n → α) : Option ((ℕ → Fin n → α) × List α) :=
  match c with
  | .write x i a => if h : i.toNat < n then some (setCell τ x ⟨i.toNat, h⟩ a, []) else none
  | .copyAt x i y j =>
    if h : i.toNat < n ∧ j.toNat < n then some (setCell τ x ⟨i.toNat, h.1⟩ (τ y ⟨j.toNat, h.2⟩), []) else none
  | .read x i => if h : i.toNat < n then some (τ, [τ x ⟨i.toNat, h⟩]) else none
  | .readName x l => if h : letterIndex l < n then some (τ, [τ x ⟨letterIndex l, h⟩]) else none
  | .name x l a => if h : letterIndex l < n then some (setCell τ x ⟨letterIndex l, h⟩ a, []) else none
  | .nameOp x l k a =>
    if h : letterIndex l < n then
      some (setCell τ x ⟨letterIndex l, h⟩ (k.apply (τ x ⟨letterIndex l, h⟩) a), [])
    else none
  | .nameStep x l k =>
    if h : letterIndex l < n then
      some (setCell τ x ⟨letterIndex l, h⟩ (k.new (τ x ⟨letterIndex l, h⟩)), [k.result (τ x ⟨letterIndex l, h⟩)])
    else none
  | .assign x y => some (setAll τ x (τ y), [])
  | .vecOp x k y => some (setAll τ x fun i => k.apply (τ x i) (τ y i), [])
  | .scalarOp x k a => some (setAll τ x fun i => k.apply (τ x i) a, [])
  | .step x k => some (setAll τ x fun i => k.new (τ x i), List.ofFn fun i => k.result (τ x i))

/-- A program on arrays: the arrays at the end and everything it output. -/
def arrayRun {n : ℕ} : List (VecCmd α) → (ℕ → Fin n → α) → Option ((ℕ → Fin n → α) × List α)
  | [], τ => some (τ, [])
  | c :: p, τ =>
    match arrayExec c τ with
    | none => none
    | some r =>
      match arrayRun p r.1 with
      | none => none
      | some s => some (s.1, r.2 ++ s.2)

/-- The outcome `r` on vectors is the outcome `s` on arrays: the same output and the same contents of every
variable; and no normal outcome at all if `s` uses a cell that does not exist. -/
def SameOutcome {V : Type → Type} {n : ℕ} [Coords V n] {β : Type} (r : Res ((ℕ → V β) × List β))
    (s : Option ((ℕ → Fin n → β) × List β)) : Prop :=
  match s with
  | some (τ, out) => ∃ σ, r = .ok (σ, out) ∧ ∀ x i, coord (σ x) i = τ x i
  | none => ∀ q, r ≠ .ok q

end Zcm
