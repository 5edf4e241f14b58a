import Verif.Model.HistoryMat
import Verif.Spec.Hamilton
import Verif.Spec.History
import Verif.Spec.Linear

/-!
# Specification: the same statements on Mathlib's matrices and quaternions and on boolean arrays
-/

namespace Zcm

open Quaternion

/-- What the mathematical program does: it ends in `τ` with some output, or it uses a row, column or
component that does not exist, or it divides by zero (a zero scalar or component, a singular matrix, a
zero quaternion). -/
inductive SpecOutcome (T O : Type) where
  | done (τ : T) (out : List O)
  | outside
  | byZero

/-- Run the statements one after the other, up to the first that goes wrong. -/
def specRun {C T O : Type} (exec : C → T → SpecOutcome T O) : List C → T → SpecOutcome T O
  | [], τ => .done τ []
  | c :: p, τ =>
    match exec c τ with
    | .outside => .outside
    | .byZero => .byZero
    | .done τ' out =>
      match specRun exec p τ' with
      | .outside => .outside
      | .byZero => .byZero
      | .done τ'' out' => .done τ'' (out ++ out')

/-- The program `r` on library objects does what the mathematical program `s` does, where `abs` reads an
object as a mathematical one: the same output and the same variables; and it does not end normally if `s` uses
something that does not exist.  Nothing is said about divisions by zero. -/
def Refines {S T O : Type} (abs : S → T) (r : Res ((ℕ → S) × List O)) (s : SpecOutcome (ℕ → T) O) : Prop :=
  match s with
  | .done τ out => ∃ σ, r = .ok (σ, out) ∧ ∀ x, abs (σ x) = τ x
  | .outside => ∀ q, r ≠ .ok q
  | .byZero => True

open Classical in
/-- One statement on real `n × n` matrices; `τ x` is the matrix in variable `x`. -/
noncomputable def matExec {n : ℕ} (c : MatCmd ℝ) (τ : ℕ → Matrix (Fin n) (Fin n) ℝ) :
    SpecOutcome (ℕ → Matrix (Fin n) (Fin n) ℝ) ℝ :=
  match c with
  | .write x c r a =>
    if h : c.toNat < n ∧ r.toNat < n then
      .done (Function.update τ x (Matrix.of fun i j => if i = ⟨r.toNat, h.2⟩ ∧ j = ⟨c.toNat, h.1⟩ then a else τ x i j)) []
    else .outside
  | .read x c r => if h : c.toNat < n ∧ r.toNat < n then .done τ [τ x ⟨r.toNat, h.2⟩ ⟨c.toNat, h.1⟩] else .outside
  | .copyCol x c y d =>
    if h : c.toNat < n ∧ d.toNat < n then
      .done (Function.update τ x ((τ x).updateCol ⟨c.toNat, h.1⟩ fun i => τ y i ⟨d.toNat, h.2⟩)) []
    else .outside
  | .colOp x c k y d =>
    if h : c.toNat < n ∧ d.toNat < n then
      if k = .div ∧ ∃ i, τ y i ⟨d.toNat, h.2⟩ = 0 then .byZero
      else .done (Function.update τ x
        ((τ x).updateCol ⟨c.toNat, h.1⟩ fun i => k.apply (τ x i ⟨c.toNat, h.1⟩) (τ y i ⟨d.toNat, h.2⟩))) []
    else .outside
  | .assign x y => .done (Function.update τ x (τ y)) []
  | .op x k y =>
    match k with
    | .add => .done (Function.update τ x (τ x + τ y)) []
    | .sub => .done (Function.update τ x (τ x - τ y)) []
    | .mul => .done (Function.update τ x (τ x * τ y)) []
    | .div => if (τ y).det = 0 then .byZero else .done (Function.update τ x (τ x * (τ y)⁻¹)) []
  | .mulS x y a => .done (Function.update τ x (a • τ y)) []
  | .divS x y a => if a = 0 then .byZero else .done (Function.update τ x (a⁻¹ • τ y)) []
  | .transpose x y => .done (Function.update τ x (τ y).transpose) []
  | .inverse x y => if (τ y).det = 0 then .byZero else .done (Function.update τ x (τ y)⁻¹) []

/-- component `i` of a quaternion in the order `x, y, z, w` -/
def hamComp (q : ℍ[ℝ]) (i : Fin 4) : ℝ := ![q.imI, q.imJ, q.imK, q.re] i

/-- a quaternion from its components in the order `x, y, z, w` -/
def ofHamComp (f : Fin 4 → ℝ) : ℍ[ℝ] := ⟨f 3, f 0, f 1, f 2⟩

open Classical in
/-- One statement on quaternions. -/
noncomputable def quatExec (c : QuatCmd ℝ) (τ : ℕ → ℍ[ℝ]) : SpecOutcome (ℕ → ℍ[ℝ]) ℝ :=
  match c with
  | .write x i a =>
    if h : i.toNat < 4 then .done (Function.update τ x (ofHamComp (Function.update (hamComp (τ x)) ⟨i.toNat, h⟩ a))) []
    else .outside
  | .read x i => if h : i.toNat < 4 then .done τ [hamComp (τ x) ⟨i.toNat, h⟩] else .outside
  | .assign x y => .done (Function.update τ x (τ y)) []
  | .op x k y =>
    match k with
    | .add => .done (Function.update τ x (τ x + τ y)) []
    | .sub => .done (Function.update τ x (τ x - τ y)) []
    | .mul => .done (Function.update τ x (τ x * τ y)) []
  | .mulS x a => .done (Function.update τ x (a • τ x)) []
  | .divS x a => if a = 0 then .byZero else .done (Function.update τ x (a⁻¹ • τ x)) []
  | .conjugate x y => .done (Function.update τ x (star (τ y))) []
  | .inverse x y => if τ y = 0 then .byZero else .done (Function.update τ x (τ y)⁻¹) []
  | .normalize x y => if τ y = 0 then .byZero else .done (Function.update τ x (‖τ y‖⁻¹ • τ y)) []

/-- the Boolean operator -/
def BoolOp.apply : BoolOp → Bool → Bool → Bool
  | .and, a, b => a && b
  | .or, a, b => a || b
  | .xor, a, b => a != b

/-- One statement on arrays of `n` truth values. -/
def boolExec {n : ℕ} (c : BvecCmd) (τ : ℕ → Fin n → Bool) : SpecOutcome (ℕ → Fin n → Bool) Bool :=
  match c with
  | .write x i a =>
    if h : i.toNat < n then .done (Function.update τ x (Function.update (τ x) ⟨i.toNat, h⟩ a)) [] else .outside
  | .copyAt x i y j =>
    if h : i.toNat < n ∧ j.toNat < n then
      .done (Function.update τ x (Function.update (τ x) ⟨i.toNat, h.1⟩ (τ y ⟨j.toNat, h.2⟩))) []
    else .outside
  | .read x i => if h : i.toNat < n then .done τ [τ x ⟨i.toNat, h⟩] else .outside
  | .assign x y => .done (Function.update τ x (τ y)) []
  | .op x k y => .done (Function.update τ x fun i => k.apply (τ x i) (τ y i)) []
  | .opS x k a => .done (Function.update τ x fun i => k.apply (τ x i) a) []
  | .not x y => .done (Function.update τ x fun i => !τ y i) []
  | .all x => .done τ [decide (∀ i, τ x i = true)]
  | .any x => .done τ [decide (∃ i, τ x i = true)]

end Zcm
