import Verif.Model.Accessors

/-!
# Client programs: sequences of statements on vector variables

A client of the library owns variables `0, 1, 2, …` of one vector type and executes a list of
statements on them.  Not a file of /repo: each statement calls exactly one function of
include/zcm/vec{2,3,4}.hpp, src/vec{2,3,4}.cpp or include/zcm/detail/vec{2,3,4}_access.hpp (two for
`x[i] = y[j]`), modelled in Model/Vec.lean, Model/IVec.lean and Model/Accessors.lean.
-/

namespace Zcm

/-- `+=`, `-=`, `*=`, `/=` -/
inductive OpKind where
  | add | sub | mul | div
  deriving DecidableEq, Repr

/-- `++x`, `x++`, `--x`, `x--` -/
inductive StepKind where
  | preInc | postInc | preDec | postDec
  deriving DecidableEq, Repr

/-- One statement; `x` and `y` are variables. -/
inductive VecCmd (α : Type) where
  /-- `x[i] = a;` -/
  | write (x : ℕ) (i : UInt32) (a : α)
  /-- `x[i] = y[j];` -/
  | copyAt (x : ℕ) (i : UInt32) (y : ℕ) (j : UInt32)
  /-- output of `x[i]` -/
  | read (x : ℕ) (i : UInt32)
  /-- output of `x.l` -/
  | readName (x : ℕ) (l : Letter)
  /-- `x.l = a;` -/
  | name (x : ℕ) (l : Letter) (a : α)
  /-- `x.l op= a;` -/
  | nameOp (x : ℕ) (l : Letter) (k : OpKind) (a : α)
  /-- `++x.l` and so on; outputs the value of the expression -/
  | nameStep (x : ℕ) (l : Letter) (k : StepKind)
  /-- `x = y;` -/
  | assign (x y : ℕ)
  /-- `x op= y;` -/
  | vecOp (x : ℕ) (k : OpKind) (y : ℕ)
  /-- `x op= a;` -/
  | scalarOp (x : ℕ) (k : OpKind) (a : α)
  /-- `++x` and so on; outputs the components of the value of the expression -/
  | step (x : ℕ) (k : StepKind)
  deriving DecidableEq, Repr

variable {α : Type} [Add α] [Sub α] [Mul α] [Div α] [FloatOps α]

/-- `op=` of a component accessor: include/zcm/detail/vec2_access.hpp:16-27 and the same for 3, 4 -/
def Acc.op {n : ℕ} (k : OpKind) (d : Fin n → α) (i : Fin n) (a : α) : Fin n → α :=
  match k with
  | .add => Acc.addAssign d i a
  | .sub => Acc.subAssign d i a
  | .mul => Acc.mulAssign d i a
  | .div => Acc.divAssign d i a

/-- `++`/`--` of a component accessor: include/zcm/detail/vec2_access.hpp:32-43 and the same for 3, 4 -/
def Acc.step {n : ℕ} (k : StepKind) (d : Fin n → α) (i : Fin n) : (Fin n → α) × α :=
  match k with
  | .preInc => Acc.preInc d i
  | .postInc => Acc.postInc d i
  | .preDec => Acc.preDec d i
  | .postDec => Acc.postDec d i

/-! ## vec2 -/

/-- `vec2 op= vec2`: src/vec2.cpp, the functions modelled by `V2.addAssign` and so on -/
def V2.op (k : OpKind) (v w : V2 α) : V2 α :=
  match k with
  | .add => V2.addAssign v w
  | .sub => V2.subAssign v w
  | .mul => V2.mulAssign v w
  | .div => V2.divAssign v w

/-- `vec2 op= float` -/
def V2.opS (k : OpKind) (v : V2 α) (a : α) : V2 α :=
  match k with
  | .add => V2.addAssignS v a
  | .sub => V2.subAssignS v a
  | .mul => V2.mulAssignS v a
  | .div => V2.divAssignS v a

/-- `++`/`--` of `vec2` -/
def V2.incDec (k : StepKind) (v : V2 α) : V2 α × V2 α :=
  match k with
  | .preInc => V2.preInc v
  | .postInc => V2.postInc v
  | .preDec => V2.preDec v
  | .postDec => V2.postDec v

/-- One statement on `vec2` variables: the variables afterwards and what it outputs.  A member name the
header does not declare would not compile; it is given the outcome `ub`. -/
def V2.exec (b : Build) (c : VecCmd α) (σ : ℕ → V2 α) : Res ((ℕ → V2 α) × List α) :=
  match c with
  | .write x i a => do
    let v ← V2.set b (σ x) i a
    .ok (Function.update σ x v, [])
  | .copyAt x i y j => do
    let a ← V2.at b (σ y) j
    let v ← V2.set b (σ x) i a
    .ok (Function.update σ x v, [])
  | .read x i => do
    let a ← V2.at b (σ x) i
    .ok (σ, [a])
  | .readName x l =>
    match V2.scalars.lookup l with
    | some i => .ok (σ, [Acc.get (σ x).data i])
    | none => .ub
  | .name x l a =>
    match V2.scalars.lookup l with
    | some i => .ok (Function.update σ x (V2.ofData (Acc.assign (σ x).data i a)), [])
    | none => .ub
  | .nameOp x l k a =>
    match V2.scalars.lookup l with
    | some i => .ok (Function.update σ x (V2.ofData (Acc.op k (σ x).data i a)), [])
    | none => .ub
  | .nameStep x l k =>
    match V2.scalars.lookup l with
    | some i =>
      let p := Acc.step k (σ x).data i
      .ok (Function.update σ x (V2.ofData p.1), [p.2])
    | none => .ub
  | .assign x y => .ok (Function.update σ x (σ y), [])
  | .vecOp x k y => .ok (Function.update σ x (V2.op k (σ x) (σ y)), [])
  | .scalarOp x k a => .ok (Function.update σ x (V2.opS k (σ x) a), [])
  | .step x k =>
    let p := V2.incDec k (σ x)
    .ok (Function.update σ x p.1, [p.2.x, p.2.y])

/-- A program on `vec2` variables: the variables at the end and everything it output. -/
def V2.run (b : Build) : List (VecCmd α) → (ℕ → V2 α) → Res ((ℕ → V2 α) × List α)
  | [], σ => .ok (σ, [])
  | c :: p, σ => do
    let r ← V2.exec b c σ
    let s ← V2.run b p r.1
    .ok (s.1, r.2 ++ s.2)

/-! ## vec3 -/

/-- `vec3 op= vec3`: src/vec3.cpp, the functions modelled by `V3.addAssign` and so on -/
def V3.op (k : OpKind) (v w : V3 α) : V3 α :=
  match k with
  | .add => V3.addAssign v w
  | .sub => V3.subAssign v w
  | .mul => V3.mulAssign v w
  | .div => V3.divAssign v w

/-- `vec3 op= float` -/
def V3.opS (k : OpKind) (v : V3 α) (a : α) : V3 α :=
  match k with
  | .add => V3.addAssignS v a
  | .sub => V3.subAssignS v a
  | .mul => V3.mulAssignS v a
  | .div => V3.divAssignS v a

/-- `++`/`--` of `vec3` -/
def V3.incDec (k : StepKind) (v : V3 α) : V3 α × V3 α :=
  match k with
  | .preInc => V3.preInc v
  | .postInc => V3.postInc v
  | .preDec => V3.preDec v
  | .postDec => V3.postDec v

/-- One statement on `vec3` variables: the variables afterwards and what it outputs.  A member name the
header does not declare would not compile; it is given the outcome `ub`. -/
def V3.exec (b : Build) (c : VecCmd α) (σ : ℕ → V3 α) : Res ((ℕ → V3 α) × List α) :=
  match c with
  | .write x i a => do
    let v ← V3.set b (σ x) i a
    .ok (Function.update σ x v, [])
  | .copyAt x i y j => do
    let a ← V3.at b (σ y) j
    let v ← V3.set b (σ x) i a
    .ok (Function.update σ x v, [])
  | .read x i => do
    let a ← V3.at b (σ x) i
    .ok (σ, [a])
  | .readName x l =>
    match V3.scalars.lookup l with
    | some i => .ok (σ, [Acc.get (σ x).data i])
    | none => .ub
  | .name x l a =>
    match V3.scalars.lookup l with
    | some i => .ok (Function.update σ x (V3.ofData (Acc.assign (σ x).data i a)), [])
    | none => .ub
  | .nameOp x l k a =>
    match V3.scalars.lookup l with
    | some i => .ok (Function.update σ x (V3.ofData (Acc.op k (σ x).data i a)), [])
    | none => .ub
  | .nameStep x l k =>
    match V3.scalars.lookup l with
    | some i =>
      let p := Acc.step k (σ x).data i
      .ok (Function.update σ x (V3.ofData p.1), [p.2])
    | none => .ub
  | .assign x y => .ok (Function.update σ x (σ y), [])
  | .vecOp x k y => .ok (Function.update σ x (V3.op k (σ x) (σ y)), [])
  | .scalarOp x k a => .ok (Function.update σ x (V3.opS k (σ x) a), [])
  | .step x k =>
    let p := V3.incDec k (σ x)
    .ok (Function.update σ x p.1, [p.2.x, p.2.y, p.2.z])

/-- A program on `vec3` variables: the variables at the end and everything it output. -/
def V3.run (b : Build) : List (VecCmd α) → (ℕ → V3 α) → Res ((ℕ → V3 α) × List α)
  | [], σ => .ok (σ, [])
  | c :: p, σ => do
    let r ← V3.exec b c σ
    let s ← V3.run b p r.1
    .ok (s.1, r.2 ++ s.2)

/-! ## vec4 -/

/-- `vec4 op= vec4`: src/vec4.cpp, the functions modelled by `V4.addAssign` and so on -/
def V4.op (k : OpKind) (v w : V4 α) : V4 α :=
  match k with
  | .add => V4.addAssign v w
  | .sub => V4.subAssign v w
  | .mul => V4.mulAssign v w
  | .div => V4.divAssign v w

/-- `vec4 op= float` -/
def V4.opS (k : OpKind) (v : V4 α) (a : α) : V4 α :=
  match k with
  | .add => V4.addAssignS v a
  | .sub => V4.subAssignS v a
  | .mul => V4.mulAssignS v a
  | .div => V4.divAssignS v a

/-- `++`/`--` of `vec4` -/
def V4.incDec (k : StepKind) (v : V4 α) : V4 α × V4 α :=
  match k with
  | .preInc => V4.preInc v
  | .postInc => V4.postInc v
  | .preDec => V4.preDec v
  | .postDec => V4.postDec v

/-- One statement on `vec4` variables: the variables afterwards and what it outputs.  A member name the
header does not declare would not compile; it is given the outcome `ub`. -/
def V4.exec (b : Build) (c : VecCmd α) (σ : ℕ → V4 α) : Res ((ℕ → V4 α) × List α) :=
  match c with
  | .write x i a => do
    let v ← V4.set b (σ x) i a
    .ok (Function.update σ x v, [])
  | .copyAt x i y j => do
    let a ← V4.at b (σ y) j
    let v ← V4.set b (σ x) i a
    .ok (Function.update σ x v, [])
  | .read x i => do
    let a ← V4.at b (σ x) i
    .ok (σ, [a])
  | .readName x l =>
    match V4.scalars.lookup l with
    | some i => .ok (σ, [Acc.get (σ x).data i])
    | none => .ub
  | .name x l a =>
    match V4.scalars.lookup l with
    | some i => .ok (Function.update σ x (V4.ofData (Acc.assign (σ x).data i a)), [])
    | none => .ub
  | .nameOp x l k a =>
    match V4.scalars.lookup l with
    | some i => .ok (Function.update σ x (V4.ofData (Acc.op k (σ x).data i a)), [])
    | none => .ub
  | .nameStep x l k =>
    match V4.scalars.lookup l with
    | some i =>
      let p := Acc.step k (σ x).data i
      .ok (Function.update σ x (V4.ofData p.1), [p.2])
    | none => .ub
  | .assign x y => .ok (Function.update σ x (σ y), [])
  | .vecOp x k y => .ok (Function.update σ x (V4.op k (σ x) (σ y)), [])
  | .scalarOp x k a => .ok (Function.update σ x (V4.opS k (σ x) a), [])
  | .step x k =>
    let p := V4.incDec k (σ x)
    .ok (Function.update σ x p.1, [p.2.x, p.2.y, p.2.z, p.2.w])

/-- A program on `vec4` variables: the variables at the end and everything it output. -/
def V4.run (b : Build) : List (VecCmd α) → (ℕ → V4 α) → Res ((ℕ → V4 α) × List α)
  | [], σ => .ok (σ, [])
  | c :: p, σ => do
    let r ← V4.exec b c σ
    let s ← V4.run b p r.1
    .ok (s.1, r.2 ++ s.2)

end Zcm
