import Verif.Model.History

/-!
# Client programs on integer vector variables

As Model/History.lean, for include/zcm/ivec{2,3,4}.hpp and src/ivec{2,3,4}.cpp; `int32_t` arithmetic can be
undefined, so every statement has an outcome.
-/

namespace Zcm

/-- `+=`, `-=`, `*=`, `/=`, `%=`, `<<=`, `>>=` -/
inductive IntKind where
  | add | sub | mul | div | mod | shl | shr
  deriving DecidableEq, Repr

/-- The operators `ivec4` has: `%`, `<<` and `>>` are declared in include/zcm/ivec4.hpp but defined nowhere,
so a program that uses them does not link. -/
def IntKind.onIvec (k : IntKind) (n : ℕ) : Bool :=
  match k with
  | .add | .sub | .mul | .div => true
  | .mod | .shl | .shr => n ≠ 4

/-- One statement; `x` and `y` are variables. -/
inductive IvecCmd where
  /-- `x[i] = a;` -/
  | write (x : ℕ) (i : UInt32) (a : I32)
  /-- `x[i] = y[j];` -/
  | copyAt (x : ℕ) (i : UInt32) (y : ℕ) (j : UInt32)
  /-- output of `x[i]` -/
  | read (x : ℕ) (i : UInt32)
  /-- output of `x.l` -/
  | readName (x : ℕ) (l : Letter)
  /-- `x.l = a;` -/
  | name (x : ℕ) (l : Letter) (a : I32)
  /-- `x.l op= a;` -/
  | nameOp (x : ℕ) (l : Letter) (k : IntKind) (a : I32)
  /-- `++x.l` and so on; outputs the value of the expression -/
  | nameStep (x : ℕ) (l : Letter) (k : StepKind)
  /-- `x = y;` -/
  | assign (x y : ℕ)
  /-- `x op= y;` -/
  | vecOp (x : ℕ) (k : IntKind) (y : ℕ)
  /-- `x op= a;` -/
  | scalarOp (x : ℕ) (k : IntKind) (a : I32)
  /-- `++x` and so on; outputs the components of the value of the expression -/
  | step (x : ℕ) (k : StepKind)
  deriving DecidableEq, Repr

/-- `op=` of a component accessor: include/zcm/detail/vec2_access.hpp and the same for 3, 4 -/
def Acc.opI {n : ℕ} (k : IntKind) (d : Fin n → I32) (i : Fin n) (a : I32) : Res (Fin n → I32) :=
  match k with
  | .add => Acc.addAssignI d i a
  | .sub => Acc.subAssignI d i a
  | .mul => Acc.mulAssignI d i a
  | .div => Acc.divAssignI d i a
  | .mod => Acc.modAssignI d i a
  | .shl => Acc.shlAssignI d i a
  | .shr => Acc.shrAssignI d i a

/-- `++`/`--` of a component accessor: include/zcm/detail/vec2_access.hpp and the same for 3, 4 -/
def Acc.stepI {n : ℕ} (k : StepKind) (d : Fin n → I32) (i : Fin n) : Res ((Fin n → I32) × I32) :=
  match k with
  | .preInc => Acc.preIncI d i
  | .postInc => Acc.postIncI d i
  | .preDec => Acc.preDecI d i
  | .postDec => Acc.postDecI d i

/-! ## ivec2 -/

/-- `ivec2 op= ivec2`: src/ivec2.cpp -/
def IV2.op (k : IntKind) (v w : V2 I32) : Res (V2 I32) :=
  match k with
  | .add => IV2.addAssign v w
  | .sub => IV2.subAssign v w
  | .mul => IV2.mulAssign v w
  | .div => IV2.divAssign v w
  | .mod => IV2.modAssign v w
  | .shl => IV2.shlAssign v w
  | .shr => IV2.shrAssign v w

/-- `ivec2 op= int` -/
def IV2.opS (k : IntKind) (v : V2 I32) (a : I32) : Res (V2 I32) :=
  match k with
  | .add => IV2.addAssignS v a
  | .sub => IV2.subAssignS v a
  | .mul => IV2.mulAssignS v a
  | .div => IV2.divAssignS v a
  | .mod => IV2.modAssignS v a
  | .shl => IV2.shlAssignS v a
  | .shr => IV2.shrAssignS v a

/-- `++`/`--` of `ivec2` -/
def IV2.incDec (k : StepKind) (v : V2 I32) : Res (V2 I32 × V2 I32) :=
  match k with
  | .preInc => IV2.preInc v
  | .postInc => IV2.postInc v
  | .preDec => IV2.preDec v
  | .postDec => IV2.postDec v

/-- One statement on `ivec2` variables: the variables afterwards and what it outputs.  A member name the
header does not declare would not compile; it is given the outcome `ub`. -/
def IV2.exec (b : Build) (c : IvecCmd) (σ : ℕ → V2 I32) : Res ((ℕ → V2 I32) × List I32) :=
  match c with
  | .write x i a => do
    let v ← IV2.set b (σ x) i a
    .ok (Function.update σ x v, [])
  | .copyAt x i y j => do
    let a ← IV2.at b (σ y) j
    let v ← IV2.set b (σ x) i a
    .ok (Function.update σ x v, [])
  | .read x i => do
    let a ← IV2.at b (σ x) i
    .ok (σ, [a])
  | .readName x l =>
    match IV2.scalars.lookup l with
    | some i => .ok (σ, [Acc.get (σ x).data i])
    | none => .ub
  | .name x l a =>
    match IV2.scalars.lookup l with
    | some i => .ok (Function.update σ x (V2.ofData (Acc.assign (σ x).data i a)), [])
    | none => .ub
  | .nameOp x l k a =>
    match IV2.scalars.lookup l with
    | some i => do
      let d ← Acc.opI k (σ x).data i a
      .ok (Function.update σ x (V2.ofData d), [])
    | none => .ub
  | .nameStep x l k =>
    match IV2.scalars.lookup l with
    | some i => do
      let p ← Acc.stepI k (σ x).data i
      .ok (Function.update σ x (V2.ofData p.1), [p.2])
    | none => .ub
  | .assign x y => .ok (Function.update σ x (σ y), [])
  | .vecOp x k y => do
    let v ← IV2.op k (σ x) (σ y)
    .ok (Function.update σ x v, [])
  | .scalarOp x k a => do
    let v ← IV2.opS k (σ x) a
    .ok (Function.update σ x v, [])
  | .step x k => do
    let p ← IV2.incDec k (σ x)
    .ok (Function.update σ x p.1, [p.2.x, p.2.y])

/-- A program on `ivec2` variables: the variables at the end and everything it output. -/
def IV2.run (b : Build) : List IvecCmd → (ℕ → V2 I32) → Res ((ℕ → V2 I32) × List I32)
  | [], σ => .ok (σ, [])
  | c :: p, σ => do
    let r ← IV2.exec b c σ
    let s ← IV2.run b p r.1
    .ok (s.1, r.2 ++ s.2)

/-! ## ivec3 -/

/-- `ivec3 op= ivec3`: src/ivec3.cpp -/
def IV3.op (k : IntKind) (v w : V3 I32) : Res (V3 I32) :=
  match k with
  | .add => IV3.addAssign v w
  | .sub => IV3.subAssign v w
  | .mul => IV3.mulAssign v w
  | .div => IV3.divAssign v w
  | .mod => IV3.modAssign v w
  | .shl => IV3.shlAssign v w
  | .shr => IV3.shrAssign v w

/-- `ivec3 op= int` -/
def IV3.opS (k : IntKind) (v : V3 I32) (a : I32) : Res (V3 I32) :=
  match k with
  | .add => IV3.addAssignS v a
  | .sub => IV3.subAssignS v a
  | .mul => IV3.mulAssignS v a
  | .div => IV3.divAssignS v a
  | .mod => IV3.modAssignS v a
  | .shl => IV3.shlAssignS v a
  | .shr => IV3.shrAssignS v a

/-- `++`/`--` of `ivec3` -/
def IV3.incDec (k : StepKind) (v : V3 I32) : Res (V3 I32 × V3 I32) :=
  match k with
  | .preInc => IV3.preInc v
  | .postInc => IV3.postInc v
  | .preDec => IV3.preDec v
  | .postDec => IV3.postDec v

/-- One statement on `ivec3` variables: the variables afterwards and what it outputs.  A member name the
header does not declare would not compile; it is given the outcome `ub`. -/
def IV3.exec (b : Build) (c : IvecCmd) (σ : ℕ → V3 I32) : Res ((ℕ → V3 I32) × List I32) :=
  match c with
  | .write x i a => do
    let v ← IV3.set b (σ x) i a
    .ok (Function.update σ x v, [])
  | .copyAt x i y j => do
    let a ← IV3.at b (σ y) j
    let v ← IV3.set b (σ x) i a
    .ok (Function.update σ x v, [])
  | .read x i => do
    let a ← IV3.at b (σ x) i
    .ok (σ, [a])
  | .readName x l =>
    match IV3.scalars.lookup l with
    | some i => .ok (σ, [Acc.get (σ x).data i])
    | none => .ub
  | .name x l a =>
    match IV3.scalars.lookup l with
    | some i => .ok (Function.update σ x (V3.ofData (Acc.assign (σ x).data i a)), [])
    | none => .ub
  | .nameOp x l k a =>
    match IV3.scalars.lookup l with
    | some i => do
      let d ← Acc.opI k (σ x).data i a
      .ok (Function.update σ x (V3.ofData d), [])
    | none => .ub
  | .nameStep x l k =>
    match IV3.scalars.lookup l with
    | some i => do
      let p ← Acc.stepI k (σ x).data i
      .ok (Function.update σ x (V3.ofData p.1), [p.2])
    | none => .ub
  | .assign x y => .ok (Function.update σ x (σ y), [])
  | .vecOp x k y => do
    let v ← IV3.op k (σ x) (σ y)
    .ok (Function.update σ x v, [])
  | .scalarOp x k a => do
    let v ← IV3.opS k (σ x) a
    .ok (Function.update σ x v, [])
  | .step x k => do
    let p ← IV3.incDec k (σ x)
    .ok (Function.update σ x p.1, [p.2.x, p.2.y, p.2.z])

/-- A program on `ivec3` variables: the variables at the end and everything it output. -/
def IV3.run (b : Build) : List IvecCmd → (ℕ → V3 I32) → Res ((ℕ → V3 I32) × List I32)
  | [], σ => .ok (σ, [])
  | c :: p, σ => do
    let r ← IV3.exec b c σ
    let s ← IV3.run b p r.1
    .ok (s.1, r.2 ++ s.2)

/-! ## ivec4 -/

/-- `ivec4 op= ivec4`: src/ivec4.cpp; an operator that does not link is given the outcome `ub` -/
def IV4.op (k : IntKind) (v w : V4 I32) : Res (V4 I32) :=
  match k with
  | .add => IV4.addAssign v w
  | .sub => IV4.subAssign v w
  | .mul => IV4.mulAssign v w
  | .div => IV4.divAssign v w
  | .mod | .shl | .shr => .ub

/-- `ivec4 op= int` -/
def IV4.opS (k : IntKind) (v : V4 I32) (a : I32) : Res (V4 I32) :=
  match k with
  | .add => IV4.addAssignS v a
  | .sub => IV4.subAssignS v a
  | .mul => IV4.mulAssignS v a
  | .div => IV4.divAssignS v a
  | .mod | .shl | .shr => .ub

/-- `++`/`--` of `ivec4` -/
def IV4.incDec (k : StepKind) (v : V4 I32) : Res (V4 I32 × V4 I32) :=
  match k with
  | .preInc => IV4.preInc v
  | .postInc => IV4.postInc v
  | .preDec => IV4.preDec v
  | .postDec => IV4.postDec v

/-- One statement on `ivec4` variables: the variables afterwards and what it outputs.  A member name the
header does not declare would not compile; it is given the outcome `ub`. -/
def IV4.exec (b : Build) (c : IvecCmd) (σ : ℕ → V4 I32) : Res ((ℕ → V4 I32) × List I32) :=
  match c with
  | .write x i a => do
    let v ← IV4.set b (σ x) i a
    .ok (Function.update σ x v, [])
  | .copyAt x i y j => do
    let a ← IV4.at b (σ y) j
    let v ← IV4.set b (σ x) i a
    .ok (Function.update σ x v, [])
  | .read x i => do
    let a ← IV4.at b (σ x) i
    .ok (σ, [a])
  | .readName x l =>
    match IV4.scalars.lookup l with
    | some i => .ok (σ, [Acc.get (σ x).data i])
    | none => .ub
  | .name x l a =>
    match IV4.scalars.lookup l with
    | some i => .ok (Function.update σ x (V4.ofData (Acc.assign (σ x).data i a)), [])
    | none => .ub
  | .nameOp x l k a =>
    match IV4.scalars.lookup l with
    | some i => do
      let d ← Acc.opI k (σ x).data i a
      .ok (Function.update σ x (V4.ofData d), [])
    | none => .ub
  | .nameStep x l k =>
    match IV4.scalars.lookup l with
    | some i => do
      let p ← Acc.stepI k (σ x).data i
      .ok (Function.update σ x (V4.ofData p.1), [p.2])
    | none => .ub
  | .assign x y => .ok (Function.update σ x (σ y), [])
  | .vecOp x k y => do
    let v ← IV4.op k (σ x) (σ y)
    .ok (Function.update σ x v, [])
  | .scalarOp x k a => do
    let v ← IV4.opS k (σ x) a
    .ok (Function.update σ x v, [])
  | .step x k => do
    let p ← IV4.incDec k (σ x)
    .ok (Function.update σ x p.1, [p.2.x, p.2.y, p.2.z, p.2.w])

/-- A program on `ivec4` variables: the variables at the end and everything it output. -/
def IV4.run (b : Build) : List IvecCmd → (ℕ → V4 I32) → Res ((ℕ → V4 I32) × List I32)
  | [], σ => .ok (σ, [])
  | c :: p, σ => do
    let r ← IV4.exec b c σ
    let s ← IV4.run b p r.1
    .ok (s.1, r.2 ++ s.2)

end Zcm
