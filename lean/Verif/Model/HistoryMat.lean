import Verif.Model.History
import Verif.Model.Matrix
import Verif.Model.Quat
import Verif.Model.BVec
import Verif.Model.Common

/-!
# Client programs: sequences of statements on matrix, quaternion and boolean vector variables

A client of the library owns variables `0, 1, 2, …` of one type and executes a list of statements on
them.  Not a file of /repo: each statement calls the one or two functions of src/mat{2,3,4}.cpp,
src/matrix.cpp, src/quat.cpp, src/quaternion.cpp, src/geometric.cpp or src/bvec{2,3,4}.cpp it names, modelled in
Model/Mat.lean, Model/Matrix.lean, Model/QuatBasic.lean, Model/Quat.lean, Model/Geometric.lean and Model/BVec.lean.
-/

namespace Zcm

/-- A program: the variables at the end and everything it output.  `exec` runs one statement. -/
def runStatements {C S O : Type} (exec : C → S → Res (S × List O)) : List C → S → Res (S × List O)
  | [], σ => .ok (σ, [])
  | c :: p, σ => do
    let r ← exec c σ
    let s ← runStatements exec p r.1
    .ok (s.1, r.2 ++ s.2)

/-- One statement on matrices; `x` and `y` are variables and may be the same one. -/
inductive MatCmd (α : Type) where
  /-- `x[c][r] = a;` -/
  | write (x : ℕ) (c r : UInt32) (a : α)
  /-- output of `x[c][r]` -/
  | read (x : ℕ) (c r : UInt32)
  /-- `x[c] = y[d];` -/
  | copyCol (x : ℕ) (c : UInt32) (y : ℕ) (d : UInt32)
  /-- `x[c] op= y[d];` -/
  | colOp (x : ℕ) (c : UInt32) (k : OpKind) (y : ℕ) (d : UInt32)
  /-- `x = y;` -/
  | assign (x y : ℕ)
  /-- `x op= y;` -/
  | op (x : ℕ) (k : OpKind) (y : ℕ)
  /-- `x = y * a;` -/
  | mulS (x y : ℕ) (a : α)
  /-- `x = y / a;` -/
  | divS (x y : ℕ) (a : α)
  /-- `x = transpose(y);` -/
  | transpose (x y : ℕ)
  /-- `x = inverse(y);` -/
  | inverse (x y : ℕ)
  deriving DecidableEq, Repr

/-- `+=`, `-=`, `*=` of quaternions -/
inductive QuatOp where
  | add | sub | mul
  deriving DecidableEq, Repr

/-- One statement on quaternions. -/
inductive QuatCmd (α : Type) where
  /-- `x[i] = a;` -/
  | write (x : ℕ) (i : UInt32) (a : α)
  /-- output of `x[i]` -/
  | read (x : ℕ) (i : UInt32)
  /-- `x = y;` -/
  | assign (x y : ℕ)
  /-- `x op= y;` -/
  | op (x : ℕ) (k : QuatOp) (y : ℕ)
  /-- `x *= a;` -/
  | mulS (x : ℕ) (a : α)
  /-- `x /= a;` -/
  | divS (x : ℕ) (a : α)
  /-- `x = conjugate(y);` -/
  | conjugate (x y : ℕ)
  /-- `x = inverse(y);` -/
  | inverse (x y : ℕ)
  /-- `x = normalize(y);` -/
  | normalize (x y : ℕ)
  deriving DecidableEq, Repr

/-- `&=`, `|=`, `^=` -/
inductive BoolOp where
  | and | or | xor
  deriving DecidableEq, Repr

/-- One statement on boolean vectors. -/
inductive BvecCmd where
  /-- `x[i] = a;` -/
  | write (x : ℕ) (i : UInt32) (a : Bool)
  /-- `x[i] = y[j];` -/
  | copyAt (x : ℕ) (i : UInt32) (y : ℕ) (j : UInt32)
  /-- output of `x[i]` -/
  | read (x : ℕ) (i : UInt32)
  /-- `x = y;` -/
  | assign (x y : ℕ)
  /-- `x op= y;` -/
  | op (x : ℕ) (k : BoolOp) (y : ℕ)
  /-- `x op= a;` -/
  | opS (x : ℕ) (k : BoolOp) (a : Bool)
  /-- `x = !y;` -/
  | not (x y : ℕ)
  /-- output of `all(x)` -/
  | all (x : ℕ)
  /-- output of `any(x)` -/
  | any (x : ℕ)
  deriving DecidableEq, Repr

variable {α : Type} [Add α] [Sub α] [Mul α] [Div α] [Neg α] [FloatOps α] [Libm α]

/-! ## mat2 -/

/-- One statement on `mat2` variables: the functions of src/mat2.cpp and src/vec2.cpp it calls, in that order. -/
def M2.exec (b : Build) (c : MatCmd α) (σ : ℕ → M2 α) : Res ((ℕ → M2 α) × List α) :=
  match c with
  | .write x c r a => do
    let m ← M2.setEntry b (σ x) c r a
    .ok (Function.update σ x m, [])
  | .read x c r => do
    let a ← M2.entry b (σ x) c r
    .ok (σ, [a])
  | .copyCol x c y d => do
    let v ← M2.at b (σ y) d
    let m ← M2.set b (σ x) c v
    .ok (Function.update σ x m, [])
  | .colOp x c k y d => do
    let v ← M2.at b (σ y) d
    let w ← M2.at b (σ x) c
    let m ← M2.set b (σ x) c (V2.op k w v)
    .ok (Function.update σ x m, [])
  | .assign x y => .ok (Function.update σ x (σ y), [])
  | .op x k y =>
    match k with
    | .add => .ok (M2.addAssign σ x y, [])
    | .sub => .ok (M2.subAssign σ x y, [])
    | .mul => .ok (M2.mulAssign σ x y, [])
    | .div => .ok (M2.divAssign σ x y, [])
  | .mulS x y a => .ok (Function.update σ x (σ y * a), [])
  | .divS x y a => .ok (Function.update σ x (σ y / a), [])
  | .transpose x y => .ok (Function.update σ x (M2.transpose (σ y)), [])
  | .inverse x y => .ok (Function.update σ x (M2.inverse (σ y)), [])

/-! ## mat3 -/

/-- One statement on `mat3` variables: the functions of src/mat3.cpp and src/vec3.cpp it calls, in that order. -/
def M3.exec (b : Build) (c : MatCmd α) (σ : ℕ → M3 α) : Res ((ℕ → M3 α) × List α) :=
  match c with
  | .write x c r a => do
    let m ← M3.setEntry b (σ x) c r a
    .ok (Function.update σ x m, [])
  | .read x c r => do
    let a ← M3.entry b (σ x) c r
    .ok (σ, [a])
  | .copyCol x c y d => do
    let v ← M3.at b (σ y) d
    let m ← M3.set b (σ x) c v
    .ok (Function.update σ x m, [])
  | .colOp x c k y d => do
    let v ← M3.at b (σ y) d
    let w ← M3.at b (σ x) c
    let m ← M3.set b (σ x) c (V3.op k w v)
    .ok (Function.update σ x m, [])
  | .assign x y => .ok (Function.update σ x (σ y), [])
  | .op x k y =>
    match k with
    | .add => .ok (M3.addAssign σ x y, [])
    | .sub => .ok (M3.subAssign σ x y, [])
    | .mul => .ok (M3.mulAssign σ x y, [])
    | .div => .ok (M3.divAssign σ x y, [])
  | .mulS x y a => .ok (Function.update σ x (σ y * a), [])
  | .divS x y a => .ok (Function.update σ x (σ y / a), [])
  | .transpose x y => .ok (Function.update σ x (M3.transpose (σ y)), [])
  | .inverse x y => .ok (Function.update σ x (M3.inverse (σ y)), [])

/-! ## mat4 -/

/-- One statement on `mat4` variables: the functions of src/mat4.cpp and src/vec4.cpp it calls, in that order. -/
def M4.exec (b : Build) (c : MatCmd α) (σ : ℕ → M4 α) : Res ((ℕ → M4 α) × List α) :=
  match c with
  | .write x c r a => do
    let m ← M4.setEntry b (σ x) c r a
    .ok (Function.update σ x m, [])
  | .read x c r => do
    let a ← M4.entry b (σ x) c r
    .ok (σ, [a])
  | .copyCol x c y d => do
    let v ← M4.at b (σ y) d
    let m ← M4.set b (σ x) c v
    .ok (Function.update σ x m, [])
  | .colOp x c k y d => do
    let v ← M4.at b (σ y) d
    let w ← M4.at b (σ x) c
    let m ← M4.set b (σ x) c (V4.op k w v)
    .ok (Function.update σ x m, [])
  | .assign x y => .ok (Function.update σ x (σ y), [])
  | .op x k y =>
    match k with
    | .add => .ok (M4.addAssign σ x y, [])
    | .sub => .ok (M4.subAssign σ x y, [])
    | .mul => .ok (M4.mulAssign σ x y, [])
    | .div => .ok (M4.divAssign σ x y, [])
  | .mulS x y a => .ok (Function.update σ x (σ y * a), [])
  | .divS x y a => .ok (Function.update σ x (σ y / a), [])
  | .transpose x y => .ok (Function.update σ x (M4.transpose (σ y)), [])
  | .inverse x y => .ok (Function.update σ x (M4.inverse (σ y)), [])

/-! ## quat -/

/-- One statement on `quat` variables: the functions of src/quat.cpp, src/quaternion.cpp (`conjugate`, `inverse`)
and src/geometric.cpp (`normalize`) it calls. -/
def Quat.exec (b : Build) (c : QuatCmd α) (σ : ℕ → Quat α) : Res ((ℕ → Quat α) × List α) :=
  match c with
  | .write x i a => do
    let q ← Quat.set b (σ x) i a
    .ok (Function.update σ x q, [])
  | .read x i => do
    let a ← Quat.at b (σ x) i
    .ok (σ, [a])
  | .assign x y => .ok (Function.update σ x (σ y), [])
  | .op x k y =>
    match k with
    | .add => .ok (Quat.addAssign σ x y, [])
    | .sub => .ok (Quat.subAssign σ x y, [])
    | .mul => .ok (Quat.mulAssign σ x y, [])
  | .mulS x a => .ok (Function.update σ x (Quat.mulAssignS (σ x) a), [])
  | .divS x a => .ok (Function.update σ x (Quat.divAssignS (σ x) a), [])
  | .conjugate x y => .ok (Function.update σ x (Quat.conjugate (σ y)), [])
  | .inverse x y => .ok (Function.update σ x (Quat.inverse (σ y)), [])
  | .normalize x y => .ok (Function.update σ x (Quat.normalize (σ y)), [])

/-! ## bvec2 -/

/-- One statement on `bvec2` variables: the functions of src/bvec2.cpp (`all`, `any`: src/common.cpp) it calls. -/
def BV2.exec (b : Build) (c : BvecCmd) (σ : ℕ → V2 Bool) : Res ((ℕ → V2 Bool) × List Bool) :=
  match c with
  | .write x i a => do
    let v ← BV2.set b (σ x) i a
    .ok (Function.update σ x v, [])
  | .copyAt x i y j => do
    let a ← BV2.at b (σ y) j
    let v ← BV2.set b (σ x) i a
    .ok (Function.update σ x v, [])
  | .read x i => do
    let a ← BV2.at b (σ x) i
    .ok (σ, [a])
  | .assign x y => .ok (Function.update σ x (σ y), [])
  | .op x k y =>
    match k with
    | .and => .ok (Function.update σ x (BV2.andAssign (σ x) (σ y)), [])
    | .or => .ok (Function.update σ x (BV2.orAssign (σ x) (σ y)), [])
    | .xor => .ok (Function.update σ x (BV2.xorAssign (σ x) (σ y)), [])
  | .opS x k a =>
    match k with
    | .and => .ok (Function.update σ x (BV2.andAssignS (σ x) a), [])
    | .or => .ok (Function.update σ x (BV2.orAssignS (σ x) a), [])
    | .xor => .ok (Function.update σ x (BV2.xorAssignS (σ x) a), [])
  | .not x y => .ok (Function.update σ x (BV2.not (σ y)), [])
  | .all x => .ok (σ, [BV2.all (σ x)])
  | .any x => .ok (σ, [BV2.any (σ x)])

/-! ## bvec3 -/

/-- One statement on `bvec3` variables: the functions of src/bvec3.cpp (`all`, `any`: src/common.cpp) it calls. -/
def BV3.exec (b : Build) (c : BvecCmd) (σ : ℕ → V3 Bool) : Res ((ℕ → V3 Bool) × List Bool) :=
  match c with
  | .write x i a => do
    let v ← BV3.set b (σ x) i a
    .ok (Function.update σ x v, [])
  | .copyAt x i y j => do
    let a ← BV3.at b (σ y) j
    let v ← BV3.set b (σ x) i a
    .ok (Function.update σ x v, [])
  | .read x i => do
    let a ← BV3.at b (σ x) i
    .ok (σ, [a])
  | .assign x y => .ok (Function.update σ x (σ y), [])
  | .op x k y =>
    match k with
    | .and => .ok (Function.update σ x (BV3.andAssign (σ x) (σ y)), [])
    | .or => .ok (Function.update σ x (BV3.orAssign (σ x) (σ y)), [])
    | .xor => .ok (Function.update σ x (BV3.xorAssign (σ x) (σ y)), [])
  | .opS x k a =>
    match k with
    | .and => .ok (Function.update σ x (BV3.andAssignS (σ x) a), [])
    | .or => .ok (Function.update σ x (BV3.orAssignS (σ x) a), [])
    | .xor => .ok (Function.update σ x (BV3.xorAssignS (σ x) a), [])
  | .not x y => .ok (Function.update σ x (BV3.not (σ y)), [])
  | .all x => .ok (σ, [BV3.all (σ x)])
  | .any x => .ok (σ, [BV3.any (σ x)])

/-! ## bvec4 -/

/-- One statement on `bvec4` variables: the functions of src/bvec4.cpp (`all`, `any`: src/common.cpp) it calls. -/
def BV4.exec (b : Build) (c : BvecCmd) (σ : ℕ → V4 Bool) : Res ((ℕ → V4 Bool) × List Bool) :=
  match c with
  | .write x i a => do
    let v ← BV4.set b (σ x) i a
    .ok (Function.update σ x v, [])
  | .copyAt x i y j => do
    let a ← BV4.at b (σ y) j
    let v ← BV4.set b (σ x) i a
    .ok (Function.update σ x v, [])
  | .read x i => do
    let a ← BV4.at b (σ x) i
    .ok (σ, [a])
  | .assign x y => .ok (Function.update σ x (σ y), [])
  | .op x k y =>
    match k with
    | .and => .ok (Function.update σ x (BV4.andAssign (σ x) (σ y)), [])
    | .or => .ok (Function.update σ x (BV4.orAssign (σ x) (σ y)), [])
    | .xor => .ok (Function.update σ x (BV4.xorAssign (σ x) (σ y)), [])
  | .opS x k a =>
    match k with
    | .and => .ok (Function.update σ x (BV4.andAssignS (σ x) a), [])
    | .or => .ok (Function.update σ x (BV4.orAssignS (σ x) a), [])
    | .xor => .ok (Function.update σ x (BV4.xorAssignS (σ x) a), [])
  | .not x y => .ok (Function.update σ x (BV4.not (σ y)), [])
  | .all x => .ok (σ, [BV4.all (σ x)])
  | .any x => .ok (σ, [BV4.any (σ x)])

end Zcm
