import Mathlib.Data.Real.Basic
import Mathlib.Analysis.Real.Sqrt
import Mathlib.Algebra.Order.Round
import Mathlib.Analysis.SpecialFunctions.Trigonometric.Arctan
import Mathlib.Analysis.SpecialFunctions.Trigonometric.Inverse
import Mathlib.Analysis.SpecialFunctions.Arsinh
import Mathlib.Analysis.SpecialFunctions.Arcosh
import Mathlib.Analysis.SpecialFunctions.Artanh
import Mathlib.Analysis.SpecialFunctions.Pow.Real
import Mathlib.Analysis.SpecialFunctions.Log.Base
import Mathlib.Analysis.SpecialFunctions.Complex.Arg

/-!
# Scalars and outcomes

The C++ code computes with `float`.  Every float function of the library is modelled
once, polymorphically over a carrier `α` that offers the operations the C++ text uses:
`+ - * / unary-` and the comparisons (Lean's own classes), float literals and the exactly
specified `<cmath>` functions (`FloatOps`), and the transcendental `<cmath>` functions
(`Libm`).  Instantiated at `ℝ` this is the code in exact arithmetic; instantiated at the
IEEE-754 binary32 type `F32` (file `Model/F32.lean`) it is the code in float arithmetic.
Theorems that mention an arbitrary `α` hold for both.
-/

namespace Zcm

/-- Result of running a C++ function: a value, an `assert` failure (debug build), or
undefined behaviour.  Models no particular line: it is the outcome type of every function
of /repo whose body can assert or can execute an undefined operation. -/
inductive Res (α : Type*) where
  | ok (a : α)
  | abort
  | ub
  deriving DecidableEq, Repr

/-- Sequencing of C++ statements: the first abort/UB wins.  (Models the order of evaluation
of statements; not a particular line of /repo.) -/
def Res.bind {α β : Type*} : Res α → (α → Res β) → Res β
  | .ok a, f => f a
  | .abort, _ => .abort
  | .ub, _ => .ub

/-- `Res` used with `do` notation.  Not a particular line of /repo. -/
instance : Monad Res where
  pure := Res.ok
  bind := Res.bind

@[simp] theorem Res.ok_bind {α β : Type} (a : α) (f : α → Res β) :
    ((Res.ok a : Res α) >>= f) = f a := rfl
@[simp] theorem Res.ub_bind {α β : Type} (f : α → Res β) :
    ((Res.ub : Res α) >>= f) = Res.ub := rfl
@[simp] theorem Res.abort_bind {α β : Type} (f : α → Res β) :
    ((Res.abort : Res α) >>= f) = Res.abort := rfl
@[simp] theorem Res.pure_eq {α : Type} (a : α) : (pure a : Res α) = Res.ok a := rfl

/-- Whether `assert` is active.  CMakeLists.txt: debug builds keep `assert`, release builds
define `NDEBUG`. -/
inductive Build where
  | debug
  | release
  deriving DecidableEq, Repr

/-- `assert(c)` of `<cassert>`, used e.g. at src/vec2.cpp:104: aborts in a debug build when
`c` is false and does nothing otherwise. -/
def cassert (b : Build) (c : Bool) : Res Unit :=
  match b with
  | .debug => if c then .ok () else .abort
  | .release => .ok ()

/-- Float literals and the `<cmath>` functions that IEEE-754 specifies exactly, as used in
src/common.cpp:19-22,63-66,131-134,155-158,330-333,354-357,475-478,633-636,662-665 and
src/exponential.cpp:9-12.
`lit q` is the literal with decimal value `q`. -/
class FloatOps (α : Type*) where
  /-- literal `q` written with suffix `f` in the source -/
  lit : ℚ → α
  /-- `fabsf` -/
  fabs : α → α
  /-- `floorf` -/
  floor : α → α
  /-- `ceilf` -/
  ceil : α → α
  /-- `truncf` -/
  trunc : α → α
  /-- `roundf` (nearest, halves away from zero) -/
  round : α → α
  /-- `std::nearbyint` in the default rounding mode (nearest, halves to even) -/
  nearbyint : α → α
  /-- `sqrtf` -/
  sqrt : α → α
  /-- `std::fma` -/
  fma : α → α → α → α
  /-- `std::isnan` -/
  isnan : α → Bool
  /-- `std::isinf` -/
  isinf : α → Bool

export FloatOps (lit)

/-- The `<cmath>` functions whose accuracy neither IEEE-754 nor the C++ standard fixes, as
used in src/exponential.cpp and src/angle_and_trigonometry.cpp.  Only the exact real
functions are given as an instance; float-level theorems never depend on an instance. -/
class Libm (α : Type*) where
  expf : α → α
  logf : α → α
  log2f : α → α
  powf : α → α → α
  cbrtf : α → α
  sinf : α → α
  cosf : α → α
  tanf : α → α
  asinf : α → α
  acosf : α → α
  atanf : α → α
  atan2f : α → α → α
  sinhf : α → α
  coshf : α → α
  tanhf : α → α
  asinhf : α → α
  acoshf : α → α
  atanhf : α → α

/-- `roundf` on exact reals: nearest integer, halves away from zero (C11 7.12.9.6). -/
noncomputable def realRound (x : ℝ) : ℝ :=
  if 0 ≤ x then (⌊x + 1/2⌋ : ℝ) else (⌈x - 1/2⌉ : ℝ)

/-- Round to nearest integer, halves to even, in any floor field (IEEE-754
roundToIntegralTiesToEven; `std::nearbyint` in the default mode). -/
def roundHalfEven {K : Type*} [Field K] [LinearOrder K] [FloorRing K] (x : K) : ℤ :=
  if x - ⌊x⌋ < 1/2 then ⌊x⌋
  else if 1/2 < x - ⌊x⌋ then ⌊x⌋ + 1
  else if ⌊x⌋ % 2 = 0 then ⌊x⌋ else ⌊x⌋ + 1

/-- Exact-real reading of the `<cmath>` functions listed at `FloatOps`. -/
noncomputable instance : FloatOps ℝ where
  lit q := (q : ℝ)
  fabs x := |x|
  floor x := (⌊x⌋ : ℝ)
  ceil x := (⌈x⌉ : ℝ)
  trunc x := if 0 ≤ x then (⌊x⌋ : ℝ) else (⌈x⌉ : ℝ)
  round := realRound
  nearbyint x := (roundHalfEven x : ℝ)
  sqrt := Real.sqrt
  fma a b c := a * b + c
  isnan _ := false
  isinf _ := false

/-- Real cube root, defined on all reals (`cbrtf`, C11 7.12.7.1). -/
noncomputable def realCbrt (x : ℝ) : ℝ :=
  if 0 ≤ x then x ^ ((1:ℝ)/3) else -((-x) ^ ((1:ℝ)/3))

/-- Exact-real reading of the `<cmath>` functions listed at `Libm`. `atan2f y x` is the
argument of the complex number `x + i y`, in `(-π, π]`. -/
noncomputable instance : Libm ℝ where
  expf := Real.exp
  logf := Real.log
  log2f := Real.logb 2
  powf x y := x ^ y
  cbrtf := realCbrt
  sinf := Real.sin
  cosf := Real.cos
  tanf := Real.tan
  asinf := Real.arcsin
  acosf := Real.arccos
  atanf := Real.arctan
  atan2f y x := Complex.arg ⟨x, y⟩
  sinhf := Real.sinh
  coshf := Real.cosh
  tanhf := Real.tanh
  asinhf := Real.arsinh
  acoshf := Real.arcosh
  atanhf := Real.artanh

@[simp] theorem lit_real (q : ℚ) : (lit q : ℝ) = (q : ℝ) := rfl
@[simp] theorem fabs_real (x : ℝ) : FloatOps.fabs x = |x| := rfl
@[simp] theorem sqrt_real (x : ℝ) : FloatOps.sqrt x = Real.sqrt x := rfl
@[simp] theorem floor_real (x : ℝ) : FloatOps.floor x = (⌊x⌋ : ℝ) := rfl
@[simp] theorem ceil_real (x : ℝ) : FloatOps.ceil x = (⌈x⌉ : ℝ) := rfl
@[simp] theorem fma_real (a b c : ℝ) : FloatOps.fma a b c = a * b + c := rfl
@[simp] theorem isnan_real (x : ℝ) : FloatOps.isnan x = false := rfl
@[simp] theorem isinf_real (x : ℝ) : FloatOps.isinf x = false := rfl
@[simp] theorem expf_real (x : ℝ) : Libm.expf x = Real.exp x := rfl
@[simp] theorem logf_real (x : ℝ) : Libm.logf x = Real.log x := rfl
@[simp] theorem log2f_real (x : ℝ) : Libm.log2f x = Real.logb 2 x := rfl
@[simp] theorem powf_real (x y : ℝ) : Libm.powf x y = x ^ y := rfl
@[simp] theorem cbrtf_real (x : ℝ) : Libm.cbrtf x = realCbrt x := rfl
@[simp] theorem sinf_real (x : ℝ) : Libm.sinf x = Real.sin x := rfl
@[simp] theorem cosf_real (x : ℝ) : Libm.cosf x = Real.cos x := rfl
@[simp] theorem tanf_real (x : ℝ) : Libm.tanf x = Real.tan x := rfl
@[simp] theorem asinf_real (x : ℝ) : Libm.asinf x = Real.arcsin x := rfl
@[simp] theorem acosf_real (x : ℝ) : Libm.acosf x = Real.arccos x := rfl
@[simp] theorem atanf_real (x : ℝ) : Libm.atanf x = Real.arctan x := rfl
@[simp] theorem atan2f_real (y x : ℝ) : Libm.atan2f y x = Complex.arg ⟨x, y⟩ := rfl
@[simp] theorem sinhf_real (x : ℝ) : Libm.sinhf x = Real.sinh x := rfl
@[simp] theorem coshf_real (x : ℝ) : Libm.coshf x = Real.cosh x := rfl
@[simp] theorem tanhf_real (x : ℝ) : Libm.tanhf x = Real.tanh x := rfl
@[simp] theorem asinhf_real (x : ℝ) : Libm.asinhf x = Real.arsinh x := rfl
@[simp] theorem acoshf_real (x : ℝ) : Libm.acoshf x = Real.arcosh x := rfl
@[simp] theorem atanhf_real (x : ℝ) : Libm.atanhf x = Real.artanh x := rfl

end Zcm
