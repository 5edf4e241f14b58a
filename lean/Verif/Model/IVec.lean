import Verif.Model.Vec

/-!
# int32_t and ivec2, ivec3, ivec4

Model of src/ivec2.cpp, src/ivec3.cpp, src/ivec4.cpp.  The build is C++14
(CMakeLists.txt:65).
-/

namespace Zcm

/-- `int32_t` (used in include/zcm/ivec2.hpp:54 etc.): 32 bits read as two's complement. -/
@[ext] structure I32 where
  bits : BitVec 32
  deriving DecidableEq, Repr

namespace I32

/-- Value of an `int32_t`. -/
def toInt (a : I32) : ℤ := a.bits.toInt

/-- Result of a signed operation with mathematical result `z`: C++14 [expr]/4, undefined unless
`z` is representable. Used by every arithmetic operator of src/ivec2.cpp:47-69 etc. -/
def ofInt? (z : ℤ) : Res I32 :=
  if -2147483648 ≤ z ∧ z < 2147483648 then .ok ⟨BitVec.ofInt 32 z⟩ else .ub

/-- `<` on `int32_t`, used in src/ivec2.cpp:84 -/
instance : LT I32 := ⟨fun a b => a.toInt < b.toInt⟩
/-- `<=` on `int32_t`, used in src/common.cpp -/
instance : LE I32 := ⟨fun a b => a.toInt ≤ b.toInt⟩
instance (a b : I32) : Decidable (a < b) := inferInstanceAs (Decidable (a.toInt < b.toInt))
instance (a b : I32) : Decidable (a ≤ b) := inferInstanceAs (Decidable (a.toInt ≤ b.toInt))

/-- Integer literal in the source, e.g. `0` at src/ivec2.cpp:11. -/
def lit (z : ℤ) : I32 := ⟨BitVec.ofInt 32 z⟩

/-- `+` (src/ivec2.cpp:48) -/
def add (a b : I32) : Res I32 := ofInt? (a.toInt + b.toInt)
/-- `-` (src/ivec2.cpp:49) -/
def sub (a b : I32) : Res I32 := ofInt? (a.toInt - b.toInt)
/-- `*` (src/ivec2.cpp:50) -/
def mul (a b : I32) : Res I32 := ofInt? (a.toInt * b.toInt)
/-- `/` (src/ivec2.cpp:51): truncates towards zero; division by zero is undefined (C++14 [expr.mul]/4). -/
def div (a b : I32) : Res I32 := if b.toInt = 0 then .ub else ofInt? (a.toInt.tdiv b.toInt)
/-- `%` (src/ivec2.cpp:52): undefined if `b` is zero or `a/b` is not representable (C++14 [expr.mul]/4). -/
def mod (a b : I32) : Res I32 :=
  if b.toInt = 0 then .ub
  else do
    let _ ← ofInt? (a.toInt.tdiv b.toInt)
    ofInt? (a.toInt.tmod b.toInt)
/-- unary `-` (src/ivec2.cpp:37) -/
def neg (a : I32) : Res I32 := ofInt? (-a.toInt)
/-- `|` (src/ivec2.cpp:53) -/
def or (a b : I32) : Res I32 := .ok ⟨a.bits ||| b.bits⟩
/-- `&` (src/ivec2.cpp:54) -/
def and (a b : I32) : Res I32 := .ok ⟨a.bits &&& b.bits⟩
/-- `^` (src/ivec2.cpp:55) -/
def xor (a b : I32) : Res I32 := .ok ⟨a.bits ^^^ b.bits⟩
/-- `>>` (src/ivec2.cpp:56): undefined for counts outside `0..31`; arithmetic shift for negative
values (implementation-defined in C++14 [expr.shift]/3, arithmetic on every supported compiler). -/
def shr (a b : I32) : Res I32 :=
  if 0 ≤ b.toInt ∧ b.toInt < 32 then .ok ⟨a.bits.sshiftRight b.toInt.toNat⟩ else .ub
/-- `<<` (src/ivec2.cpp:57): C++14 [expr.shift]/2 (with CWG 1457): undefined for counts outside
`0..31`, for negative left operands, and when `a * 2^b` does not fit `uint32_t`; otherwise that
value converted to `int32_t`. -/
def shl (a b : I32) : Res I32 :=
  if 0 ≤ b.toInt ∧ b.toInt < 32 ∧ 0 ≤ a.toInt ∧ a.toInt * 2 ^ b.toInt.toNat < 4294967296 then
    .ok ⟨BitVec.ofInt 32 (a.toInt * 2 ^ b.toInt.toNat)⟩
  else .ub
/-- conversion `bool(i)` (src/ivec2.cpp:120) -/
def toBool (a : I32) : Bool := a != lit 0

end I32

/-! ## The operator macros of include/zcm/detail/impl_op_macro.hpp -/

variable {α : Type}

/-- `ZCM_IMPL_V2_V2_BINOP(V, op)` include/zcm/detail/impl_op_macro.hpp:36-37 -/
def V2.macroVV (op : α → α → Res α) (first second : V2 α) : Res (V2 α) := do
  let a ← op first.x second.x
  let b ← op first.y second.y
  pure ⟨a, b⟩

/-- `ZCM_IMPL_V2_SC_BINOP(T, V, op)` include/zcm/detail/impl_op_macro.hpp:39-40 -/
def V2.macroVS (op : α → α → Res α) (vec : V2 α) (scalar : α) : Res (V2 α) := do
  let a ← op vec.x scalar
  let b ← op vec.y scalar
  pure ⟨a, b⟩

/-- `ZCM_IMPL_SC_V2_BINOP(T, V, op)` include/zcm/detail/impl_op_macro.hpp:42-43 -/
def V2.macroSV (op : α → α → Res α) (scalar : α) (vec : V2 α) : Res (V2 α) := do
  let a ← op scalar vec.x
  let b ← op scalar vec.y
  pure ⟨a, b⟩

/-- `ZCM_IMPL_V2_COMPOUND_VEC_OP(V, op)` include/zcm/detail/impl_op_macro.hpp:45-46: the writes happen one after the other; `op` is the operator without `=`. -/
def V2.macroCV (op : α → α → Res α) (this other : V2 α) : Res (V2 α) := do
  let this := { this with x := ← op this.x other.x }
  let this := { this with y := ← op this.y other.y }
  pure this

/-- `ZCM_IMPL_V2_COMPOUND_SC_OP(T, V, op)` include/zcm/detail/impl_op_macro.hpp:48-49 -/
def V2.macroCS (op : α → α → Res α) (this : V2 α) (scalar : α) : Res (V2 α) := do
  let this := { this with x := ← op this.x scalar }
  let this := { this with y := ← op this.y scalar }
  pure this

/-- `ZCM_IMPL_V3_V3_BINOP(V, op)` include/zcm/detail/impl_op_macro.hpp:53-54 -/
def V3.macroVV (op : α → α → Res α) (first second : V3 α) : Res (V3 α) := do
  let a ← op first.x second.x
  let b ← op first.y second.y
  let c ← op first.z second.z
  pure ⟨a, b, c⟩

/-- `ZCM_IMPL_V3_SC_BINOP(T, V, op)` include/zcm/detail/impl_op_macro.hpp:56-57 -/
def V3.macroVS (op : α → α → Res α) (vec : V3 α) (scalar : α) : Res (V3 α) := do
  let a ← op vec.x scalar
  let b ← op vec.y scalar
  let c ← op vec.z scalar
  pure ⟨a, b, c⟩

/-- `ZCM_IMPL_SC_V3_BINOP(T, V, op)` include/zcm/detail/impl_op_macro.hpp:59-60 -/
def V3.macroSV (op : α → α → Res α) (scalar : α) (vec : V3 α) : Res (V3 α) := do
  let a ← op scalar vec.x
  let b ← op scalar vec.y
  let c ← op scalar vec.z
  pure ⟨a, b, c⟩

/-- `ZCM_IMPL_V3_COMPOUND_VEC_OP(V, op)` include/zcm/detail/impl_op_macro.hpp:62-63: the writes happen one after the other; `op` is the operator without `=`. -/
def V3.macroCV (op : α → α → Res α) (this other : V3 α) : Res (V3 α) := do
  let this := { this with x := ← op this.x other.x }
  let this := { this with y := ← op this.y other.y }
  let this := { this with z := ← op this.z other.z }
  pure this

/-- `ZCM_IMPL_V3_COMPOUND_SC_OP(T, V, op)` include/zcm/detail/impl_op_macro.hpp:65-66 -/
def V3.macroCS (op : α → α → Res α) (this : V3 α) (scalar : α) : Res (V3 α) := do
  let this := { this with x := ← op this.x scalar }
  let this := { this with y := ← op this.y scalar }
  let this := { this with z := ← op this.z scalar }
  pure this

/-- `ZCM_IMPL_V4_V4_BINOP(V, op)` include/zcm/detail/impl_op_macro.hpp:70-71 -/
def V4.macroVV (op : α → α → Res α) (first second : V4 α) : Res (V4 α) := do
  let a ← op first.x second.x
  let b ← op first.y second.y
  let c ← op first.z second.z
  let d ← op first.w second.w
  pure ⟨a, b, c, d⟩

/-- `ZCM_IMPL_V4_SC_BINOP(T, V, op)` include/zcm/detail/impl_op_macro.hpp:73-74 -/
def V4.macroVS (op : α → α → Res α) (vec : V4 α) (scalar : α) : Res (V4 α) := do
  let a ← op vec.x scalar
  let b ← op vec.y scalar
  let c ← op vec.z scalar
  let d ← op vec.w scalar
  pure ⟨a, b, c, d⟩

/-- `ZCM_IMPL_SC_V4_BINOP(T, V, op)` include/zcm/detail/impl_op_macro.hpp:76-77 -/
def V4.macroSV (op : α → α → Res α) (scalar : α) (vec : V4 α) : Res (V4 α) := do
  let a ← op scalar vec.x
  let b ← op scalar vec.y
  let c ← op scalar vec.z
  let d ← op scalar vec.w
  pure ⟨a, b, c, d⟩

/-- `ZCM_IMPL_V4_COMPOUND_VEC_OP(V, op)` include/zcm/detail/impl_op_macro.hpp:79-80: the writes happen one after the other; `op` is the operator without `=`. -/
def V4.macroCV (op : α → α → Res α) (this other : V4 α) : Res (V4 α) := do
  let this := { this with x := ← op this.x other.x }
  let this := { this with y := ← op this.y other.y }
  let this := { this with z := ← op this.z other.z }
  let this := { this with w := ← op this.w other.w }
  pure this

/-- `ZCM_IMPL_V4_COMPOUND_SC_OP(T, V, op)` include/zcm/detail/impl_op_macro.hpp:82-83 -/
def V4.macroCS (op : α → α → Res α) (this : V4 α) (scalar : α) : Res (V4 α) := do
  let this := { this with x := ← op this.x scalar }
  let this := { this with y := ← op this.y scalar }
  let this := { this with z := ← op this.z scalar }
  let this := { this with w := ← op this.w scalar }
  pure this

/-! ## ivec2 -/

/-- `ivec2(int32_t value)` src/ivec2.cpp:17-21 -/
def IV2.splat (value : I32) : V2 I32 := ⟨value, value⟩

/-- `ivec2(int32_t, int32_t)` src/ivec2.cpp:23-27 -/
def IV2.ofXY (x y : I32) : V2 I32 := ⟨x, y⟩

/-- `ivec2()` src/ivec2.cpp:10-12 -/
def IV2.default : V2 I32 := IV2.splat (I32.lit 0)

/-- `make_ivec2(const int32_t* ptr)` src/ivec2.cpp:41-45 -/
def IV2.make (b : Build) (ptr : Option (ℕ → I32)) : Res (V2 I32) := do
  cassert b ptr.isSome
  match ptr with
  | some p => pure ⟨p 0, p 1⟩
  | none => Res.ub

/-- `ivec2 + ivec2` src/ivec2.cpp:48 -/
def IV2.add : V2 I32 → V2 I32 → Res (V2 I32) := V2.macroVV I32.add
/-- `ivec2 + int32_t` src/ivec2.cpp:48 -/
def IV2.addS : V2 I32 → I32 → Res (V2 I32) := V2.macroVS I32.add
/-- `int32_t + ivec2` src/ivec2.cpp:48 -/
def IV2.sAdd : I32 → V2 I32 → Res (V2 I32) := V2.macroSV I32.add
/-- `ivec2 += ivec2` src/ivec2.cpp:60 -/
def IV2.addAssign : V2 I32 → V2 I32 → Res (V2 I32) := V2.macroCV I32.add
/-- `ivec2 += int32_t` src/ivec2.cpp:60 -/
def IV2.addAssignS : V2 I32 → I32 → Res (V2 I32) := V2.macroCS I32.add

/-- `ivec2 - ivec2` src/ivec2.cpp:49 -/
def IV2.sub : V2 I32 → V2 I32 → Res (V2 I32) := V2.macroVV I32.sub
/-- `ivec2 - int32_t` src/ivec2.cpp:49 -/
def IV2.subS : V2 I32 → I32 → Res (V2 I32) := V2.macroVS I32.sub
/-- `int32_t - ivec2` src/ivec2.cpp:49 -/
def IV2.sSub : I32 → V2 I32 → Res (V2 I32) := V2.macroSV I32.sub
/-- `ivec2 -= ivec2` src/ivec2.cpp:61 -/
def IV2.subAssign : V2 I32 → V2 I32 → Res (V2 I32) := V2.macroCV I32.sub
/-- `ivec2 -= int32_t` src/ivec2.cpp:61 -/
def IV2.subAssignS : V2 I32 → I32 → Res (V2 I32) := V2.macroCS I32.sub

/-- `ivec2 * ivec2` src/ivec2.cpp:50 -/
def IV2.mul : V2 I32 → V2 I32 → Res (V2 I32) := V2.macroVV I32.mul
/-- `ivec2 * int32_t` src/ivec2.cpp:50 -/
def IV2.mulS : V2 I32 → I32 → Res (V2 I32) := V2.macroVS I32.mul
/-- `int32_t * ivec2` src/ivec2.cpp:50 -/
def IV2.sMul : I32 → V2 I32 → Res (V2 I32) := V2.macroSV I32.mul
/-- `ivec2 *= ivec2` src/ivec2.cpp:62 -/
def IV2.mulAssign : V2 I32 → V2 I32 → Res (V2 I32) := V2.macroCV I32.mul
/-- `ivec2 *= int32_t` src/ivec2.cpp:62 -/
def IV2.mulAssignS : V2 I32 → I32 → Res (V2 I32) := V2.macroCS I32.mul

/-- `ivec2 / ivec2` src/ivec2.cpp:51 -/
def IV2.div : V2 I32 → V2 I32 → Res (V2 I32) := V2.macroVV I32.div
/-- `ivec2 / int32_t` src/ivec2.cpp:51 -/
def IV2.divS : V2 I32 → I32 → Res (V2 I32) := V2.macroVS I32.div
/-- `int32_t / ivec2` src/ivec2.cpp:51 -/
def IV2.sDiv : I32 → V2 I32 → Res (V2 I32) := V2.macroSV I32.div
/-- `ivec2 /= ivec2` src/ivec2.cpp:63 -/
def IV2.divAssign : V2 I32 → V2 I32 → Res (V2 I32) := V2.macroCV I32.div
/-- `ivec2 /= int32_t` src/ivec2.cpp:63 -/
def IV2.divAssignS : V2 I32 → I32 → Res (V2 I32) := V2.macroCS I32.div

/-- `ivec2 % ivec2` src/ivec2.cpp:52 -/
def IV2.mod : V2 I32 → V2 I32 → Res (V2 I32) := V2.macroVV I32.mod
/-- `ivec2 % int32_t` src/ivec2.cpp:52 -/
def IV2.modS : V2 I32 → I32 → Res (V2 I32) := V2.macroVS I32.mod
/-- `int32_t % ivec2` src/ivec2.cpp:52 -/
def IV2.sMod : I32 → V2 I32 → Res (V2 I32) := V2.macroSV I32.mod
/-- `ivec2 %= ivec2` src/ivec2.cpp:64 -/
def IV2.modAssign : V2 I32 → V2 I32 → Res (V2 I32) := V2.macroCV I32.mod
/-- `ivec2 %= int32_t` src/ivec2.cpp:64 -/
def IV2.modAssignS : V2 I32 → I32 → Res (V2 I32) := V2.macroCS I32.mod

/-- `ivec2 | ivec2` src/ivec2.cpp:53 -/
def IV2.or : V2 I32 → V2 I32 → Res (V2 I32) := V2.macroVV I32.or
/-- `ivec2 | int32_t` src/ivec2.cpp:53 -/
def IV2.orS : V2 I32 → I32 → Res (V2 I32) := V2.macroVS I32.or
/-- `int32_t | ivec2` src/ivec2.cpp:53 -/
def IV2.sOr : I32 → V2 I32 → Res (V2 I32) := V2.macroSV I32.or
/-- `ivec2 |= ivec2` src/ivec2.cpp:65 -/
def IV2.orAssign : V2 I32 → V2 I32 → Res (V2 I32) := V2.macroCV I32.or
/-- `ivec2 |= int32_t` src/ivec2.cpp:65 -/
def IV2.orAssignS : V2 I32 → I32 → Res (V2 I32) := V2.macroCS I32.or

/-- `ivec2 & ivec2` src/ivec2.cpp:54 -/
def IV2.and : V2 I32 → V2 I32 → Res (V2 I32) := V2.macroVV I32.and
/-- `ivec2 & int32_t` src/ivec2.cpp:54 -/
def IV2.andS : V2 I32 → I32 → Res (V2 I32) := V2.macroVS I32.and
/-- `int32_t & ivec2` src/ivec2.cpp:54 -/
def IV2.sAnd : I32 → V2 I32 → Res (V2 I32) := V2.macroSV I32.and
/-- `ivec2 &= ivec2` src/ivec2.cpp:66 -/
def IV2.andAssign : V2 I32 → V2 I32 → Res (V2 I32) := V2.macroCV I32.and
/-- `ivec2 &= int32_t` src/ivec2.cpp:66 -/
def IV2.andAssignS : V2 I32 → I32 → Res (V2 I32) := V2.macroCS I32.and

/-- `ivec2 ^ ivec2` src/ivec2.cpp:55 -/
def IV2.xor : V2 I32 → V2 I32 → Res (V2 I32) := V2.macroVV I32.xor
/-- `ivec2 ^ int32_t` src/ivec2.cpp:55 -/
def IV2.xorS : V2 I32 → I32 → Res (V2 I32) := V2.macroVS I32.xor
/-- `int32_t ^ ivec2` src/ivec2.cpp:55 -/
def IV2.sXor : I32 → V2 I32 → Res (V2 I32) := V2.macroSV I32.xor
/-- `ivec2 ^= ivec2` src/ivec2.cpp:67 -/
def IV2.xorAssign : V2 I32 → V2 I32 → Res (V2 I32) := V2.macroCV I32.xor
/-- `ivec2 ^= int32_t` src/ivec2.cpp:67 -/
def IV2.xorAssignS : V2 I32 → I32 → Res (V2 I32) := V2.macroCS I32.xor

/-- `ivec2 >> ivec2` src/ivec2.cpp:56 -/
def IV2.shr : V2 I32 → V2 I32 → Res (V2 I32) := V2.macroVV I32.shr
/-- `ivec2 >> int32_t` src/ivec2.cpp:56 -/
def IV2.shrS : V2 I32 → I32 → Res (V2 I32) := V2.macroVS I32.shr
/-- `int32_t >> ivec2` src/ivec2.cpp:56 -/
def IV2.sShr : I32 → V2 I32 → Res (V2 I32) := V2.macroSV I32.shr
/-- `ivec2 >>= ivec2` src/ivec2.cpp:68 -/
def IV2.shrAssign : V2 I32 → V2 I32 → Res (V2 I32) := V2.macroCV I32.shr
/-- `ivec2 >>= int32_t` src/ivec2.cpp:68 -/
def IV2.shrAssignS : V2 I32 → I32 → Res (V2 I32) := V2.macroCS I32.shr

/-- `ivec2 << ivec2` src/ivec2.cpp:57 -/
def IV2.shl : V2 I32 → V2 I32 → Res (V2 I32) := V2.macroVV I32.shl
/-- `ivec2 << int32_t` src/ivec2.cpp:57 -/
def IV2.shlS : V2 I32 → I32 → Res (V2 I32) := V2.macroVS I32.shl
/-- `int32_t << ivec2` src/ivec2.cpp:57 -/
def IV2.sShl : I32 → V2 I32 → Res (V2 I32) := V2.macroSV I32.shl
/-- `ivec2 <<= ivec2` src/ivec2.cpp:69 -/
def IV2.shlAssign : V2 I32 → V2 I32 → Res (V2 I32) := V2.macroCV I32.shl
/-- `ivec2 <<= int32_t` src/ivec2.cpp:69 -/
def IV2.shlAssignS : V2 I32 → I32 → Res (V2 I32) := V2.macroCS I32.shl

/-- unary `-ivec2` src/ivec2.cpp:35-39 -/
def IV2.neg (first : V2 I32) : Res (V2 I32) := do
  let a ← I32.neg first.x
  let b ← I32.neg first.y
  pure ⟨a, b⟩

/-- unary `+ivec2` src/ivec2.cpp:29-33 -/
def IV2.pos (first : V2 I32) : V2 I32 := ⟨first.x, first.y⟩

/-- prefix `++ivec2` src/ivec2.cpp:123-128: (object afterwards, value returned by reference to it) -/
def IV2.preInc (this : V2 I32) : Res (V2 I32 × V2 I32) := do
  let this := { this with x := ← I32.add this.x (I32.lit 1) }
  let this := { this with y := ← I32.add this.y (I32.lit 1) }
  pure (this, this)

/-- postfix `ivec2++` src/ivec2.cpp:130-136: (object afterwards, returned value) -/
def IV2.postInc (this : V2 I32) : Res (V2 I32 × V2 I32) := do
  let tmp := this
  let this := { this with x := ← I32.add this.x (I32.lit 1) }
  let this := { this with y := ← I32.add this.y (I32.lit 1) }
  pure (this, tmp)

/-- prefix `--ivec2` src/ivec2.cpp:138-143: (object afterwards, value returned by reference to it) -/
def IV2.preDec (this : V2 I32) : Res (V2 I32 × V2 I32) := do
  let this := { this with x := ← I32.sub this.x (I32.lit 1) }
  let this := { this with y := ← I32.sub this.y (I32.lit 1) }
  pure (this, this)

/-- postfix `ivec2--` src/ivec2.cpp:145-151: (object afterwards, returned value) -/
def IV2.postDec (this : V2 I32) : Res (V2 I32 × V2 I32) := do
  let tmp := this
  let this := { this with x := ← I32.sub this.x (I32.lit 1) }
  let this := { this with y := ← I32.sub this.y (I32.lit 1) }
  pure (this, tmp)

/-- `ivec2 == ivec2` src/ivec2.cpp:72-75 -/
def IV2.eq (first second : V2 I32) : Bool :=
  first.x == second.x && first.y == second.y

/-- `ivec2 != ivec2` src/ivec2.cpp:77-80 -/
def IV2.ne (first second : V2 I32) : Bool := !(IV2.eq first second)

/-- `ivec2 < ivec2` src/ivec2.cpp:82-88 -/
def IV2.lt (first second : V2 I32) : Bool :=
  if first.x < second.x then true else
  if first.x > second.x then false else
  if first.y < second.y then true else
  false

/-- `ivec2 <= ivec2` src/ivec2.cpp:90-93 -/
def IV2.le (first second : V2 I32) : Bool := !(IV2.lt second first)

/-- `ivec2 > ivec2` src/ivec2.cpp:96-99 -/
def IV2.gt (first second : V2 I32) : Bool := IV2.lt second first

/-- `ivec2 >= ivec2` src/ivec2.cpp:101-104 -/
def IV2.ge (first second : V2 I32) : Bool := !(IV2.lt first second)

/-- reading `v[val]` src/ivec2.cpp:112-116; `_data[val]` outside the array is undefined. -/
def IV2.at (b : Build) (this : V2 I32) (val : UInt32) : Res I32 := do
  cassert b (val < 3)
  match val.toNat with
  | 0 => pure this.x
  | 1 => pure this.y
  | _ => Res.ub

/-- writing `v[val] = a` through the reference of src/ivec2.cpp:106-110 -/
def IV2.set (b : Build) (this : V2 I32) (val : UInt32) (a : I32) : Res (V2 I32) := do
  cassert b (val < 3)
  match val.toNat with
  | 0 => pure { this with x := a }
  | 1 => pure { this with y := a }
  | _ => Res.ub

/-- conversion to `bvec2` src/ivec2.cpp:118-121 -/
def IV2.toBV (this : V2 I32) : V2 Bool := ⟨I32.toBool this.x, I32.toBool this.y⟩

/-! ## ivec3 -/

/-- `ivec3(int32_t value)` src/ivec3.cpp:18-23 -/
def IV3.splat (value : I32) : V3 I32 := ⟨value, value, value⟩

/-- `ivec3(int32_t, int32_t, int32_t)` src/ivec3.cpp:25-30 -/
def IV3.ofXYZ (x y z : I32) : V3 I32 := ⟨x, y, z⟩

/-- `ivec3()` src/ivec3.cpp:11-13 -/
def IV3.default : V3 I32 := IV3.splat (I32.lit 0)

/-- `ivec3(ivec2 xy, int32_t z)` src/ivec3.cpp:32-37 -/
def IV3.ofXY_Z (xy : V2 I32) (z : I32) : V3 I32 := ⟨xy.x, xy.y, z⟩

/-- `ivec3(int32_t x, ivec2 yz)` src/ivec3.cpp:39-44 -/
def IV3.ofX_YZ (x : I32) (yz : V2 I32) : V3 I32 := ⟨x, yz.x, yz.y⟩

/-- `make_ivec3(const int32_t* ptr)` src/ivec3.cpp:46-50 -/
def IV3.make (b : Build) (ptr : Option (ℕ → I32)) : Res (V3 I32) := do
  cassert b ptr.isSome
  match ptr with
  | some p => pure ⟨p 0, p 1, p 2⟩
  | none => Res.ub

/-- `ivec3 + ivec3` src/ivec3.cpp:54 -/
def IV3.add : V3 I32 → V3 I32 → Res (V3 I32) := V3.macroVV I32.add
/-- `ivec3 + int32_t` src/ivec3.cpp:54 -/
def IV3.addS : V3 I32 → I32 → Res (V3 I32) := V3.macroVS I32.add
/-- `int32_t + ivec3` src/ivec3.cpp:54 -/
def IV3.sAdd : I32 → V3 I32 → Res (V3 I32) := V3.macroSV I32.add
/-- `ivec3 += ivec3` src/ivec3.cpp:66 -/
def IV3.addAssign : V3 I32 → V3 I32 → Res (V3 I32) := V3.macroCV I32.add
/-- `ivec3 += int32_t` src/ivec3.cpp:66 -/
def IV3.addAssignS : V3 I32 → I32 → Res (V3 I32) := V3.macroCS I32.add

/-- `ivec3 - ivec3` src/ivec3.cpp:55 -/
def IV3.sub : V3 I32 → V3 I32 → Res (V3 I32) := V3.macroVV I32.sub
/-- `ivec3 - int32_t` src/ivec3.cpp:55 -/
def IV3.subS : V3 I32 → I32 → Res (V3 I32) := V3.macroVS I32.sub
/-- `int32_t - ivec3` src/ivec3.cpp:55 -/
def IV3.sSub : I32 → V3 I32 → Res (V3 I32) := V3.macroSV I32.sub
/-- `ivec3 -= ivec3` src/ivec3.cpp:67 -/
def IV3.subAssign : V3 I32 → V3 I32 → Res (V3 I32) := V3.macroCV I32.sub
/-- `ivec3 -= int32_t` src/ivec3.cpp:67 -/
def IV3.subAssignS : V3 I32 → I32 → Res (V3 I32) := V3.macroCS I32.sub

/-- `ivec3 * ivec3` src/ivec3.cpp:56 -/
def IV3.mul : V3 I32 → V3 I32 → Res (V3 I32) := V3.macroVV I32.mul
/-- `ivec3 * int32_t` src/ivec3.cpp:56 -/
def IV3.mulS : V3 I32 → I32 → Res (V3 I32) := V3.macroVS I32.mul
/-- `int32_t * ivec3` src/ivec3.cpp:56 -/
def IV3.sMul : I32 → V3 I32 → Res (V3 I32) := V3.macroSV I32.mul
/-- `ivec3 *= ivec3` src/ivec3.cpp:68 -/
def IV3.mulAssign : V3 I32 → V3 I32 → Res (V3 I32) := V3.macroCV I32.mul
/-- `ivec3 *= int32_t` src/ivec3.cpp:68 -/
def IV3.mulAssignS : V3 I32 → I32 → Res (V3 I32) := V3.macroCS I32.mul

/-- `ivec3 / ivec3` src/ivec3.cpp:57 -/
def IV3.div : V3 I32 → V3 I32 → Res (V3 I32) := V3.macroVV I32.div
/-- `ivec3 / int32_t` src/ivec3.cpp:57 -/
def IV3.divS : V3 I32 → I32 → Res (V3 I32) := V3.macroVS I32.div
/-- `int32_t / ivec3` src/ivec3.cpp:57 -/
def IV3.sDiv : I32 → V3 I32 → Res (V3 I32) := V3.macroSV I32.div
/-- `ivec3 /= ivec3` src/ivec3.cpp:69 -/
def IV3.divAssign : V3 I32 → V3 I32 → Res (V3 I32) := V3.macroCV I32.div
/-- `ivec3 /= int32_t` src/ivec3.cpp:69 -/
def IV3.divAssignS : V3 I32 → I32 → Res (V3 I32) := V3.macroCS I32.div

/-- `ivec3 % ivec3` src/ivec3.cpp:58 -/
def IV3.mod : V3 I32 → V3 I32 → Res (V3 I32) := V3.macroVV I32.mod
/-- `ivec3 % int32_t` src/ivec3.cpp:58 -/
def IV3.modS : V3 I32 → I32 → Res (V3 I32) := V3.macroVS I32.mod
/-- `int32_t % ivec3` src/ivec3.cpp:58 -/
def IV3.sMod : I32 → V3 I32 → Res (V3 I32) := V3.macroSV I32.mod
/-- `ivec3 %= ivec3` src/ivec3.cpp:70 -/
def IV3.modAssign : V3 I32 → V3 I32 → Res (V3 I32) := V3.macroCV I32.mod
/-- `ivec3 %= int32_t` src/ivec3.cpp:70 -/
def IV3.modAssignS : V3 I32 → I32 → Res (V3 I32) := V3.macroCS I32.mod

/-- `ivec3 | ivec3` src/ivec3.cpp:59 -/
def IV3.or : V3 I32 → V3 I32 → Res (V3 I32) := V3.macroVV I32.or
/-- `ivec3 | int32_t` src/ivec3.cpp:59 -/
def IV3.orS : V3 I32 → I32 → Res (V3 I32) := V3.macroVS I32.or
/-- `int32_t | ivec3` src/ivec3.cpp:59 -/
def IV3.sOr : I32 → V3 I32 → Res (V3 I32) := V3.macroSV I32.or
/-- `ivec3 |= ivec3` src/ivec3.cpp:71 -/
def IV3.orAssign : V3 I32 → V3 I32 → Res (V3 I32) := V3.macroCV I32.or
/-- `ivec3 |= int32_t` src/ivec3.cpp:71 -/
def IV3.orAssignS : V3 I32 → I32 → Res (V3 I32) := V3.macroCS I32.or

/-- `ivec3 & ivec3` src/ivec3.cpp:60 -/
def IV3.and : V3 I32 → V3 I32 → Res (V3 I32) := V3.macroVV I32.and
/-- `ivec3 & int32_t` src/ivec3.cpp:60 -/
def IV3.andS : V3 I32 → I32 → Res (V3 I32) := V3.macroVS I32.and
/-- `int32_t & ivec3` src/ivec3.cpp:60 -/
def IV3.sAnd : I32 → V3 I32 → Res (V3 I32) := V3.macroSV I32.and
/-- `ivec3 &= ivec3` src/ivec3.cpp:72 -/
def IV3.andAssign : V3 I32 → V3 I32 → Res (V3 I32) := V3.macroCV I32.and
/-- `ivec3 &= int32_t` src/ivec3.cpp:72 -/
def IV3.andAssignS : V3 I32 → I32 → Res (V3 I32) := V3.macroCS I32.and

/-- `ivec3 ^ ivec3` src/ivec3.cpp:61 -/
def IV3.xor : V3 I32 → V3 I32 → Res (V3 I32) := V3.macroVV I32.xor
/-- `ivec3 ^ int32_t` src/ivec3.cpp:61 -/
def IV3.xorS : V3 I32 → I32 → Res (V3 I32) := V3.macroVS I32.xor
/-- `int32_t ^ ivec3` src/ivec3.cpp:61 -/
def IV3.sXor : I32 → V3 I32 → Res (V3 I32) := V3.macroSV I32.xor
/-- `ivec3 ^= ivec3` src/ivec3.cpp:73 -/
def IV3.xorAssign : V3 I32 → V3 I32 → Res (V3 I32) := V3.macroCV I32.xor
/-- `ivec3 ^= int32_t` src/ivec3.cpp:73 -/
def IV3.xorAssignS : V3 I32 → I32 → Res (V3 I32) := V3.macroCS I32.xor

/-- `ivec3 >> ivec3` src/ivec3.cpp:62 -/
def IV3.shr : V3 I32 → V3 I32 → Res (V3 I32) := V3.macroVV I32.shr
/-- `ivec3 >> int32_t` src/ivec3.cpp:62 -/
def IV3.shrS : V3 I32 → I32 → Res (V3 I32) := V3.macroVS I32.shr
/-- `int32_t >> ivec3` src/ivec3.cpp:62 -/
def IV3.sShr : I32 → V3 I32 → Res (V3 I32) := V3.macroSV I32.shr
/-- `ivec3 >>= ivec3` src/ivec3.cpp:74 -/
def IV3.shrAssign : V3 I32 → V3 I32 → Res (V3 I32) := V3.macroCV I32.shr
/-- `ivec3 >>= int32_t` src/ivec3.cpp:74 -/
def IV3.shrAssignS : V3 I32 → I32 → Res (V3 I32) := V3.macroCS I32.shr

/-- `ivec3 << ivec3` src/ivec3.cpp:63 -/
def IV3.shl : V3 I32 → V3 I32 → Res (V3 I32) := V3.macroVV I32.shl
/-- `ivec3 << int32_t` src/ivec3.cpp:63 -/
def IV3.shlS : V3 I32 → I32 → Res (V3 I32) := V3.macroVS I32.shl
/-- `int32_t << ivec3` src/ivec3.cpp:63 -/
def IV3.sShl : I32 → V3 I32 → Res (V3 I32) := V3.macroSV I32.shl
/-- `ivec3 <<= ivec3` src/ivec3.cpp:75 -/
def IV3.shlAssign : V3 I32 → V3 I32 → Res (V3 I32) := V3.macroCV I32.shl
/-- `ivec3 <<= int32_t` src/ivec3.cpp:75 -/
def IV3.shlAssignS : V3 I32 → I32 → Res (V3 I32) := V3.macroCS I32.shl

/-- unary `-ivec3` src/ivec3.cpp:78-83 -/
def IV3.neg (first : V3 I32) : Res (V3 I32) := do
  let a ← I32.neg first.x
  let b ← I32.neg first.y
  let c ← I32.neg first.z
  pure ⟨a, b, c⟩

/-- unary `+ivec3` src/ivec3.cpp:85-90 -/
def IV3.pos (first : V3 I32) : V3 I32 := ⟨first.x, first.y, first.z⟩

/-- prefix `++ivec3` src/ivec3.cpp:115-122: (object afterwards, value returned by reference to it) -/
def IV3.preInc (this : V3 I32) : Res (V3 I32 × V3 I32) := do
  let this := { this with x := ← I32.add this.x (I32.lit 1) }
  let this := { this with y := ← I32.add this.y (I32.lit 1) }
  let this := { this with z := ← I32.add this.z (I32.lit 1) }
  pure (this, this)

/-- postfix `ivec3++` src/ivec3.cpp:124-131: (object afterwards, returned value) -/
def IV3.postInc (this : V3 I32) : Res (V3 I32 × V3 I32) := do
  let tmp := this
  let this := { this with x := ← I32.add this.x (I32.lit 1) }
  let this := { this with y := ← I32.add this.y (I32.lit 1) }
  let this := { this with z := ← I32.add this.z (I32.lit 1) }
  pure (this, tmp)

/-- prefix `--ivec3` src/ivec3.cpp:133-139: (object afterwards, value returned by reference to it) -/
def IV3.preDec (this : V3 I32) : Res (V3 I32 × V3 I32) := do
  let this := { this with x := ← I32.sub this.x (I32.lit 1) }
  let this := { this with y := ← I32.sub this.y (I32.lit 1) }
  let this := { this with z := ← I32.sub this.z (I32.lit 1) }
  pure (this, this)

/-- postfix `ivec3--` src/ivec3.cpp:143-150: (object afterwards, returned value) -/
def IV3.postDec (this : V3 I32) : Res (V3 I32 × V3 I32) := do
  let tmp := this
  let this := { this with x := ← I32.sub this.x (I32.lit 1) }
  let this := { this with y := ← I32.sub this.y (I32.lit 1) }
  let this := { this with z := ← I32.sub this.z (I32.lit 1) }
  pure (this, tmp)

/-- `ivec3 == ivec3` src/ivec3.cpp:92-95 -/
def IV3.eq (first second : V3 I32) : Bool :=
  first.x == second.x && first.y == second.y && first.z == second.z

/-- `ivec3 != ivec3` src/ivec3.cpp:97-100 -/
def IV3.ne (first second : V3 I32) : Bool := !(IV3.eq first second)

/-- `ivec3 < ivec3` src/ivec3.cpp:158-166 -/
def IV3.lt (first second : V3 I32) : Bool :=
  if first.x < second.x then true else
  if first.x > second.x then false else
  if first.y < second.y then true else
  if first.y > second.y then false else
  if first.z < second.z then true else
  false

/-- `ivec3 <= ivec3` src/ivec3.cpp:168-171 -/
def IV3.le (first second : V3 I32) : Bool := !(IV3.lt second first)

/-- `ivec3 > ivec3` src/ivec3.cpp:173-176 -/
def IV3.gt (first second : V3 I32) : Bool := IV3.lt second first

/-- `ivec3 >= ivec3` src/ivec3.cpp:178-181 -/
def IV3.ge (first second : V3 I32) : Bool := !(IV3.lt first second)

/-- reading `v[val]` src/ivec3.cpp:109-113; `_data[val]` outside the array is undefined. -/
def IV3.at (b : Build) (this : V3 I32) (val : UInt32) : Res I32 := do
  cassert b (val < 3)
  match val.toNat with
  | 0 => pure this.x
  | 1 => pure this.y
  | 2 => pure this.z
  | _ => Res.ub

/-- writing `v[val] = a` through the reference of src/ivec3.cpp:103-107 -/
def IV3.set (b : Build) (this : V3 I32) (val : UInt32) (a : I32) : Res (V3 I32) := do
  cassert b (val < 3)
  match val.toNat with
  | 0 => pure { this with x := a }
  | 1 => pure { this with y := a }
  | 2 => pure { this with z := a }
  | _ => Res.ub

/-- conversion to `bvec3` src/ivec3.cpp:152-155 -/
def IV3.toBV (this : V3 I32) : V3 Bool := ⟨I32.toBool this.x, I32.toBool this.y, I32.toBool this.z⟩

/-! ## ivec4 -/

/-- `ivec4(int32_t value)` src/ivec4.cpp:19-25 -/
def IV4.splat (value : I32) : V4 I32 := ⟨value, value, value, value⟩

/-- `ivec4(int32_t, int32_t, int32_t, int32_t)` src/ivec4.cpp:26-32 -/
def IV4.ofXYZW (x y z w : I32) : V4 I32 := ⟨x, y, z, w⟩

/-- `ivec4()` src/ivec4.cpp:12-14 -/
def IV4.default : V4 I32 := IV4.splat (I32.lit 0)

/-- `ivec4(ivec3 xyz, int32_t w)` src/ivec4.cpp:34-40 -/
def IV4.ofXYZ_W (xyz : V3 I32) (w : I32) : V4 I32 := ⟨xyz.x, xyz.y, xyz.z, w⟩

/-- `ivec4(int32_t x, ivec3 yzw)` src/ivec4.cpp:42-48 -/
def IV4.ofX_YZW (x : I32) (yzw : V3 I32) : V4 I32 := ⟨x, yzw.x, yzw.y, yzw.z⟩

/-- `ivec4(ivec2 xy, ivec2 zw)` src/ivec4.cpp:50-56 -/
def IV4.ofXY_ZW (xy zw : V2 I32) : V4 I32 := ⟨xy.x, xy.y, zw.x, zw.y⟩

/-- `ivec4(ivec2 xy, int32_t z, int32_t w)` src/ivec4.cpp:58-64 -/
def IV4.ofXY_Z_W (xy : V2 I32) (z w : I32) : V4 I32 := ⟨xy.x, xy.y, z, w⟩

/-- `ivec4(int32_t x, ivec2 yz, int32_t w)` src/ivec4.cpp:66-72 -/
def IV4.ofX_YZ_W (x : I32) (yz : V2 I32) (w : I32) : V4 I32 := ⟨x, yz.x, yz.y, w⟩

/-- `ivec4(int32_t x, int32_t y, ivec2 zw)` src/ivec4.cpp:74-80 -/
def IV4.ofX_Y_ZW (x y : I32) (zw : V2 I32) : V4 I32 := ⟨x, y, zw.x, zw.y⟩

/-- `make_ivec4(const int32_t* ptr)` src/ivec4.cpp:82-86 -/
def IV4.make (b : Build) (ptr : Option (ℕ → I32)) : Res (V4 I32) := do
  cassert b ptr.isSome
  match ptr with
  | some p => pure ⟨p 0, p 1, p 2, p 3⟩
  | none => Res.ub

/-- `ivec4 + ivec4` src/ivec4.cpp:89 -/
def IV4.add : V4 I32 → V4 I32 → Res (V4 I32) := V4.macroVV I32.add
/-- `ivec4 + int32_t` src/ivec4.cpp:89 -/
def IV4.addS : V4 I32 → I32 → Res (V4 I32) := V4.macroVS I32.add
/-- `int32_t + ivec4` src/ivec4.cpp:89 -/
def IV4.sAdd : I32 → V4 I32 → Res (V4 I32) := V4.macroSV I32.add
/-- `ivec4 += ivec4` src/ivec4.cpp:95 -/
def IV4.addAssign : V4 I32 → V4 I32 → Res (V4 I32) := V4.macroCV I32.add
/-- `ivec4 += int32_t` src/ivec4.cpp:95 -/
def IV4.addAssignS : V4 I32 → I32 → Res (V4 I32) := V4.macroCS I32.add

/-- `ivec4 - ivec4` src/ivec4.cpp:90 -/
def IV4.sub : V4 I32 → V4 I32 → Res (V4 I32) := V4.macroVV I32.sub
/-- `ivec4 - int32_t` src/ivec4.cpp:90 -/
def IV4.subS : V4 I32 → I32 → Res (V4 I32) := V4.macroVS I32.sub
/-- `int32_t - ivec4` src/ivec4.cpp:90 -/
def IV4.sSub : I32 → V4 I32 → Res (V4 I32) := V4.macroSV I32.sub
/-- `ivec4 -= ivec4` src/ivec4.cpp:96 -/
def IV4.subAssign : V4 I32 → V4 I32 → Res (V4 I32) := V4.macroCV I32.sub
/-- `ivec4 -= int32_t` src/ivec4.cpp:96 -/
def IV4.subAssignS : V4 I32 → I32 → Res (V4 I32) := V4.macroCS I32.sub

/-- `ivec4 * ivec4` src/ivec4.cpp:91 -/
def IV4.mul : V4 I32 → V4 I32 → Res (V4 I32) := V4.macroVV I32.mul
/-- `ivec4 * int32_t` src/ivec4.cpp:91 -/
def IV4.mulS : V4 I32 → I32 → Res (V4 I32) := V4.macroVS I32.mul
/-- `int32_t * ivec4` src/ivec4.cpp:91 -/
def IV4.sMul : I32 → V4 I32 → Res (V4 I32) := V4.macroSV I32.mul
/-- `ivec4 *= ivec4` src/ivec4.cpp:97 -/
def IV4.mulAssign : V4 I32 → V4 I32 → Res (V4 I32) := V4.macroCV I32.mul
/-- `ivec4 *= int32_t` src/ivec4.cpp:97 -/
def IV4.mulAssignS : V4 I32 → I32 → Res (V4 I32) := V4.macroCS I32.mul

/-- `ivec4 / ivec4` src/ivec4.cpp:92 -/
def IV4.div : V4 I32 → V4 I32 → Res (V4 I32) := V4.macroVV I32.div
/-- `ivec4 / int32_t` src/ivec4.cpp:92 -/
def IV4.divS : V4 I32 → I32 → Res (V4 I32) := V4.macroVS I32.div
/-- `int32_t / ivec4` src/ivec4.cpp:92 -/
def IV4.sDiv : I32 → V4 I32 → Res (V4 I32) := V4.macroSV I32.div
/-- `ivec4 /= ivec4` src/ivec4.cpp:98 -/
def IV4.divAssign : V4 I32 → V4 I32 → Res (V4 I32) := V4.macroCV I32.div
/-- `ivec4 /= int32_t` src/ivec4.cpp:98 -/
def IV4.divAssignS : V4 I32 → I32 → Res (V4 I32) := V4.macroCS I32.div

/-- unary `-ivec4` src/ivec4.cpp:100-106 -/
def IV4.neg (first : V4 I32) : Res (V4 I32) := do
  let a ← I32.neg first.x
  let b ← I32.neg first.y
  let c ← I32.neg first.z
  let d ← I32.neg first.w
  pure ⟨a, b, c, d⟩

/-- unary `+ivec4` src/ivec4.cpp:109-115 -/
def IV4.pos (first : V4 I32) : V4 I32 := ⟨first.x, first.y, first.z, first.w⟩

/-- prefix `++ivec4` src/ivec4.cpp:117-124: (object afterwards, value returned by reference to it) -/
def IV4.preInc (this : V4 I32) : Res (V4 I32 × V4 I32) := do
  let this := { this with x := ← I32.add this.x (I32.lit 1) }
  let this := { this with y := ← I32.add this.y (I32.lit 1) }
  let this := { this with z := ← I32.add this.z (I32.lit 1) }
  let this := { this with w := ← I32.add this.w (I32.lit 1) }
  pure (this, this)

/-- postfix `ivec4++` src/ivec4.cpp:126-134: (object afterwards, returned value) -/
def IV4.postInc (this : V4 I32) : Res (V4 I32 × V4 I32) := do
  let tmp := this
  let this := { this with x := ← I32.add this.x (I32.lit 1) }
  let this := { this with y := ← I32.add this.y (I32.lit 1) }
  let this := { this with z := ← I32.add this.z (I32.lit 1) }
  let this := { this with w := ← I32.add this.w (I32.lit 1) }
  pure (this, tmp)

/-- prefix `--ivec4` src/ivec4.cpp:136-143: (object afterwards, value returned by reference to it) -/
def IV4.preDec (this : V4 I32) : Res (V4 I32 × V4 I32) := do
  let this := { this with x := ← I32.sub this.x (I32.lit 1) }
  let this := { this with y := ← I32.sub this.y (I32.lit 1) }
  let this := { this with z := ← I32.sub this.z (I32.lit 1) }
  let this := { this with w := ← I32.sub this.w (I32.lit 1) }
  pure (this, this)

/-- postfix `ivec4--` src/ivec4.cpp:145-153: (object afterwards, returned value) -/
def IV4.postDec (this : V4 I32) : Res (V4 I32 × V4 I32) := do
  let tmp := this
  let this := { this with x := ← I32.sub this.x (I32.lit 1) }
  let this := { this with y := ← I32.sub this.y (I32.lit 1) }
  let this := { this with z := ← I32.sub this.z (I32.lit 1) }
  let this := { this with w := ← I32.sub this.w (I32.lit 1) }
  pure (this, tmp)

/-- `ivec4 == ivec4` src/ivec4.cpp:155-158 -/
def IV4.eq (first second : V4 I32) : Bool :=
  first.x == second.x && first.y == second.y && first.z == second.z && first.w == second.w

/-- `ivec4 != ivec4` src/ivec4.cpp:160-163 -/
def IV4.ne (first second : V4 I32) : Bool := !(IV4.eq first second)

/-- `ivec4 < ivec4` src/ivec4.cpp:165-175 -/
def IV4.lt (first second : V4 I32) : Bool :=
  if first.x < second.x then true else
  if first.x > second.x then false else
  if first.y < second.y then true else
  if first.y > second.y then false else
  if first.z < second.z then true else
  if first.z > second.z then false else
  if first.w < second.w then true else
  false

/-- `ivec4 <= ivec4` src/ivec4.cpp:177-180 -/
def IV4.le (first second : V4 I32) : Bool := !(IV4.lt second first)

/-- `ivec4 > ivec4` src/ivec4.cpp:182-185 -/
def IV4.gt (first second : V4 I32) : Bool := IV4.lt second first

/-- `ivec4 >= ivec4` src/ivec4.cpp:187-190 -/
def IV4.ge (first second : V4 I32) : Bool := !(IV4.lt first second)

/-- reading `v[val]` src/ivec4.cpp:199-203; `_data[val]` outside the array is undefined. -/
def IV4.at (b : Build) (this : V4 I32) (val : UInt32) : Res I32 := do
  cassert b (val < 4)
  match val.toNat with
  | 0 => pure this.x
  | 1 => pure this.y
  | 2 => pure this.z
  | 3 => pure this.w
  | _ => Res.ub

/-- writing `v[val] = a` through the reference of src/ivec4.cpp:193-197 -/
def IV4.set (b : Build) (this : V4 I32) (val : UInt32) (a : I32) : Res (V4 I32) := do
  cassert b (val < 4)
  match val.toNat with
  | 0 => pure { this with x := a }
  | 1 => pure { this with y := a }
  | 2 => pure { this with z := a }
  | 3 => pure { this with w := a }
  | _ => Res.ub

/-- conversion to `bvec4` src/ivec4.cpp:205-208 -/
def IV4.toBV (this : V4 I32) : V4 Bool := ⟨I32.toBool this.x, I32.toBool this.y, I32.toBool this.z, I32.toBool this.w⟩

end Zcm
