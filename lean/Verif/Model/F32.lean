import Verif.Model.Hash
import Mathlib.Data.Rat.Floor
import Mathlib.Data.Nat.Log
import Mathlib.Data.Nat.Size
import Mathlib.Tactic.Linarith
import Mathlib.Tactic.Positivity
import Mathlib.Tactic.FieldSimp

/-!
# IEEE-754 binary32

The C++ type `float` of /repo under the assumptions of DESIGN.md (binary32, round to nearest even,
`FLT_EVAL_METHOD = 0`, one NaN).  It models no line of /repo; it is the carrier at which the
polymorphic definitions of the other `Model` files become the code in float arithmetic.

Every finite binary32 number is `± k · 2⁻¹⁴⁹` for a natural number `k` with at most 24 significant
bits and `k < 2²⁷⁷`.
-/

namespace Zcm

/-- The exponent of the last place of a number of magnitude `n · 2⁻¹⁴⁹`, relative to `2⁻¹⁴⁹`:
0 for subnormals and the first normal binade (IEEE-754 3.3, `p = 24`). -/
def ulpExp (n : ℕ) : ℕ := Nat.log2 n - 23

/-- `k · 2⁻¹⁴⁹` is a finite binary32 number (IEEE-754 3.3: `p = 24`, `emax = 127`). -/
def Rep (k : ℕ) : Prop := 2 ^ ulpExp k ∣ k ∧ k < 2 ^ 277

instance (k : ℕ) : Decidable (Rep k) := inferInstanceAs (Decidable (_ ∧ _))

set_option exponentiation.threshold 300 in
theorem rep_zero : Rep 0 := ⟨dvd_zero _, by positivity⟩

/-- The binary32 values, with a single NaN (payloads are not modelled). `fin s k h` is
`(-1)^s · k · 2⁻¹⁴⁹`; `fin true 0` is -0. -/
inductive F32 where
  | nan
  | inf (s : Bool)
  | fin (s : Bool) (k : ℕ) (h : Rep k)
  deriving DecidableEq

namespace F32

/-- Rounding to 24 significant bits, nearest, ties to even, of a non-negative number `q` given in
units of `2⁻¹⁴⁹`, with unbounded exponent above (IEEE-754 4.3.1 before the overflow test). -/
def roundUnits {K : Type*} [Field K] [LinearOrder K] [FloorRing K] (q : K) : ℕ :=
  (roundHalfEven (q / 2 ^ ulpExp ⌊q⌋.toNat)).toNat * 2 ^ ulpExp ⌊q⌋.toNat

/-- The binary32 value of a rounded magnitude of `k` units of `2⁻¹⁴⁹`, with the given sign.  A rounded
magnitude of 2²⁷⁷ units (= 2¹²⁸) or more overflows to infinity (IEEE-754 4.3.1, 7.4). -/
def pack (s : Bool) (k : ℕ) : F32 :=
  if h : Rep k then .fin s k h else .inf s

/-- Correctly rounded binary32 of the rational `x`; `sz` is the sign used when `x = 0`
(IEEE-754 4.3.1, 6.3). -/
def round (sz : Bool) (x : ℚ) : F32 :=
  pack (if x = 0 then sz else decide (x < 0)) (roundUnits (|x| * 2 ^ 149))

/-- Position of a non-NaN value on the number line, in units of `2⁻¹⁴⁹`; ±∞ are placed at ±2²⁷⁷,
beyond every finite value. Used for comparisons (IEEE-754 5.11). 0 for NaN. -/
def key : F32 → ℤ
  | .nan => 0
  | .inf s => if s then -(2 ^ 277) else 2 ^ 277
  | .fin s k _ => if s then -(k : ℤ) else k

/-- The real (rational) number a finite value stands for; junk for NaN and infinities. -/
def val (x : F32) : ℚ := x.key / 2 ^ 149

/-- Finite: neither NaN nor an infinity (IEEE-754 5.7.2 `isFinite`). -/
def IsFin : F32 → Bool
  | .fin _ _ _ => true
  | _ => false

/-- The sign bit (IEEE-754 5.7.2 `isSignMinus`; false for the NaN). -/
def sgn : F32 → Bool
  | .nan => false
  | .inf s => s
  | .fin s _ _ => s

/-- negation flips the sign bit (IEEE-754 5.5.1) -/
def neg : F32 → F32
  | .nan => .nan
  | .inf s => .inf (!s)
  | .fin s k h => .fin (!s) k h

/-- `fabsf` clears the sign bit (IEEE-754 5.5.1) -/
def fabs : F32 → F32
  | .nan => .nan
  | .inf _ => .inf false
  | .fin _ k h => .fin false k h

/-- addition (IEEE-754 5.4.1, 6.1, 6.3: an exact zero sum of opposite signs is +0) -/
def add : F32 → F32 → F32
  | .nan, _ => .nan
  | _, .nan => .nan
  | .inf s, .inf t => if s = t then .inf s else .nan
  | .inf s, .fin _ _ _ => .inf s
  | .fin _ _ _, .inf t => .inf t
  | .fin s k h, .fin t l g => round (s && t) (val (.fin s k h) + val (.fin t l g))

/-- subtraction is addition of the negation (IEEE-754 5.4.1, 6.3) -/
def sub (a b : F32) : F32 := add a (neg b)

/-- multiplication (IEEE-754 5.4.1, 6.1, 6.3, 7.2) -/
def mul : F32 → F32 → F32
  | .nan, _ => .nan
  | _, .nan => .nan
  | .inf s, .inf t => .inf (s ^^ t)
  | .inf s, .fin t l _ => if l = 0 then .nan else .inf (s ^^ t)
  | .fin s k _, .inf t => if k = 0 then .nan else .inf (s ^^ t)
  | .fin s k h, .fin t l g => round (s ^^ t) (val (.fin s k h) * val (.fin t l g))

/-- division (IEEE-754 5.4.1, 6.1, 6.3, 7.2, 7.3) -/
def div : F32 → F32 → F32
  | .nan, _ => .nan
  | _, .nan => .nan
  | .inf _, .inf _ => .nan
  | .inf s, .fin t _ _ => .inf (s ^^ t)
  | .fin s _ _, .inf t => .fin (s ^^ t) 0 rep_zero
  | .fin s k h, .fin t l g =>
    if l = 0 then (if k = 0 then .nan else .inf (s ^^ t))
    else round (s ^^ t) (val (.fin s k h) / val (.fin t l g))

/-- fused multiply-add: one rounding (IEEE-754 5.4.1, 6.1, 6.3, 7.2) -/
def fma : F32 → F32 → F32 → F32
  | .fin s k h, .fin t l g, .fin u m i =>
    round ((s ^^ t) && u) (val (.fin s k h) * val (.fin t l g) + val (.fin u m i))
  | .fin _ _ _, .fin _ _ _, c => c
  | a, b, c => add (mul a b) c

/-- square root (IEEE-754 5.4.1, 6.3: `sqrt(-0) = -0`, negative arguments give NaN). The
magnitude in units is `√(k · 2¹⁴⁹)`; it is rounded from its integer part, with a half added when it is
not an integer (a "sticky bit", far below the last place, which is at least 2⁵¹ units). -/
def sqrt : F32 → F32
  | .nan => .nan
  | .inf s => if s then .nan else .inf false
  | .fin s k h =>
    if k = 0 then .fin s k h
    else if s then .nan
    else
      let r := Nat.sqrt (k * 2 ^ 149)
      pack false (roundUnits ((r : ℚ) + if r * r = k * 2 ^ 149 then 0 else 1 / 2))

/-- Rounding to an integral value by the function `f`, keeping the sign of the argument on a zero
result (IEEE-754 5.9, 6.3; C11 F.10.6). NaN and infinities are returned unchanged. -/
def integral (f : ℚ → ℤ) : F32 → F32
  | .fin s k h => round s (f (val (.fin s k h)))
  | x => x

/-- `roundf`: nearest integer, halves away from zero (C11 7.12.9.6) -/
def halfAway (x : ℚ) : ℤ := if 0 ≤ x then ⌊x + 1 / 2⌋ else ⌈x - 1 / 2⌉

/-- `truncf`: toward zero (C11 7.12.9.8) -/
def towardZero (x : ℚ) : ℤ := if 0 ≤ x then ⌊x⌋ else ⌈x⌉

/-- `==`: false if an operand is NaN, +0 == -0 (IEEE-754 5.11) -/
def beq (a b : F32) : Bool := decide (a ≠ .nan ∧ b ≠ .nan ∧ a.key = b.key)

instance : Neg F32 := ⟨neg⟩
instance : Add F32 := ⟨add⟩
instance : Sub F32 := ⟨sub⟩
instance : Mul F32 := ⟨mul⟩
instance : Div F32 := ⟨div⟩
instance : BEq F32 := ⟨beq⟩
/-- `<`: false if an operand is NaN (IEEE-754 5.11) -/
instance : LT F32 := ⟨fun a b => a ≠ .nan ∧ b ≠ .nan ∧ a.key < b.key⟩
/-- `<=`: false if an operand is NaN (IEEE-754 5.11) -/
instance : LE F32 := ⟨fun a b => a ≠ .nan ∧ b ≠ .nan ∧ a.key ≤ b.key⟩
instance : DecidableLT F32 := fun a b => inferInstanceAs (Decidable (a ≠ .nan ∧ b ≠ .nan ∧ a.key < b.key))
instance : DecidableLE F32 := fun a b => inferInstanceAs (Decidable (a ≠ .nan ∧ b ≠ .nan ∧ a.key ≤ b.key))

/-- literals are correctly rounded; the rest as specified by C11 Annex F -/
instance : FloatOps F32 where
  lit := round false
  fabs := fabs
  floor := integral Int.floor
  ceil := integral Int.ceil
  trunc := integral towardZero
  round := integral halfAway
  nearbyint := integral roundHalfEven
  sqrt := sqrt
  fma := fma
  isnan x := decide (x = .nan)
  isinf x := match x with
    | .inf _ => true
    | _ => false

/-- The interchange encoding (IEEE-754 3.4): sign, biased exponent, trailing significand. For a
magnitude of `k` units with last-place exponent `e` the lower 31 bits are `e · 2²³ + k / 2^e`
(the leading significand bit carries into the exponent field). NaN is the default quiet NaN. -/
def bits : F32 → BitVec 32
  | .nan => 0x7fc00000#32
  | .inf s => if s then 0xff800000#32 else 0x7f800000#32
  | .fin s k _ => BitVec.ofNat 32 ((if s then 2 ^ 31 else 0) + ulpExp k * 2 ^ 23 + k / 2 ^ ulpExp k)

instance : FloatBits F32 := ⟨bits⟩

end F32

end Zcm
