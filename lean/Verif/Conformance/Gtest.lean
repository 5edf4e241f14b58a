import Verif.Model.F32
import Verif.Model.Common
import Verif.Model.Exponential
import Verif.Model.Geometric
import Verif.Model.ComponentWise
import Verif.Model.Accessors
import Verif.Model.BVec
import Verif.Model.QuatBasic

/-!
# The project's own unit tests, run against the model

The files of this directory translate /repo/test/*.cpp statement by statement into programs over the model and let
the kernel run them, in debug and release builds.  They prove no property (they are tests on literals, and no claim of
MANIFEST.json rests on them): they are evidence that the model computes what the authors of the library expect, on
the inputs the authors chose.  /repo/test/geometric_test.cpp compares with the glm library, which is not part of
/repo, and is not translated.
-/

namespace Zcm.Conformance

/-- Position of a float in the increasing enumeration of the floats, both zeros at 0: the sign-and-magnitude to biased
conversion that gtest's `ASSERT_FLOAT_EQ` uses -/
def ordinal (x : F32) : ℤ :=
  let m : ℤ := (x.bits.toNat % 2 ^ 31 : ℕ)
  if x.sgn then -m else m

/-- `ASSERT_FLOAT_EQ`: neither is NaN and they are at most 4 units in the last place apart -/
def floatEq (a b : F32) : Bool :=
  !FloatOps.isnan a && !FloatOps.isnan b && decide (|ordinal a - ordinal b| ≤ 4)

/-- `ASSERT_*` stops the test when the comparison fails -/
def check (b : Bool) : Res Unit := if b then .ok () else .abort

/-- the member `name` of the union, converted to a vector of width 2 -/
def swizzle2 {n : ℕ} {β : Type} (table : List (Swizzle n)) (name : List Letter) (data : Fin n → β) : Res (V2 β) :=
  match (table.find? (·.name = name)).bind (·.read data) with
  | some (.v2 v) => .ok v
  | _ => .ub

/-- the member `name` of the union, converted to a vector of width 3 -/
def swizzle3 {n : ℕ} {β : Type} (table : List (Swizzle n)) (name : List Letter) (data : Fin n → β) : Res (V3 β) :=
  match (table.find? (·.name = name)).bind (·.read data) with
  | some (.v3 v) => .ok v
  | _ => .ub

/-- the member `name` of the union, converted to a vector of width 4 -/
def swizzle4 {n : ℕ} {β : Type} (table : List (Swizzle n)) (name : List Letter) (data : Fin n → β) : Res (V4 β) :=
  match (table.find? (·.name = name)).bind (·.read data) with
  | some (.v4 v) => .ok v
  | _ => .ub

theorem quat_check (a b c d : F32) (ha : a ≠ .nan) (hb : b ≠ .nan) (hc : c ≠ .nan) (hd : d ≠ .nan) :
    check (Quat.eq (⟨a, b, c, d⟩ : Quat F32) ⟨a, b, c, d⟩) = .ok () := by
  have e : ∀ x : F32, x ≠ .nan → (x == x) = true := by
    intro x hx
    cases x <;> simp_all [BEq.beq, F32.beq]
  simp [check, Quat.eq, e, ha, hb, hc, hd]

end Zcm.Conformance
