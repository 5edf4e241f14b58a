import Verif.Conformance.Gtest

/-!
The assertions of /repo/test/bvec2_test.cpp, run against the model (tests, not proofs: see Verif/Conformance/Gtest.lean).
-/

set_option exponentiation.threshold 400
set_option linter.unusedVariables false

namespace Zcm.Conformance.BVec2

/-- /repo/test/bvec2_test.cpp:5 -/
abbrev first : V2 Bool := (BV2.ofXY true false)

/-- /repo/test/bvec2_test.cpp:6 -/
abbrev second : V2 Bool := (BV2.ofXY false true)

/-- /repo/test/bvec2_test.cpp:7 -/
abbrev scalar : Bool := true

/-- /repo/test/bvec2_test.cpp:9-13 -/
def element_access (build : Build) : Res Unit := do
  check (first.x == true)
  check (first.y == false)

example : ∀ build, element_access build = .ok () := by intro build; cases build <;> decide +kernel

/-- /repo/test/bvec2_test.cpp:15-21 -/
def vector_and (build : Build) : Res Unit := do
  let result : V2 Bool := (BV2.and first second)
  check (result.x == false)
  check (result.y == false)

example : ∀ build, vector_and build = .ok () := by intro build; cases build <;> decide +kernel

/-- /repo/test/bvec2_test.cpp:23-29 -/
def scalar_vector_and (build : Build) : Res Unit := do
  let result : V2 Bool := (BV2.sAnd scalar first)
  check (result.x == true)
  check (result.y == false)

example : ∀ build, scalar_vector_and build = .ok () := by intro build; cases build <;> decide +kernel

/-- /repo/test/bvec2_test.cpp:31-37 -/
def vector_scalar_and (build : Build) : Res Unit := do
  let result : V2 Bool := (BV2.andS first scalar)
  check (result.x == true)
  check (result.y == false)

example : ∀ build, vector_scalar_and build = .ok () := by intro build; cases build <;> decide +kernel

/-- /repo/test/bvec2_test.cpp:39-45 -/
def vector_scalar_or (build : Build) : Res Unit := do
  let result : V2 Bool := (BV2.orS first scalar)
  check (result.x == true)
  check (result.y == true)

example : ∀ build, vector_scalar_or build = .ok () := by intro build; cases build <;> decide +kernel

/-- /repo/test/bvec2_test.cpp:47-53 -/
def scalar_vector_or (build : Build) : Res Unit := do
  let result : V2 Bool := (BV2.sOr scalar first)
  check (result.x == true)
  check (result.y == true)

example : ∀ build, scalar_vector_or build = .ok () := by intro build; cases build <;> decide +kernel

/-- /repo/test/bvec2_test.cpp:56-62 -/
def vector_or (build : Build) : Res Unit := do
  let result : V2 Bool := (BV2.or first second)
  check (result.x == true)
  check (result.y == true)

example : ∀ build, vector_or build = .ok () := by intro build; cases build <;> decide +kernel

/-- /repo/test/bvec2_test.cpp:64-75 -/
def vector_xor (build : Build) : Res Unit := do
  let result : V2 Bool := (BV2.xor first second)
  check (result.x == true)
  check (result.y == true)
  let result : V2 Bool := (BV2.xor first first)
  check (BV2.eq result (BV2.splat false))
  let result : V2 Bool := (BV2.xor second (BV2.not second))
  check (BV2.eq result (BV2.splat true))

example : ∀ build, vector_xor build = .ok () := by intro build; cases build <;> decide +kernel

/-- /repo/test/bvec2_test.cpp:77-88 -/
def scalar_vector_xor (build : Build) : Res Unit := do
  let result : V2 Bool := (BV2.sXor true second)
  check (result.x == true)
  check (result.y == false)
  let result : V2 Bool := (BV2.sXor false second)
  check (result.x == false)
  check (result.y == true)

example : ∀ build, scalar_vector_xor build = .ok () := by intro build; cases build <;> decide +kernel

/-- /repo/test/bvec2_test.cpp:90-101 -/
def vector_scalar_xor (build : Build) : Res Unit := do
  let result : V2 Bool := (BV2.xorS second true)
  check (result.x == true)
  check (result.y == false)
  let result : V2 Bool := (BV2.xorS second false)
  check (result.x == false)
  check (result.y == true)

example : ∀ build, vector_scalar_xor build = .ok () := by intro build; cases build <;> decide +kernel

/-- /repo/test/bvec2_test.cpp:104-110 -/
def vector_unar_neg (build : Build) : Res Unit := do
  let result : V2 Bool := (BV2.not first)
  check (result.x == (!first.x))
  check (result.y == (!first.y))

example : ∀ build, vector_unar_neg build = .ok () := by intro build; cases build <;> decide +kernel

/-- /repo/test/bvec2_test.cpp:112-121 -/
def vector_access (build : Build) : Res Unit := do
  let result : V2 Bool := first
  let result ← BV2.set build result 0 false
  let result ← BV2.set build result 1 false
  let t1 ← BV2.at build result 0
  check (t1 == false)
  let t2 ← BV2.at build result 1
  check (t2 == false)

example : ∀ build, vector_access build = .ok () := by intro build; cases build <;> decide +kernel

/-- /repo/test/bvec2_test.cpp:123-129 -/
def vector_const_access (build : Build) : Res Unit := do
  let result : V2 Bool := first
  let t1 ← BV2.at build result 0
  check (t1 == true)
  let t2 ← BV2.at build result 1
  check (t2 == false)

example : ∀ build, vector_const_access build = .ok () := by intro build; cases build <;> decide +kernel

/-- /repo/test/bvec2_test.cpp:132-141 -/
def vector_compare_eq (build : Build) : Res Unit := do
  let result : Bool := (BV2.eq first second)
  check (result == false)
  let result : Bool := (BV2.eq first first)
  check (result == true)

example : ∀ build, vector_compare_eq build = .ok () := by intro build; cases build <;> decide +kernel

/-- /repo/test/bvec2_test.cpp:143-152 -/
def vector_compare_neq (build : Build) : Res Unit := do
  let result : Bool := (BV2.ne first second)
  check (result == true)
  let result : Bool := (BV2.ne first first)
  check (result == false)

example : ∀ build, vector_compare_neq build = .ok () := by intro build; cases build <;> decide +kernel

/-- /repo/test/bvec2_test.cpp:154-160 -/
def make (build : Build) : Res Unit := do
  let d : List Bool := [true, false]
  let t1 ← BV2.make build (some fun i => d.getD i false)
  let result : V2 Bool := t1
  let t2 ← BV2.at build result 0
  check (t2 == (d.getD 0 false))
  let t3 ← BV2.at build result 1
  check (t3 == (d.getD 1 false))

example : ∀ build, make build = .ok () := by intro build; cases build <;> decide +kernel

end Zcm.Conformance.BVec2
