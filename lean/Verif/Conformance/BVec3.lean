import Verif.Conformance.Gtest

/-!
The assertions of /repo/test/bvec3_test.cpp, run against the model (tests, not proofs: see Verif/Conformance/Gtest.lean).
-/

set_option exponentiation.threshold 400
set_option linter.unusedVariables false

namespace Zcm.Conformance.BVec3

/-- /repo/test/bvec3_test.cpp:5 -/
abbrev first : V3 Bool := (BV3.ofXYZ true false false)

/-- /repo/test/bvec3_test.cpp:6 -/
abbrev second : V3 Bool := (BV3.ofXYZ false true false)

/-- /repo/test/bvec3_test.cpp:7 -/
abbrev scalar : Bool := true

/-- /repo/test/bvec3_test.cpp:9-14 -/
def element_access (build : Build) : Res Unit := do
  check (first.x == true)
  check (first.y == false)
  check (first.z == false)

example : ∀ build, element_access build = .ok () := by intro build; cases build <;> decide +kernel

/-- /repo/test/bvec3_test.cpp:16-23 -/
def vector_and (build : Build) : Res Unit := do
  let result : V3 Bool := (BV3.and first second)
  check (result.x == false)
  check (result.y == false)
  check (result.z == false)

example : ∀ build, vector_and build = .ok () := by intro build; cases build <;> decide +kernel

/-- /repo/test/bvec3_test.cpp:25-32 -/
def scalar_vector_and (build : Build) : Res Unit := do
  let result : V3 Bool := (BV3.sAnd scalar first)
  check (result.x == true)
  check (result.y == false)
  check (result.z == false)

example : ∀ build, scalar_vector_and build = .ok () := by intro build; cases build <;> decide +kernel

/-- /repo/test/bvec3_test.cpp:34-41 -/
def vector_scalar_and (build : Build) : Res Unit := do
  let result : V3 Bool := (BV3.andS first scalar)
  check (result.x == true)
  check (result.y == false)
  check (result.z == false)

example : ∀ build, vector_scalar_and build = .ok () := by intro build; cases build <;> decide +kernel

/-- /repo/test/bvec3_test.cpp:43-50 -/
def vector_scalar_or (build : Build) : Res Unit := do
  let result : V3 Bool := (BV3.orS first scalar)
  check (result.x == true)
  check (result.y == true)
  check (result.z == true)

example : ∀ build, vector_scalar_or build = .ok () := by intro build; cases build <;> decide +kernel

/-- /repo/test/bvec3_test.cpp:52-59 -/
def scalar_vector_or (build : Build) : Res Unit := do
  let result : V3 Bool := (BV3.sOr scalar first)
  check (result.x == true)
  check (result.y == true)
  check (result.z == true)

example : ∀ build, scalar_vector_or build = .ok () := by intro build; cases build <;> decide +kernel

/-- /repo/test/bvec3_test.cpp:62-69 -/
def vector_or (build : Build) : Res Unit := do
  let result : V3 Bool := (BV3.or first second)
  check (result.x == true)
  check (result.y == true)
  check (result.z == false)

example : ∀ build, vector_or build = .ok () := by intro build; cases build <;> decide +kernel

/-- /repo/test/bvec3_test.cpp:71-83 -/
def vector_xor (build : Build) : Res Unit := do
  let result : V3 Bool := (BV3.xor first second)
  check (result.x == true)
  check (result.y == true)
  check (result.z == false)
  let result : V3 Bool := (BV3.xor first first)
  check (BV3.eq result (BV3.splat false))
  let result : V3 Bool := (BV3.xor second (BV3.not second))
  check (BV3.eq result (BV3.splat true))

example : ∀ build, vector_xor build = .ok () := by intro build; cases build <;> decide +kernel

/-- /repo/test/bvec3_test.cpp:85-98 -/
def scalar_vector_xor (build : Build) : Res Unit := do
  let result : V3 Bool := (BV3.sXor true second)
  check (result.x == true)
  check (result.y == false)
  check (result.z == true)
  let result : V3 Bool := (BV3.sXor false second)
  check (result.x == false)
  check (result.y == true)
  check (result.z == false)

example : ∀ build, scalar_vector_xor build = .ok () := by intro build; cases build <;> decide +kernel

/-- /repo/test/bvec3_test.cpp:100-113 -/
def vector_scalar_xor (build : Build) : Res Unit := do
  let result : V3 Bool := (BV3.xorS second true)
  check (result.x == true)
  check (result.y == false)
  check (result.z == true)
  let result : V3 Bool := (BV3.xorS second false)
  check (result.x == false)
  check (result.y == true)
  check (result.z == false)

example : ∀ build, vector_scalar_xor build = .ok () := by intro build; cases build <;> decide +kernel

/-- /repo/test/bvec3_test.cpp:116-123 -/
def vector_unar_neg (build : Build) : Res Unit := do
  let result : V3 Bool := (BV3.not first)
  check (result.x == (!first.x))
  check (result.y == (!first.y))
  check (result.z == (!first.z))

example : ∀ build, vector_unar_neg build = .ok () := by intro build; cases build <;> decide +kernel

/-- /repo/test/bvec3_test.cpp:125-136 -/
def vector_access (build : Build) : Res Unit := do
  let result : V3 Bool := first
  let result ← BV3.set build result 0 false
  let result ← BV3.set build result 1 false
  let result ← BV3.set build result 2 true
  let t1 ← BV3.at build result 0
  check (t1 == false)
  let t2 ← BV3.at build result 1
  check (t2 == false)
  let t3 ← BV3.at build result 2
  check (t3 == true)

example : ∀ build, vector_access build = .ok () := by intro build; cases build <;> decide +kernel

/-- /repo/test/bvec3_test.cpp:138-145 -/
def vector_const_access (build : Build) : Res Unit := do
  let result : V3 Bool := first
  let t1 ← BV3.at build result 0
  check (t1 == true)
  let t2 ← BV3.at build result 1
  check (t2 == false)
  let t3 ← BV3.at build result 2
  check (t3 == false)

example : ∀ build, vector_const_access build = .ok () := by intro build; cases build <;> decide +kernel

/-- /repo/test/bvec3_test.cpp:148-157 -/
def vector_compare_eq (build : Build) : Res Unit := do
  let result : Bool := (BV3.eq first second)
  check (result == false)
  let result : Bool := (BV3.eq first first)
  check (result == true)

example : ∀ build, vector_compare_eq build = .ok () := by intro build; cases build <;> decide +kernel

/-- /repo/test/bvec3_test.cpp:159-168 -/
def vector_compare_neq (build : Build) : Res Unit := do
  let result : Bool := (BV3.ne first second)
  check (result == true)
  let result : Bool := (BV3.ne first first)
  check (result == false)

example : ∀ build, vector_compare_neq build = .ok () := by intro build; cases build <;> decide +kernel

/-- /repo/test/bvec3_test.cpp:170-177 -/
def make (build : Build) : Res Unit := do
  let d : List Bool := [true, false, true]
  let t1 ← BV3.make build (some fun i => d.getD i false)
  let result : V3 Bool := t1
  let t2 ← BV3.at build result 0
  check (t2 == (d.getD 0 false))
  let t3 ← BV3.at build result 1
  check (t3 == (d.getD 1 false))
  let t4 ← BV3.at build result 2
  check (t4 == (d.getD 2 false))

example : ∀ build, make build = .ok () := by intro build; cases build <;> decide +kernel

end Zcm.Conformance.BVec3
