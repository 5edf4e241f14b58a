import Verif.Conformance.Gtest

/-!
The assertions of /repo/test/bvec4_test.cpp, run against the model (tests, not proofs: see Verif/Conformance/Gtest.lean).
-/

set_option exponentiation.threshold 400
set_option linter.unusedVariables false

namespace Zcm.Conformance.BVec4

/-- /repo/test/bvec4_test.cpp:5 -/
abbrev first : V4 Bool := (BV4.ofXYZW true false false true)

/-- /repo/test/bvec4_test.cpp:6 -/
abbrev second : V4 Bool := (BV4.ofXYZW false true false true)

/-- /repo/test/bvec4_test.cpp:7 -/
abbrev scalar : Bool := true

/-- /repo/test/bvec4_test.cpp:9-15 -/
def element_access (build : Build) : Res Unit := do
  check (first.x == true)
  check (first.y == false)
  check (first.z == false)
  check (first.w == true)

example : ∀ build, element_access build = .ok () := by intro build; cases build <;> decide +kernel

/-- /repo/test/bvec4_test.cpp:17-25 -/
def vector_and (build : Build) : Res Unit := do
  let result : V4 Bool := (BV4.and first second)
  check (result.x == false)
  check (result.y == false)
  check (result.z == false)
  check (result.w == true)

example : ∀ build, vector_and build = .ok () := by intro build; cases build <;> decide +kernel

/-- /repo/test/bvec4_test.cpp:27-35 -/
def scalar_vector_and (build : Build) : Res Unit := do
  let result : V4 Bool := (BV4.sAnd scalar first)
  check (result.x == true)
  check (result.y == false)
  check (result.z == false)
  check (result.w == true)

example : ∀ build, scalar_vector_and build = .ok () := by intro build; cases build <;> decide +kernel

/-- /repo/test/bvec4_test.cpp:37-45 -/
def vector_scalar_and (build : Build) : Res Unit := do
  let result : V4 Bool := (BV4.andS first scalar)
  check (result.x == true)
  check (result.y == false)
  check (result.z == false)
  check (result.w == true)

example : ∀ build, vector_scalar_and build = .ok () := by intro build; cases build <;> decide +kernel

/-- /repo/test/bvec4_test.cpp:47-55 -/
def vector_scalar_or (build : Build) : Res Unit := do
  let result : V4 Bool := (BV4.orS first scalar)
  check (result.x == true)
  check (result.y == true)
  check (result.z == true)
  check (result.w == true)

example : ∀ build, vector_scalar_or build = .ok () := by intro build; cases build <;> decide +kernel

/-- /repo/test/bvec4_test.cpp:57-65 -/
def scalar_vector_or (build : Build) : Res Unit := do
  let result : V4 Bool := (BV4.sOr scalar first)
  check (result.x == true)
  check (result.y == true)
  check (result.z == true)
  check (result.w == true)

example : ∀ build, scalar_vector_or build = .ok () := by intro build; cases build <;> decide +kernel

/-- /repo/test/bvec4_test.cpp:68-76 -/
def vector_or (build : Build) : Res Unit := do
  let result : V4 Bool := (BV4.or first second)
  check (result.x == true)
  check (result.y == true)
  check (result.z == false)
  check (result.w == true)

example : ∀ build, vector_or build = .ok () := by intro build; cases build <;> decide +kernel

/-- /repo/test/bvec4_test.cpp:78-91 -/
def vector_xor (build : Build) : Res Unit := do
  let result : V4 Bool := (BV4.xor first second)
  check (result.x == true)
  check (result.y == true)
  check (result.z == false)
  check (result.w == false)
  let result : V4 Bool := (BV4.xor first first)
  check (BV4.eq result (BV4.splat false))
  let result : V4 Bool := (BV4.xor second (BV4.not second))
  check (BV4.eq result (BV4.splat true))

example : ∀ build, vector_xor build = .ok () := by intro build; cases build <;> decide +kernel

/-- /repo/test/bvec4_test.cpp:93-108 -/
def scalar_vector_xor (build : Build) : Res Unit := do
  let result : V4 Bool := (BV4.sXor true second)
  check (result.x == true)
  check (result.y == false)
  check (result.z == true)
  check (result.w == false)
  let result : V4 Bool := (BV4.sXor false second)
  check (result.x == false)
  check (result.y == true)
  check (result.z == false)
  check (result.w == true)

example : ∀ build, scalar_vector_xor build = .ok () := by intro build; cases build <;> decide +kernel

/-- /repo/test/bvec4_test.cpp:110-125 -/
def vector_scalar_xor (build : Build) : Res Unit := do
  let result : V4 Bool := (BV4.xorS second true)
  check (result.x == true)
  check (result.y == false)
  check (result.z == true)
  check (result.w == false)
  let result : V4 Bool := (BV4.xorS second false)
  check (result.x == false)
  check (result.y == true)
  check (result.z == false)
  check (result.w == true)

example : ∀ build, vector_scalar_xor build = .ok () := by intro build; cases build <;> decide +kernel

/-- /repo/test/bvec4_test.cpp:128-136 -/
def vector_unar_neg (build : Build) : Res Unit := do
  let result : V4 Bool := (BV4.not first)
  check (result.x == (!first.x))
  check (result.y == (!first.y))
  check (result.z == (!first.z))
  check (result.w == (!first.w))

example : ∀ build, vector_unar_neg build = .ok () := by intro build; cases build <;> decide +kernel

/-- /repo/test/bvec4_test.cpp:138-151 -/
def vector_access (build : Build) : Res Unit := do
  let result : V4 Bool := first
  let result ← BV4.set build result 0 false
  let result ← BV4.set build result 1 false
  let result ← BV4.set build result 2 true
  let result ← BV4.set build result 3 false
  let t1 ← BV4.at build result 0
  check (t1 == false)
  let t2 ← BV4.at build result 1
  check (t2 == false)
  let t3 ← BV4.at build result 2
  check (t3 == true)
  let t4 ← BV4.at build result 3
  check (t4 == false)

example : ∀ build, vector_access build = .ok () := by intro build; cases build <;> decide +kernel

/-- /repo/test/bvec4_test.cpp:153-161 -/
def vector_const_access (build : Build) : Res Unit := do
  let result : V4 Bool := first
  let t1 ← BV4.at build result 0
  check (t1 == true)
  let t2 ← BV4.at build result 1
  check (t2 == false)
  let t3 ← BV4.at build result 2
  check (t3 == false)
  let t4 ← BV4.at build result 3
  check (t4 == true)

example : ∀ build, vector_const_access build = .ok () := by intro build; cases build <;> decide +kernel

/-- /repo/test/bvec4_test.cpp:164-173 -/
def vector_compare_eq (build : Build) : Res Unit := do
  let result : Bool := (BV4.eq first second)
  check (result == false)
  let result : Bool := (BV4.eq first first)
  check (result == true)

example : ∀ build, vector_compare_eq build = .ok () := by intro build; cases build <;> decide +kernel

/-- /repo/test/bvec4_test.cpp:175-184 -/
def vector_compare_neq (build : Build) : Res Unit := do
  let result : Bool := (BV4.ne first second)
  check (result == true)
  let result : Bool := (BV4.ne first first)
  check (result == false)

example : ∀ build, vector_compare_neq build = .ok () := by intro build; cases build <;> decide +kernel

/-- /repo/test/bvec4_test.cpp:186-194 -/
def make (build : Build) : Res Unit := do
  let d : List Bool := [true, false, true, false]
  let t1 ← BV4.make build (some fun i => d.getD i false)
  let result : V4 Bool := t1
  let t2 ← BV4.at build result 0
  check (t2 == (d.getD 0 false))
  let t3 ← BV4.at build result 1
  check (t3 == (d.getD 1 false))
  let t4 ← BV4.at build result 2
  check (t4 == (d.getD 2 false))
  let t5 ← BV4.at build result 3
  check (t5 == (d.getD 3 false))

example : ∀ build, make build = .ok () := by intro build; cases build <;> decide +kernel

end Zcm.Conformance.BVec4
