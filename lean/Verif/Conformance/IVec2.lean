import Verif.Conformance.Gtest

/-!
The assertions of /repo/test/ivec2_test.cpp, run against the model (tests, not proofs: see Verif/Conformance/Gtest.lean).
-/

set_option exponentiation.threshold 400
set_option linter.unusedVariables false

namespace Zcm.Conformance.IVec2

/-- /repo/test/ivec2_test.cpp:7 -/
abbrev first : V2 I32 := (IV2.ofXY (I32.lit 2) (I32.lit 4))

/-- /repo/test/ivec2_test.cpp:8 -/
abbrev second : V2 I32 := (IV2.ofXY (I32.lit (-4)) (I32.lit 5))

/-- /repo/test/ivec2_test.cpp:9 -/
abbrev scalar : I32 := (I32.lit 5)

/-- /repo/test/ivec2_test.cpp:11-15 -/
def element_access (build : Build) : Res Unit := do
  check (first.x == (I32.lit 2))
  check (first.y == (I32.lit 4))

example : ∀ build, element_access build = .ok () := by intro build; cases build <;> decide +kernel

/-- /repo/test/ivec2_test.cpp:17-23 -/
def vector_scalar_multiplication (build : Build) : Res Unit := do
  let t1 ← IV2.mulS first scalar
  let result : V2 I32 := t1
  check (result.x == (I32.lit 10))
  check (result.y == (I32.lit 20))

example : ∀ build, vector_scalar_multiplication build = .ok () := by intro build; cases build <;> decide +kernel

/-- /repo/test/ivec2_test.cpp:25-31 -/
def scalar_vector_multiplication (build : Build) : Res Unit := do
  let t1 ← IV2.sMul scalar first
  let result : V2 I32 := t1
  check (result.x == (I32.lit 10))
  check (result.y == (I32.lit 20))

example : ∀ build, scalar_vector_multiplication build = .ok () := by intro build; cases build <;> decide +kernel

/-- /repo/test/ivec2_test.cpp:33-39 -/
def vector_scalar_devision (build : Build) : Res Unit := do
  let t1 ← IV2.divS first scalar
  let result : V2 I32 := t1
  check (result.x == (I32.lit 0))
  check (result.y == (I32.lit 0))

example : ∀ build, vector_scalar_devision build = .ok () := by intro build; cases build <;> decide +kernel

/-- /repo/test/ivec2_test.cpp:41-47 -/
def scalar_vector_devision (build : Build) : Res Unit := do
  let t1 ← IV2.sDiv scalar first
  let result : V2 I32 := t1
  check (result.x == (I32.lit 2))
  check (result.y == (I32.lit 1))

example : ∀ build, scalar_vector_devision build = .ok () := by intro build; cases build <;> decide +kernel

/-- /repo/test/ivec2_test.cpp:49-55 -/
def scalar_addition (build : Build) : Res Unit := do
  let t1 ← IV2.addS first scalar
  let result : V2 I32 := t1
  check (result.x == (I32.lit 7))
  check (result.y == (I32.lit 9))

example : ∀ build, scalar_addition build = .ok () := by intro build; cases build <;> decide +kernel

/-- /repo/test/ivec2_test.cpp:57-63 -/
def scalar_substraction (build : Build) : Res Unit := do
  let t1 ← IV2.subS first scalar
  let result : V2 I32 := t1
  check (result.x == (I32.lit (-3)))
  check (result.y == (I32.lit (-1)))

example : ∀ build, scalar_substraction build = .ok () := by intro build; cases build <;> decide +kernel

/-- /repo/test/ivec2_test.cpp:65-71 -/
def vector_addition (build : Build) : Res Unit := do
  let t1 ← IV2.add first second
  let result : V2 I32 := t1
  check (result.x == (I32.lit (-2)))
  check (result.y == (I32.lit 9))

example : ∀ build, vector_addition build = .ok () := by intro build; cases build <;> decide +kernel

/-- /repo/test/ivec2_test.cpp:73-79 -/
def vector_substraction (build : Build) : Res Unit := do
  let t1 ← IV2.sub first second
  let result : V2 I32 := t1
  check (result.x == (I32.lit 6))
  check (result.y == (I32.lit (-1)))

example : ∀ build, vector_substraction build = .ok () := by intro build; cases build <;> decide +kernel

/-- /repo/test/ivec2_test.cpp:81-87 -/
def vector_unar_substraction (build : Build) : Res Unit := do
  let t1 ← IV2.neg first
  let result : V2 I32 := t1
  let t2 ← I32.neg first.x
  check (result.x == t2)
  let t3 ← I32.neg first.y
  check (result.y == t3)

example : ∀ build, vector_unar_substraction build = .ok () := by intro build; cases build <;> decide +kernel

/-- /repo/test/ivec2_test.cpp:89-95 -/
def vector_per_component_multiplication (build : Build) : Res Unit := do
  let t1 ← IV2.mul first second
  let result : V2 I32 := t1
  check (result.x == (I32.lit (-8)))
  check (result.y == (I32.lit 20))

example : ∀ build, vector_per_component_multiplication build = .ok () := by intro build; cases build <;> decide +kernel

/-- /repo/test/ivec2_test.cpp:97-106 -/
def vector_access (build : Build) : Res Unit := do
  let result : V2 I32 := first
  let result ← IV2.set build result 0 (I32.lit 1)
  let result ← IV2.set build result 1 (I32.lit 1)
  let t1 ← IV2.at build result 0
  check (t1 == (I32.lit 1))
  let t2 ← IV2.at build result 1
  check (t2 == (I32.lit 1))

example : ∀ build, vector_access build = .ok () := by intro build; cases build <;> decide +kernel

/-- /repo/test/ivec2_test.cpp:108-114 -/
def vector_const_access (build : Build) : Res Unit := do
  let result : V2 I32 := first
  let t1 ← IV2.at build result 0
  check (t1 == (I32.lit 2))
  let t2 ← IV2.at build result 1
  check (t2 == (I32.lit 4))

example : ∀ build, vector_const_access build = .ok () := by intro build; cases build <;> decide +kernel

/-- /repo/test/ivec2_test.cpp:117-138 -/
def shuffle (build : Build) : Res Unit := do
  let t1 ← swizzle2 IV2.swizzles [.y, .x] first.data
  let result : V2 I32 := t1
  check (result.x == first.y)
  check (result.y == first.x)
  let t2 ← swizzle2 IV2.swizzles [.x, .x] first.data
  let result : V2 I32 := t2
  check (result.x == first.x)
  check (result.y == first.x)
  let t3 ← swizzle2 IV2.swizzles [.y, .y] first.data
  let result : V2 I32 := t3
  check (result.x == first.y)
  check (result.y == first.y)
  let t4 ← swizzle2 IV2.swizzles [.x, .y] first.data
  let result : V2 I32 := t4
  check (result.x == first.x)
  check (result.y == first.y)

example : ∀ build, shuffle build = .ok () := by intro build; cases build <;> decide +kernel

/-- /repo/test/ivec2_test.cpp:141-147 -/
def make (build : Build) : Res Unit := do
  let d : List I32 := [(I32.lit 0), (I32.lit 1)]
  let t1 ← IV2.make build (some fun i => d.getD i (I32.lit 0))
  let result : V2 I32 := t1
  let t2 ← IV2.at build result 0
  check (t2 == (d.getD 0 (I32.lit 0)))
  let t3 ← IV2.at build result 1
  check (t3 == (d.getD 1 (I32.lit 0)))

example : ∀ build, make build = .ok () := by intro build; cases build <;> decide +kernel

end Zcm.Conformance.IVec2
