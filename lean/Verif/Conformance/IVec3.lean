import Verif.Conformance.Gtest

/-!
The assertions of /repo/test/ivec3_test.cpp, run against the model (tests, not proofs: see Verif/Conformance/Gtest.lean).
-/

set_option exponentiation.threshold 400
set_option linter.unusedVariables false

namespace Zcm.Conformance.IVec3

/-- /repo/test/ivec3_test.cpp:8 -/
abbrev first : V3 I32 := (IV3.ofXYZ (I32.lit 2) (I32.lit 4) (I32.lit (-5)))

/-- /repo/test/ivec3_test.cpp:9 -/
abbrev second : V3 I32 := (IV3.ofXYZ (I32.lit (-4)) (I32.lit 5) (I32.lit (-1)))

/-- /repo/test/ivec3_test.cpp:10 -/
abbrev scalar : I32 := (I32.lit 5)

/-- /repo/test/ivec3_test.cpp:12-17 -/
def element_access (build : Build) : Res Unit := do
  check (first.x == (I32.lit 2))
  check (first.y == (I32.lit 4))
  check (first.z == (I32.lit (-5)))

example : ∀ build, element_access build = .ok () := by intro build; cases build <;> decide +kernel

/-- /repo/test/ivec3_test.cpp:19-26 -/
def vector_scalar_multiplication (build : Build) : Res Unit := do
  let t1 ← IV3.mulS first scalar
  let result : V3 I32 := t1
  check (result.x == (I32.lit 10))
  check (result.y == (I32.lit 20))
  check (result.z == (I32.lit (-25)))

example : ∀ build, vector_scalar_multiplication build = .ok () := by intro build; cases build <;> decide +kernel

/-- /repo/test/ivec3_test.cpp:28-35 -/
def scalar_vector_multiplication (build : Build) : Res Unit := do
  let t1 ← IV3.sMul scalar first
  let result : V3 I32 := t1
  check (result.x == (I32.lit 10))
  check (result.y == (I32.lit 20))
  check (result.z == (I32.lit (-25)))

example : ∀ build, scalar_vector_multiplication build = .ok () := by intro build; cases build <;> decide +kernel

/-- /repo/test/ivec3_test.cpp:37-44 -/
def vector_scalar_devision (build : Build) : Res Unit := do
  let t1 ← IV3.divS first scalar
  let result : V3 I32 := t1
  check (result.x == (I32.lit 0))
  check (result.y == (I32.lit 0))
  check (result.z == (I32.lit (-1)))

example : ∀ build, vector_scalar_devision build = .ok () := by intro build; cases build <;> decide +kernel

/-- /repo/test/ivec3_test.cpp:46-53 -/
def scalar_vector_devision (build : Build) : Res Unit := do
  let t1 ← IV3.sDiv scalar first
  let result : V3 I32 := t1
  check (result.x == (I32.lit 2))
  check (result.y == (I32.lit 1))
  check (result.z == (I32.lit (-1)))

example : ∀ build, scalar_vector_devision build = .ok () := by intro build; cases build <;> decide +kernel

/-- /repo/test/ivec3_test.cpp:55-62 -/
def scalar_addition (build : Build) : Res Unit := do
  let t1 ← IV3.addS first scalar
  let result : V3 I32 := t1
  check (result.x == (I32.lit 7))
  check (result.y == (I32.lit 9))
  check (result.z == (I32.lit 0))

example : ∀ build, scalar_addition build = .ok () := by intro build; cases build <;> decide +kernel

/-- /repo/test/ivec3_test.cpp:64-71 -/
def scalar_substraction (build : Build) : Res Unit := do
  let t1 ← IV3.subS first scalar
  let result : V3 I32 := t1
  check (result.x == (I32.lit (-3)))
  check (result.y == (I32.lit (-1)))
  check (result.z == (I32.lit (-10)))

example : ∀ build, scalar_substraction build = .ok () := by intro build; cases build <;> decide +kernel

/-- /repo/test/ivec3_test.cpp:73-80 -/
def vector_addition (build : Build) : Res Unit := do
  let t1 ← IV3.add first second
  let result : V3 I32 := t1
  check (result.x == (I32.lit (-2)))
  check (result.y == (I32.lit 9))
  check (result.z == (I32.lit (-6)))

example : ∀ build, vector_addition build = .ok () := by intro build; cases build <;> decide +kernel

/-- /repo/test/ivec3_test.cpp:82-89 -/
def vector_substraction (build : Build) : Res Unit := do
  let t1 ← IV3.sub first second
  let result : V3 I32 := t1
  check (result.x == (I32.lit 6))
  check (result.y == (I32.lit (-1)))
  check (result.z == (I32.lit (-4)))

example : ∀ build, vector_substraction build = .ok () := by intro build; cases build <;> decide +kernel

/-- /repo/test/ivec3_test.cpp:91-98 -/
def vector_unar_substraction (build : Build) : Res Unit := do
  let t1 ← IV3.neg first
  let result : V3 I32 := t1
  let t2 ← I32.neg first.x
  check (result.x == t2)
  let t3 ← I32.neg first.y
  check (result.y == t3)
  let t4 ← I32.neg first.z
  check (result.z == t4)

example : ∀ build, vector_unar_substraction build = .ok () := by intro build; cases build <;> decide +kernel

/-- /repo/test/ivec3_test.cpp:100-107 -/
def vector_per_component_multiplication (build : Build) : Res Unit := do
  let t1 ← IV3.mul first second
  let result : V3 I32 := t1
  check (result.x == (I32.lit (-8)))
  check (result.y == (I32.lit 20))
  check (result.z == (I32.lit 5))

example : ∀ build, vector_per_component_multiplication build = .ok () := by intro build; cases build <;> decide +kernel

/-- /repo/test/ivec3_test.cpp:109-120 -/
def vector_access (build : Build) : Res Unit := do
  let result : V3 I32 := first
  let result ← IV3.set build result 0 (I32.lit 1)
  let result ← IV3.set build result 1 (I32.lit 2)
  let result ← IV3.set build result 2 (I32.lit 3)
  let t1 ← IV3.at build result 0
  check (t1 == (I32.lit 1))
  let t2 ← IV3.at build result 1
  check (t2 == (I32.lit 2))
  let t3 ← IV3.at build result 2
  check (t3 == (I32.lit 3))

example : ∀ build, vector_access build = .ok () := by intro build; cases build <;> decide +kernel

/-- /repo/test/ivec3_test.cpp:122-129 -/
def vector_const_access (build : Build) : Res Unit := do
  let result : V3 I32 := first
  let t1 ← IV3.at build result 0
  check (t1 == (I32.lit 2))
  let t2 ← IV3.at build result 1
  check (t2 == (I32.lit 4))
  let t3 ← IV3.at build result 2
  check (t3 == (I32.lit (-5)))

example : ∀ build, vector_const_access build = .ok () := by intro build; cases build <;> decide +kernel

/-- /repo/test/ivec3_test.cpp:132-170 -/
def shuffle (build : Build) : Res Unit := do
  let t1 ← swizzle2 IV3.swizzles [.y, .x] first.data
  let result : V2 I32 := t1
  check (result.x == first.y)
  check (result.y == first.x)
  let t2 ← swizzle2 IV3.swizzles [.x, .x] first.data
  let result : V2 I32 := t2
  check (result.x == first.x)
  check (result.y == first.x)
  let t3 ← swizzle2 IV3.swizzles [.y, .y] first.data
  let result : V2 I32 := t3
  check (result.x == first.y)
  check (result.y == first.y)
  let t4 ← swizzle2 IV3.swizzles [.x, .y] first.data
  let result : V2 I32 := t4
  check (result.x == first.x)
  check (result.y == first.y)
  let t5 ← swizzle2 IV3.swizzles [.x, .z] first.data
  let result : V2 I32 := t5
  check (result.x == first.x)
  check (result.y == first.z)
  let t6 ← swizzle2 IV3.swizzles [.z, .y] first.data
  let result : V2 I32 := t6
  check (result.x == first.z)
  check (result.y == first.y)
  let t7 ← swizzle3 IV3.swizzles [.y, .x, .z] first.data
  let result3 : V3 I32 := t7
  check (result3.x == first.y)
  check (result3.y == first.x)
  check (result3.z == first.z)

example : ∀ build, shuffle build = .ok () := by intro build; cases build <;> decide +kernel

/-- /repo/test/ivec3_test.cpp:173-180 -/
def make (build : Build) : Res Unit := do
  let d : List I32 := [(I32.lit 0), (I32.lit 1), (I32.lit (-1))]
  let t1 ← IV3.make build (some fun i => d.getD i (I32.lit 0))
  let result : V3 I32 := t1
  let t2 ← IV3.at build result 0
  check (t2 == (d.getD 0 (I32.lit 0)))
  let t3 ← IV3.at build result 1
  check (t3 == (d.getD 1 (I32.lit 0)))
  let t4 ← IV3.at build result 2
  check (t4 == (d.getD 2 (I32.lit 0)))

example : ∀ build, make build = .ok () := by intro build; cases build <;> decide +kernel

end Zcm.Conformance.IVec3
