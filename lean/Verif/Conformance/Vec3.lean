import Verif.Conformance.Gtest

/-!
The assertions of /repo/test/vec3_test.cpp, run against the model (tests, not proofs: see Verif/Conformance/Gtest.lean).
-/

set_option exponentiation.threshold 400
set_option linter.unusedVariables false

namespace Zcm.Conformance.Vec3

/-- /repo/test/vec3_test.cpp:9 -/
abbrev first : V3 F32 := (V3.ofXYZ (lit 2) (lit (433 / 100)) (-(lit (139 / 25))))

/-- /repo/test/vec3_test.cpp:10 -/
abbrev second : V3 F32 := (V3.ofXYZ (-(lit (433 / 100))) (lit (2173 / 400)) (-(lit (2001 / 2000))))

/-- /repo/test/vec3_test.cpp:11 -/
abbrev scalar : F32 := (lit 5)

/-- /repo/test/vec3_test.cpp:13-18 -/
def element_access (build : Build) : Res Unit := do
  check (floatEq first.x (lit 2))
  check (floatEq first.y (lit (433 / 100)))
  check (floatEq first.z (-(lit (139 / 25))))

example : ∀ build, element_access build = .ok () := by intro build; cases build <;> decide +kernel

/-- /repo/test/vec3_test.cpp:20-27 -/
def vector_scalar_multiplication (build : Build) : Res Unit := do
  let result : V3 F32 := (first * scalar)
  check (floatEq result.x (lit 10))
  check (floatEq result.y (lit (433 / 20)))
  check (floatEq result.z (-(lit (139 / 5))))

example : ∀ build, vector_scalar_multiplication build = .ok () := by intro build; cases build <;> decide +kernel

/-- /repo/test/vec3_test.cpp:29-36 -/
def scalar_vector_multiplication (build : Build) : Res Unit := do
  let result : V3 F32 := (scalar * first)
  check (floatEq result.x (lit 10))
  check (floatEq result.y (lit (433 / 20)))
  check (floatEq result.z (-(lit (139 / 5))))

example : ∀ build, scalar_vector_multiplication build = .ok () := by intro build; cases build <;> decide +kernel

/-- /repo/test/vec3_test.cpp:38-45 -/
def vector_scalar_devision (build : Build) : Res Unit := do
  let result : V3 F32 := (first / scalar)
  check (floatEq result.x (lit (2 / 5)))
  check (floatEq result.y (lit (433 / 500)))
  check (floatEq result.z (-(lit (139 / 125))))

example : ∀ build, vector_scalar_devision build = .ok () := by intro build; cases build <;> decide +kernel

/-- /repo/test/vec3_test.cpp:47-54 -/
def scalar_vector_devision (build : Build) : Res Unit := do
  let result : V3 F32 := (scalar / first)
  check (floatEq result.x (lit (5 / 2)))
  check (floatEq result.y (lit (1154734411 / 1000000000)))
  check (floatEq result.z (-(lit (89928057 / 100000000))))

example : ∀ build, scalar_vector_devision build = .ok () := by intro build; cases build <;> decide +kernel

/-- /repo/test/vec3_test.cpp:56-63 -/
def scalar_addition (build : Build) : Res Unit := do
  let result : V3 F32 := (first + scalar)
  check (floatEq result.x (lit 7))
  check (floatEq result.y (lit (933 / 100)))
  check (floatEq result.z (-(lit (14 / 25))))

example : ∀ build, scalar_addition build = .ok () := by intro build; cases build <;> decide +kernel

/-- /repo/test/vec3_test.cpp:65-72 -/
def scalar_substraction (build : Build) : Res Unit := do
  let result : V3 F32 := (first - scalar)
  check (floatEq result.x (-(lit 3)))
  check (floatEq result.y (-(lit (67 / 100))))
  check (floatEq result.z (-(lit (264 / 25))))

example : ∀ build, scalar_substraction build = .ok () := by intro build; cases build <;> decide +kernel

/-- /repo/test/vec3_test.cpp:74-81 -/
def vector_addition (build : Build) : Res Unit := do
  let result : V3 F32 := (first + second)
  check (floatEq result.x (-(lit (233 / 100))))
  check (floatEq result.y (lit (781 / 80)))
  check (floatEq result.z (-(lit (13121 / 2000))))

example : ∀ build, vector_addition build = .ok () := by intro build; cases build <;> decide +kernel

/-- /repo/test/vec3_test.cpp:83-90 -/
def vector_substraction (build : Build) : Res Unit := do
  let result : V3 F32 := (first - second)
  check (floatEq result.x (lit (633 / 100)))
  check (floatEq result.y (-(lit (441 / 400))))
  check (floatEq result.z (-(lit (9119 / 2000))))

example : ∀ build, vector_substraction build = .ok () := by intro build; cases build <;> decide +kernel

/-- /repo/test/vec3_test.cpp:92-99 -/
def vector_unar_substraction (build : Build) : Res Unit := do
  let result : V3 F32 := (-first)
  check (floatEq result.x (-first.x))
  check (floatEq result.y (-first.y))
  check (floatEq result.z (-first.z))

example : ∀ build, vector_unar_substraction build = .ok () := by intro build; cases build <;> decide +kernel

/-- /repo/test/vec3_test.cpp:101-108 -/
def vector_per_component_multiplication (build : Build) : Res Unit := do
  let result : V3 F32 := (first * second)
  check (floatEq result.x (-(lit (433 / 50))))
  check (floatEq result.y (lit (940909 / 40000)))
  check (floatEq result.z (lit (278139 / 50000)))

example : ∀ build, vector_per_component_multiplication build = .ok () := by intro build; cases build <;> decide +kernel

/-- /repo/test/vec3_test.cpp:110-121 -/
def vector_access (build : Build) : Res Unit := do
  let result : V3 F32 := first
  let result ← V3.set build result 0 (lit 1)
  let result ← V3.set build result 1 (lit 1)
  let result ← V3.set build result 2 (lit 1)
  let t1 ← V3.at build result 0
  check (floatEq t1 (lit 1))
  let t2 ← V3.at build result 1
  check (floatEq t2 (lit 1))
  let t3 ← V3.at build result 2
  check (floatEq t3 (lit 1))

example : ∀ build, vector_access build = .ok () := by intro build; cases build <;> decide +kernel

/-- /repo/test/vec3_test.cpp:123-130 -/
def vector_const_access (build : Build) : Res Unit := do
  let result : V3 F32 := first
  let t1 ← V3.at build result 0
  check (floatEq t1 (lit 2))
  let t2 ← V3.at build result 1
  check (floatEq t2 (lit (433 / 100)))
  let t3 ← V3.at build result 2
  check (floatEq t3 (-(lit (139 / 25))))

example : ∀ build, vector_const_access build = .ok () := by intro build; cases build <;> decide +kernel

/-- /repo/test/vec3_test.cpp:136-141 -/
def vector_dot (build : Build) : Res Unit := do
  let result : F32 := (V3.dot first second)
  check (floatEq result (lit (4085101 / 200000)))

example : ∀ build, vector_dot build = .ok () := by intro build; cases build <;> decide +kernel

/-- /repo/test/vec3_test.cpp:143-150 -/
def vector_cross (build : Build) : Res Unit := do
  let result : V3 F32 := (V3.cross first second)
  check (floatEq result.x (lit (5174507 / 200000)))
  check (floatEq result.y (lit (130379 / 5000)))
  check (floatEq result.z (lit (296139 / 10000)))

example : ∀ build, vector_cross build = .ok () := by intro build; cases build <;> decide +kernel

/-- /repo/test/vec3_test.cpp:152-157 -/
def vector_distance (build : Build) : Res Unit := do
  let result : F32 := (V3.distance first second)
  check (floatEq result (lit (78786697 / 10000000)))

example : ∀ build, vector_distance build = .ok () := by intro build; cases build <;> decide +kernel

/-- /repo/test/vec3_test.cpp:159-164 -/
def vector_lenght (build : Build) : Res Unit := do
  let result : F32 := (V3.length first)
  check (floatEq result (lit (732547 / 100000)))

example : ∀ build, vector_lenght build = .ok () := by intro build; cases build <;> decide +kernel

/-- /repo/test/vec3_test.cpp:166-173 -/
def vector_normalize (build : Build) : Res Unit := do
  let result : V3 F32 := (V3.normalize first)
  check (floatEq result.x (lit (2730200246537 / 10000000000000)))
  check (floatEq result.y (lit (738860441719 / 1250000000000)))
  check (floatEq result.z (-(lit (758995668537 / 1000000000000))))

example : ∀ build, vector_normalize build = .ok () := by intro build; cases build <;> decide +kernel

/-- /repo/test/vec3_test.cpp:176-214 -/
def shuffle (build : Build) : Res Unit := do
  let t1 ← swizzle2 V3.swizzles [.y, .x] first.data
  let result : V2 F32 := t1
  check (floatEq result.x first.y)
  check (floatEq result.y first.x)
  let t2 ← swizzle2 V3.swizzles [.x, .x] first.data
  let result : V2 F32 := t2
  check (floatEq result.x first.x)
  check (floatEq result.y first.x)
  let t3 ← swizzle2 V3.swizzles [.y, .y] first.data
  let result : V2 F32 := t3
  check (floatEq result.x first.y)
  check (floatEq result.y first.y)
  let t4 ← swizzle2 V3.swizzles [.x, .y] first.data
  let result : V2 F32 := t4
  check (floatEq result.x first.x)
  check (floatEq result.y first.y)
  let t5 ← swizzle2 V3.swizzles [.x, .z] first.data
  let result : V2 F32 := t5
  check (floatEq result.x first.x)
  check (floatEq result.y first.z)
  let t6 ← swizzle2 V3.swizzles [.z, .y] first.data
  let result : V2 F32 := t6
  check (floatEq result.x first.z)
  check (floatEq result.y first.y)
  let t7 ← swizzle3 V3.swizzles [.y, .x, .z] first.data
  let result3 : V3 F32 := t7
  check (floatEq result3.x first.y)
  check (floatEq result3.y first.x)
  check (floatEq result3.z first.z)

example : ∀ build, shuffle build = .ok () := by intro build; cases build <;> decide +kernel

/-- /repo/test/vec3_test.cpp:217-224 -/
def make (build : Build) : Res Unit := do
  let d : List F32 := [(lit 0), (lit 1), (-(lit 1))]
  let t1 ← V3.make build (some fun i => d.getD i F32.nan)
  let result : V3 F32 := t1
  let t2 ← V3.at build result 0
  check (t2 == (d.getD 0 F32.nan))
  let t3 ← V3.at build result 1
  check (t3 == (d.getD 1 F32.nan))
  let t4 ← V3.at build result 2
  check (t4 == (d.getD 2 F32.nan))

example : ∀ build, make build = .ok () := by intro build; cases build <;> decide +kernel

end Zcm.Conformance.Vec3
