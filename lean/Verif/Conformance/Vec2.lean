import Verif.Conformance.Gtest

/-!
The assertions of /repo/test/vec2_test.cpp, run against the model (tests, not proofs: see Verif/Conformance/Gtest.lean).
-/

set_option exponentiation.threshold 400
set_option linter.unusedVariables false

namespace Zcm.Conformance.Vec2

/-- /repo/test/vec2_test.cpp:8 -/
abbrev first : V2 F32 := (V2.ofXY (lit 2) (lit (433 / 100)))

/-- /repo/test/vec2_test.cpp:9 -/
abbrev second : V2 F32 := (V2.ofXY (-(lit (433 / 100))) (lit (2173 / 400)))

/-- /repo/test/vec2_test.cpp:10 -/
abbrev scalar : F32 := (lit 5)

/-- /repo/test/vec2_test.cpp:12-16 -/
def element_access (build : Build) : Res Unit := do
  check (floatEq first.x (lit 2))
  check (floatEq first.y (lit (433 / 100)))

example : ∀ build, element_access build = .ok () := by intro build; cases build <;> decide +kernel

/-- /repo/test/vec2_test.cpp:18-24 -/
def vector_scalar_multiplication (build : Build) : Res Unit := do
  let result : V2 F32 := (first * scalar)
  check (floatEq result.x (lit 10))
  check (floatEq result.y (lit (433 / 20)))

example : ∀ build, vector_scalar_multiplication build = .ok () := by intro build; cases build <;> decide +kernel

/-- /repo/test/vec2_test.cpp:26-32 -/
def scalar_vector_multiplication (build : Build) : Res Unit := do
  let result : V2 F32 := (scalar * first)
  check (floatEq result.x (lit 10))
  check (floatEq result.y (lit (433 / 20)))

example : ∀ build, scalar_vector_multiplication build = .ok () := by intro build; cases build <;> decide +kernel

/-- /repo/test/vec2_test.cpp:34-40 -/
def vector_scalar_devision (build : Build) : Res Unit := do
  let result : V2 F32 := (first / scalar)
  check (floatEq result.x (lit (2 / 5)))
  check (floatEq result.y (lit (433 / 500)))

example : ∀ build, vector_scalar_devision build = .ok () := by intro build; cases build <;> decide +kernel

/-- /repo/test/vec2_test.cpp:42-48 -/
def scalar_vector_devision (build : Build) : Res Unit := do
  let result : V2 F32 := (scalar / first)
  check (floatEq result.x (lit (5 / 2)))
  check (floatEq result.y (lit (1154734411 / 1000000000)))

example : ∀ build, scalar_vector_devision build = .ok () := by intro build; cases build <;> decide +kernel

/-- /repo/test/vec2_test.cpp:50-56 -/
def scalar_addition (build : Build) : Res Unit := do
  let result : V2 F32 := (first + scalar)
  check (floatEq result.x (lit 7))
  check (floatEq result.y (lit (933 / 100)))

example : ∀ build, scalar_addition build = .ok () := by intro build; cases build <;> decide +kernel

/-- /repo/test/vec2_test.cpp:58-64 -/
def scalar_substraction (build : Build) : Res Unit := do
  let result : V2 F32 := (first - scalar)
  check (floatEq result.x (-(lit 3)))
  check (floatEq result.y (-(lit (67 / 100))))

example : ∀ build, scalar_substraction build = .ok () := by intro build; cases build <;> decide +kernel

/-- /repo/test/vec2_test.cpp:66-72 -/
def vector_addition (build : Build) : Res Unit := do
  let result : V2 F32 := (first + second)
  check (floatEq result.x (-(lit (233 / 100))))
  check (floatEq result.y (lit (781 / 80)))

example : ∀ build, vector_addition build = .ok () := by intro build; cases build <;> decide +kernel

/-- /repo/test/vec2_test.cpp:74-80 -/
def vector_substraction (build : Build) : Res Unit := do
  let result : V2 F32 := (first - second)
  check (floatEq result.x (lit (633 / 100)))
  check (floatEq result.y (-(lit (441 / 400))))

example : ∀ build, vector_substraction build = .ok () := by intro build; cases build <;> decide +kernel

/-- /repo/test/vec2_test.cpp:82-88 -/
def vector_unar_substraction (build : Build) : Res Unit := do
  let result : V2 F32 := (-first)
  check (floatEq result.x (-first.x))
  check (floatEq result.y (-first.y))

example : ∀ build, vector_unar_substraction build = .ok () := by intro build; cases build <;> decide +kernel

/-- /repo/test/vec2_test.cpp:90-96 -/
def vector_per_component_multiplication (build : Build) : Res Unit := do
  let result : V2 F32 := (first * second)
  check (floatEq result.x (-(lit (433 / 50))))
  check (floatEq result.y (lit (940909 / 40000)))

example : ∀ build, vector_per_component_multiplication build = .ok () := by intro build; cases build <;> decide +kernel

/-- /repo/test/vec2_test.cpp:98-107 -/
def vector_access (build : Build) : Res Unit := do
  let result : V2 F32 := first
  let result ← V2.set build result 0 (lit 1)
  let result ← V2.set build result 1 (lit 1)
  let t1 ← V2.at build result 0
  check (floatEq t1 (lit 1))
  let t2 ← V2.at build result 1
  check (floatEq t2 (lit 1))

example : ∀ build, vector_access build = .ok () := by intro build; cases build <;> decide +kernel

/-- /repo/test/vec2_test.cpp:109-115 -/
def vector_const_access (build : Build) : Res Unit := do
  let result : V2 F32 := first
  let t1 ← V2.at build result 0
  check (floatEq t1 (lit 2))
  let t2 ← V2.at build result 1
  check (floatEq t2 (lit (433 / 100)))

example : ∀ build, vector_const_access build = .ok () := by intro build; cases build <;> decide +kernel

/-- /repo/test/vec2_test.cpp:121-126 -/
def vector_dot (build : Build) : Res Unit := do
  let result : F32 := (V2.dot first second)
  check (floatEq result (lit (594509 / 40000)))

example : ∀ build, vector_dot build = .ok () := by intro build; cases build <;> decide +kernel

/-- /repo/test/vec2_test.cpp:128-133 -/
def vector_distance (build : Build) : Res Unit := do
  let result : F32 := (V2.distance first second)
  check (floatEq result (lit (6425294253 / 1000000000)))

example : ∀ build, vector_distance build = .ok () := by intro build; cases build <;> decide +kernel

/-- /repo/test/vec2_test.cpp:135-140 -/
def vector_lenght (build : Build) : Res Unit := do
  let result : F32 := (V2.length first)
  check (floatEq result (lit (238479 / 50000)))

example : ∀ build, vector_lenght build = .ok () := by intro build; cases build <;> decide +kernel

/-- /repo/test/vec2_test.cpp:142-148 -/
def vector_normalize (build : Build) : Res Unit := do
  let result : V2 F32 := (V2.normalize first)
  check (floatEq result.x (lit (419324133 / 1000000000)))
  check (floatEq result.y (lit (9078367 / 10000000)))

example : ∀ build, vector_normalize build = .ok () := by intro build; cases build <;> decide +kernel

/-- /repo/test/vec2_test.cpp:151-172 -/
def shuffle (build : Build) : Res Unit := do
  let t1 ← swizzle2 V2.swizzles [.y, .x] first.data
  let result : V2 F32 := t1
  check (floatEq result.x first.y)
  check (floatEq result.y first.x)
  let t2 ← swizzle2 V2.swizzles [.x, .x] first.data
  let result : V2 F32 := t2
  check (floatEq result.x first.x)
  check (floatEq result.y first.x)
  let t3 ← swizzle2 V2.swizzles [.y, .y] first.data
  let result : V2 F32 := t3
  check (floatEq result.x first.y)
  check (floatEq result.y first.y)
  let t4 ← swizzle2 V2.swizzles [.x, .y] first.data
  let result : V2 F32 := t4
  check (floatEq result.x first.x)
  check (floatEq result.y first.y)

example : ∀ build, shuffle build = .ok () := by intro build; cases build <;> decide +kernel

/-- /repo/test/vec2_test.cpp:175-181 -/
def make (build : Build) : Res Unit := do
  let d : List F32 := [(lit 0), (lit 1)]
  let t1 ← V2.make build (some fun i => d.getD i F32.nan)
  let result : V2 F32 := t1
  let t2 ← V2.at build result 0
  check (t2 == (d.getD 0 F32.nan))
  let t3 ← V2.at build result 1
  check (t3 == (d.getD 1 F32.nan))

example : ∀ build, make build = .ok () := by intro build; cases build <;> decide +kernel

end Zcm.Conformance.Vec2
