import Verif.Conformance.Gtest

/-!
The assertions of /repo/test/vec4_test.cpp, run against the model (tests, not proofs: see Verif/Conformance/Gtest.lean).
-/

set_option exponentiation.threshold 400
set_option linter.unusedVariables false

namespace Zcm.Conformance.Vec4

/-- /repo/test/vec4_test.cpp:11 -/
abbrev first : V4 F32 := (V4.ofXYZW (lit 2) (lit (433 / 100)) (-(lit (139 / 25))) (lit (6121 / 1000)))

/-- /repo/test/vec4_test.cpp:12 -/
abbrev second : V4 F32 := (V4.ofXYZW (-(lit (433 / 100))) (lit (2173 / 400)) (-(lit (2001 / 2000))) (-(lit (4693 / 2000))))

/-- /repo/test/vec4_test.cpp:13 -/
abbrev scalar : F32 := (lit 5)

/-- /repo/test/vec4_test.cpp:15-21 -/
def element_access (build : Build) : Res Unit := do
  check (floatEq first.x (lit 2))
  check (floatEq first.y (lit (433 / 100)))
  check (floatEq first.z (-(lit (139 / 25))))
  check (floatEq first.w (lit (6121 / 1000)))

example : ∀ build, element_access build = .ok () := by intro build; cases build <;> decide +kernel

/-- /repo/test/vec4_test.cpp:23-31 -/
def vector_scalar_multiplication (build : Build) : Res Unit := do
  let result : V4 F32 := (first * scalar)
  check (floatEq result.x (lit 10))
  check (floatEq result.y (lit (433 / 20)))
  check (floatEq result.z (-(lit (139 / 5))))
  check (floatEq result.w (lit (6121 / 200)))

example : ∀ build, vector_scalar_multiplication build = .ok () := by intro build; cases build <;> decide +kernel

/-- /repo/test/vec4_test.cpp:33-41 -/
def scalar_vector_multiplication (build : Build) : Res Unit := do
  let result : V4 F32 := (scalar * first)
  check (floatEq result.x (lit 10))
  check (floatEq result.y (lit (433 / 20)))
  check (floatEq result.z (-(lit (139 / 5))))
  check (floatEq result.w (lit (6121 / 200)))

example : ∀ build, scalar_vector_multiplication build = .ok () := by intro build; cases build <;> decide +kernel

/-- /repo/test/vec4_test.cpp:43-51 -/
def vector_scalar_devision (build : Build) : Res Unit := do
  let result : V4 F32 := (first / scalar)
  check (floatEq result.x (lit (2 / 5)))
  check (floatEq result.y (lit (433 / 500)))
  check (floatEq result.z (-(lit (139 / 125))))
  check (floatEq result.w (lit (6121 / 5000)))

example : ∀ build, vector_scalar_devision build = .ok () := by intro build; cases build <;> decide +kernel

/-- /repo/test/vec4_test.cpp:53-61 -/
def scalar_vector_devision (build : Build) : Res Unit := do
  let result : V4 F32 := (scalar / first)
  check (floatEq result.x (lit (5 / 2)))
  check (floatEq result.y (lit (1154734411 / 1000000000)))
  check (floatEq result.z (-(lit (89928057 / 100000000))))
  check (floatEq result.w (lit (81685999 / 100000000)))

example : ∀ build, scalar_vector_devision build = .ok () := by intro build; cases build <;> decide +kernel

/-- /repo/test/vec4_test.cpp:63-71 -/
def scalar_addition (build : Build) : Res Unit := do
  let result : V4 F32 := (first + scalar)
  check (floatEq result.x (lit 7))
  check (floatEq result.y (lit (933 / 100)))
  check (floatEq result.z (-(lit (14 / 25))))
  check (floatEq result.w (lit (11121 / 1000)))

example : ∀ build, scalar_addition build = .ok () := by intro build; cases build <;> decide +kernel

/-- /repo/test/vec4_test.cpp:73-81 -/
def scalar_substraction (build : Build) : Res Unit := do
  let result : V4 F32 := (first - scalar)
  check (floatEq result.x (-(lit 3)))
  check (floatEq result.y (-(lit (67 / 100))))
  check (floatEq result.z (-(lit (264 / 25))))
  check (floatEq result.w (lit (1121 / 1000)))

example : ∀ build, scalar_substraction build = .ok () := by intro build; cases build <;> decide +kernel

/-- /repo/test/vec4_test.cpp:83-91 -/
def vector_addition (build : Build) : Res Unit := do
  let result : V4 F32 := (first + second)
  check (floatEq result.x (-(lit (233 / 100))))
  check (floatEq result.y (lit (781 / 80)))
  check (floatEq result.z (-(lit (13121 / 2000))))
  check (floatEq result.w (lit (7549 / 2000)))

example : ∀ build, vector_addition build = .ok () := by intro build; cases build <;> decide +kernel

/-- /repo/test/vec4_test.cpp:93-101 -/
def vector_substraction (build : Build) : Res Unit := do
  let result : V4 F32 := (first - second)
  check (floatEq result.x (lit (633 / 100)))
  check (floatEq result.y (-(lit (441 / 400))))
  check (floatEq result.z (-(lit (9119 / 2000))))
  check (floatEq result.w (lit (3387 / 400)))

example : ∀ build, vector_substraction build = .ok () := by intro build; cases build <;> decide +kernel

/-- /repo/test/vec4_test.cpp:103-111 -/
def vector_unar_substraction (build : Build) : Res Unit := do
  let result : V4 F32 := (-first)
  check (floatEq result.x (-first.x))
  check (floatEq result.y (-first.y))
  check (floatEq result.z (-first.z))
  check (floatEq result.w (-first.w))

example : ∀ build, vector_unar_substraction build = .ok () := by intro build; cases build <;> decide +kernel

/-- /repo/test/vec4_test.cpp:113-121 -/
def vector_per_component_multiplication (build : Build) : Res Unit := do
  let result : V4 F32 := (first * second)
  check (floatEq result.x (-(lit (433 / 50))))
  check (floatEq result.y (lit (940909 / 40000)))
  check (floatEq result.z (lit (278139 / 50000)))
  check (floatEq result.w (-(lit (28725853 / 2000000))))

example : ∀ build, vector_per_component_multiplication build = .ok () := by intro build; cases build <;> decide +kernel

/-- /repo/test/vec4_test.cpp:123-136 -/
def vector_access (build : Build) : Res Unit := do
  let result : V4 F32 := first
  let result ← V4.set build result 0 (lit 1)
  let result ← V4.set build result 1 (lit 1)
  let result ← V4.set build result 2 (lit 1)
  let result ← V4.set build result 3 (lit 1)
  let t1 ← V4.at build result 0
  check (floatEq t1 (lit 1))
  let t2 ← V4.at build result 1
  check (floatEq t2 (lit 1))
  let t3 ← V4.at build result 2
  check (floatEq t3 (lit 1))
  let t4 ← V4.at build result 3
  check (floatEq t4 (lit 1))

example : ∀ build, vector_access build = .ok () := by intro build; cases build <;> decide +kernel

/-- /repo/test/vec4_test.cpp:138-146 -/
def vector_const_access (build : Build) : Res Unit := do
  let result : V4 F32 := first
  let t1 ← V4.at build result 0
  check (floatEq t1 (lit 2))
  let t2 ← V4.at build result 1
  check (floatEq t2 (lit (433 / 100)))
  let t3 ← V4.at build result 2
  check (floatEq t3 (-(lit (139 / 25))))
  let t4 ← V4.at build result 3
  check (floatEq t4 (lit (6121 / 1000)))

example : ∀ build, vector_const_access build = .ok () := by intro build; cases build <;> decide +kernel

/-- /repo/test/vec4_test.cpp:152-157 -/
def vector_dot (build : Build) : Res Unit := do
  let result : F32 := (V4.dot first second)
  check (floatEq result (lit (12125157 / 2000000)))

example : ∀ build, vector_dot build = .ok () := by intro build; cases build <;> decide +kernel

/-- /repo/test/vec4_test.cpp:159-164 -/
def vector_distance (build : Build) : Res Unit := do
  let result : F32 := (V4.distance first second)
  check (floatEq result (lit (1156598472893 / 100000000000)))

example : ∀ build, vector_distance build = .ok () := by intro build; cases build <;> decide +kernel

/-- /repo/test/vec4_test.cpp:166-171 -/
def vector_lenght (build : Build) : Res Unit := do
  let result : F32 := (V4.length first)
  check (floatEq result (lit (119327 / 12500)))

example : ∀ build, vector_lenght build = .ok () := by intro build; cases build <;> decide +kernel

/-- /repo/test/vec4_test.cpp:173-182 -/
def vector_normalize (build : Build) : Res Unit := do
  let result : V4 F32 := (V4.normalize first)
  check (floatEq result.x (lit (1047541627 / 5000000000)))
  check (floatEq result.y (lit (18143421 / 40000000)))
  check (floatEq result.z (-(lit (116486629 / 200000000))))
  check (floatEq result.w (lit (801500289 / 1250000000)))

example : ∀ build, vector_normalize build = .ok () := by intro build; cases build <;> decide +kernel

/-- /repo/test/vec4_test.cpp:184-192 -/
def vector_component_wise (build : Build) : Res Unit := do
  let v : V4 F32 := (V4.ofXYZW (lit 1) (lit 2) (lit 3) (lit 4))
  check (floatEq (V4.compMin v) (lit 1))
  check (floatEq (V4.compMax v) (lit 4))
  check (floatEq (V4.compAdd v) (lit 10))
  check (floatEq (V4.compMul v) (lit 24))

example : ∀ build, vector_component_wise build = .ok () := by intro build; cases build <;> decide +kernel

/-- /repo/test/vec4_test.cpp:195-243 -/
def shuffle (build : Build) : Res Unit := do
  let t1 ← swizzle2 V4.swizzles [.y, .x] first.data
  let result : V2 F32 := t1
  check (floatEq result.x first.y)
  check (floatEq result.y first.x)
  let t2 ← swizzle2 V4.swizzles [.x, .x] first.data
  let result : V2 F32 := t2
  check (floatEq result.x first.x)
  check (floatEq result.y first.x)
  let t3 ← swizzle2 V4.swizzles [.y, .y] first.data
  let result : V2 F32 := t3
  check (floatEq result.x first.y)
  check (floatEq result.y first.y)
  let t4 ← swizzle2 V4.swizzles [.x, .y] first.data
  let result : V2 F32 := t4
  check (floatEq result.x first.x)
  check (floatEq result.y first.y)
  let t5 ← swizzle2 V4.swizzles [.x, .z] first.data
  let result : V2 F32 := t5
  check (floatEq result.x first.x)
  check (floatEq result.y first.z)
  let t6 ← swizzle2 V4.swizzles [.z, .y] first.data
  let result : V2 F32 := t6
  check (floatEq result.x first.z)
  check (floatEq result.y first.y)
  let t7 ← swizzle3 V4.swizzles [.y, .x, .z] first.data
  let result3 : V3 F32 := t7
  check (floatEq result3.x first.y)
  check (floatEq result3.y first.x)
  check (floatEq result3.z first.z)
  let t8 ← swizzle4 V4.swizzles [.w, .w, .x, .y] first.data
  let result4 : V4 F32 := t8
  check (floatEq result4.x first.w)
  check (floatEq result4.y first.w)
  check (floatEq result4.z first.x)
  check (floatEq result4.w first.y)
  let t9 ← swizzle3 V4.swizzles [.x, .z, .y] result4.data
  let res : V3 F32 := (V3.mixS result3 t9 (lit 1))
  check (floatEq res.x result4.x)
  check (floatEq res.y result4.z)
  check (floatEq res.z result4.y)

example : ∀ build, shuffle build = .ok () := by intro build; cases build <;> decide +kernel

/-- /repo/test/vec4_test.cpp:246-254 -/
def make (build : Build) : Res Unit := do
  let d : List F32 := [(lit 0), (lit 1), (-(lit 1)), (lit 2)]
  let t1 ← V4.make build (some fun i => d.getD i F32.nan)
  let result : V4 F32 := t1
  let t2 ← V4.at build result 0
  check (t2 == (d.getD 0 F32.nan))
  let t3 ← V4.at build result 1
  check (t3 == (d.getD 1 F32.nan))
  let t4 ← V4.at build result 2
  check (t4 == (d.getD 2 F32.nan))
  let t5 ← V4.at build result 3
  check (t5 == (d.getD 3 F32.nan))

example : ∀ build, make build = .ok () := by intro build; cases build <;> decide +kernel

end Zcm.Conformance.Vec4
