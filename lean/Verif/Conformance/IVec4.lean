import Verif.Conformance.Gtest

/-!
The assertions of /repo/test/ivec4_test.cpp, run against the model (tests, not proofs: see Verif/Conformance/Gtest.lean).
-/

set_option exponentiation.threshold 400
set_option linter.unusedVariables false

namespace Zcm.Conformance.IVec4

/-- /repo/test/ivec4_test.cpp:10 -/
abbrev first : V4 I32 := (IV4.ofXYZW (I32.lit 2) (I32.lit 4) (I32.lit (-5)) (I32.lit 6))

/-- /repo/test/ivec4_test.cpp:11 -/
abbrev second : V4 I32 := (IV4.ofXYZW (I32.lit (-4)) (I32.lit 5) (I32.lit (-1)) (I32.lit (-2)))

/-- /repo/test/ivec4_test.cpp:12 -/
abbrev scalar : I32 := (I32.lit 5)

/-- /repo/test/ivec4_test.cpp:14-20 -/
def element_access (build : Build) : Res Unit := do
  check (first.x == (I32.lit 2))
  check (first.y == (I32.lit 4))
  check (first.z == (I32.lit (-5)))
  check (first.w == (I32.lit 6))

example : ∀ build, element_access build = .ok () := by intro build; cases build <;> decide +kernel

/-- /repo/test/ivec4_test.cpp:22-30 -/
def ivector_scalar_multiplication (build : Build) : Res Unit := do
  let t1 ← IV4.mulS first scalar
  let result : V4 I32 := t1
  check (result.x == (I32.lit 10))
  check (result.y == (I32.lit 20))
  check (result.z == (I32.lit (-25)))
  check (result.w == (I32.lit 30))

example : ∀ build, ivector_scalar_multiplication build = .ok () := by intro build; cases build <;> decide +kernel

/-- /repo/test/ivec4_test.cpp:32-40 -/
def scalar_ivector_multiplication (build : Build) : Res Unit := do
  let t1 ← IV4.sMul scalar first
  let result : V4 I32 := t1
  check (result.x == (I32.lit 10))
  check (result.y == (I32.lit 20))
  check (result.z == (I32.lit (-25)))
  check (result.w == (I32.lit 30))

example : ∀ build, scalar_ivector_multiplication build = .ok () := by intro build; cases build <;> decide +kernel

/-- /repo/test/ivec4_test.cpp:42-50 -/
def ivector_scalar_devision (build : Build) : Res Unit := do
  let t1 ← IV4.divS first scalar
  let result : V4 I32 := t1
  check (result.x == (I32.lit 0))
  check (result.y == (I32.lit 0))
  check (result.z == (I32.lit (-1)))
  check (result.w == (I32.lit 1))

example : ∀ build, ivector_scalar_devision build = .ok () := by intro build; cases build <;> decide +kernel

/-- /repo/test/ivec4_test.cpp:52-60 -/
def scalar_ivector_devision (build : Build) : Res Unit := do
  let t1 ← IV4.sDiv scalar first
  let result : V4 I32 := t1
  check (result.x == (I32.lit 2))
  check (result.y == (I32.lit 1))
  check (result.z == (I32.lit (-1)))
  check (result.w == (I32.lit 0))

example : ∀ build, scalar_ivector_devision build = .ok () := by intro build; cases build <;> decide +kernel

/-- /repo/test/ivec4_test.cpp:62-70 -/
def scalar_addition (build : Build) : Res Unit := do
  let t1 ← IV4.addS first scalar
  let result : V4 I32 := t1
  check (result.x == (I32.lit 7))
  check (result.y == (I32.lit 9))
  check (result.z == (I32.lit (-0)))
  check (result.w == (I32.lit 11))

example : ∀ build, scalar_addition build = .ok () := by intro build; cases build <;> decide +kernel

/-- /repo/test/ivec4_test.cpp:72-80 -/
def scalar_substraction (build : Build) : Res Unit := do
  let t1 ← IV4.subS first scalar
  let result : V4 I32 := t1
  check (result.x == (I32.lit (-3)))
  check (result.y == (I32.lit (-1)))
  check (result.z == (I32.lit (-10)))
  check (result.w == (I32.lit 1))

example : ∀ build, scalar_substraction build = .ok () := by intro build; cases build <;> decide +kernel

/-- /repo/test/ivec4_test.cpp:82-90 -/
def ivector_addition (build : Build) : Res Unit := do
  let t1 ← IV4.add first second
  let result : V4 I32 := t1
  check (result.x == (I32.lit (-2)))
  check (result.y == (I32.lit 9))
  check (result.z == (I32.lit (-6)))
  check (result.w == (I32.lit 4))

example : ∀ build, ivector_addition build = .ok () := by intro build; cases build <;> decide +kernel

/-- /repo/test/ivec4_test.cpp:92-100 -/
def ivector_substraction (build : Build) : Res Unit := do
  let t1 ← IV4.sub first second
  let result : V4 I32 := t1
  check (result.x == (I32.lit 6))
  check (result.y == (I32.lit (-1)))
  check (result.z == (I32.lit (-4)))
  check (result.w == (I32.lit 8))

example : ∀ build, ivector_substraction build = .ok () := by intro build; cases build <;> decide +kernel

/-- /repo/test/ivec4_test.cpp:102-110 -/
def ivector_unar_substraction (build : Build) : Res Unit := do
  let t1 ← IV4.neg first
  let result : V4 I32 := t1
  let t2 ← I32.neg first.x
  check (result.x == t2)
  let t3 ← I32.neg first.y
  check (result.y == t3)
  let t4 ← I32.neg first.z
  check (result.z == t4)
  let t5 ← I32.neg first.w
  check (result.w == t5)

example : ∀ build, ivector_unar_substraction build = .ok () := by intro build; cases build <;> decide +kernel

/-- /repo/test/ivec4_test.cpp:112-120 -/
def ivector_per_component_multiplication (build : Build) : Res Unit := do
  let t1 ← IV4.mul first second
  let result : V4 I32 := t1
  check (result.x == (I32.lit (-8)))
  check (result.y == (I32.lit 20))
  check (result.z == (I32.lit 5))
  check (result.w == (I32.lit (-12)))

example : ∀ build, ivector_per_component_multiplication build = .ok () := by intro build; cases build <;> decide +kernel

/-- /repo/test/ivec4_test.cpp:122-135 -/
def ivector_access (build : Build) : Res Unit := do
  let result : V4 I32 := first
  let result ← IV4.set build result 0 (I32.lit 1)
  let result ← IV4.set build result 1 (I32.lit 2)
  let result ← IV4.set build result 2 (I32.lit 3)
  let result ← IV4.set build result 3 (I32.lit 4)
  let t1 ← IV4.at build result 0
  check (t1 == (I32.lit 1))
  let t2 ← IV4.at build result 1
  check (t2 == (I32.lit 2))
  let t3 ← IV4.at build result 2
  check (t3 == (I32.lit 3))
  let t4 ← IV4.at build result 3
  check (t4 == (I32.lit 4))

example : ∀ build, ivector_access build = .ok () := by intro build; cases build <;> decide +kernel

/-- /repo/test/ivec4_test.cpp:137-145 -/
def ivector_const_access (build : Build) : Res Unit := do
  let result : V4 I32 := first
  let t1 ← IV4.at build result 0
  check (t1 == (I32.lit 2))
  let t2 ← IV4.at build result 1
  check (t2 == (I32.lit 4))
  let t3 ← IV4.at build result 2
  check (t3 == (I32.lit (-5)))
  let t4 ← IV4.at build result 3
  check (t4 == (I32.lit 6))

example : ∀ build, ivector_const_access build = .ok () := by intro build; cases build <;> decide +kernel

/-- /repo/test/ivec4_test.cpp:148-192 -/
def shuffle (build : Build) : Res Unit := do
  let t1 ← swizzle2 IV4.swizzles [.y, .x] first.data
  let result : V2 I32 := t1
  check (result.x == first.y)
  check (result.y == first.x)
  let t2 ← swizzle2 IV4.swizzles [.x, .x] first.data
  let result : V2 I32 := t2
  check (result.x == first.x)
  check (result.y == first.x)
  let t3 ← swizzle2 IV4.swizzles [.y, .y] first.data
  let result : V2 I32 := t3
  check (result.x == first.y)
  check (result.y == first.y)
  let t4 ← swizzle2 IV4.swizzles [.x, .y] first.data
  let result : V2 I32 := t4
  check (result.x == first.x)
  check (result.y == first.y)
  let t5 ← swizzle2 IV4.swizzles [.x, .z] first.data
  let result : V2 I32 := t5
  check (result.x == first.x)
  check (result.y == first.z)
  let t6 ← swizzle2 IV4.swizzles [.z, .y] first.data
  let result : V2 I32 := t6
  check (result.x == first.z)
  check (result.y == first.y)
  let t7 ← swizzle3 IV4.swizzles [.y, .x, .z] first.data
  let result3 : V3 I32 := t7
  check (result3.x == first.y)
  check (result3.y == first.x)
  check (result3.z == first.z)
  let t8 ← swizzle4 IV4.swizzles [.w, .w, .x, .y] first.data
  let result4 : V4 I32 := t8
  check (result4.x == first.w)
  check (result4.y == first.w)
  check (result4.z == first.x)
  check (result4.w == first.y)

example : ∀ build, shuffle build = .ok () := by intro build; cases build <;> decide +kernel

/-- /repo/test/ivec4_test.cpp:195-203 -/
def make (build : Build) : Res Unit := do
  let d : List I32 := [(I32.lit 0), (I32.lit 1), (I32.lit (-1)), (I32.lit 2)]
  let t1 ← IV4.make build (some fun i => d.getD i (I32.lit 0))
  let result : V4 I32 := t1
  let t2 ← IV4.at build result 0
  check (t2 == (d.getD 0 (I32.lit 0)))
  let t3 ← IV4.at build result 1
  check (t3 == (d.getD 1 (I32.lit 0)))
  let t4 ← IV4.at build result 2
  check (t4 == (d.getD 2 (I32.lit 0)))
  let t5 ← IV4.at build result 3
  check (t5 == (d.getD 3 (I32.lit 0)))

example : ∀ build, make build = .ok () := by intro build; cases build <;> decide +kernel

end Zcm.Conformance.IVec4
