import Verif.Conformance.Gtest

/-!
The assertions of /repo/test/quat_test.cpp, run against the model (tests, not proofs: see Verif/Conformance/Gtest.lean).
-/

set_option exponentiation.threshold 400
set_option linter.unusedVariables false

namespace Zcm.Conformance.Quaternion

/-- /repo/test/quat_test.cpp:11 -/
abbrev first : Quat F32 := (Quat.ofFloats (lit (6121 / 1000)) (lit 2) (lit (433 / 100)) (-(lit (139 / 25))))

/-- /repo/test/quat_test.cpp:12 -/
abbrev second : Quat F32 := (Quat.ofFloats (-(lit (4693 / 2000))) (-(lit (433 / 100))) (lit (2173 / 400)) (-(lit (2001 / 2000))))

/-- /repo/test/quat_test.cpp:13 -/
abbrev scalar : F32 := (lit 5)

/-- /repo/test/quat_test.cpp:15-21 -/
def element_access (build : Build) : Res Unit := do
  check (floatEq first.x (lit 2))
  check (floatEq first.y (lit (433 / 100)))
  check (floatEq first.z (-(lit (139 / 25))))
  check (floatEq first.w (lit (6121 / 1000)))

example : ∀ build, element_access build = .ok () := by intro build; cases build <;> decide +kernel

/-- /repo/test/quat_test.cpp:23-31 -/
def quat_scalar_multiplication (build : Build) : Res Unit := do
  let result : Quat F32 := (first * scalar)
  check (floatEq result.x (lit 10))
  check (floatEq result.y (lit (433 / 20)))
  check (floatEq result.z (-(lit (139 / 5))))
  check (floatEq result.w (lit (6121 / 200)))

example : ∀ build, quat_scalar_multiplication build = .ok () := by intro build; cases build <;> decide +kernel

/-- /repo/test/quat_test.cpp:33-41 -/
def scalar_quat_multiplication (build : Build) : Res Unit := do
  let result : Quat F32 := (scalar * first)
  check (floatEq result.x (lit 10))
  check (floatEq result.y (lit (433 / 20)))
  check (floatEq result.z (-(lit (139 / 5))))
  check (floatEq result.w (lit (6121 / 200)))

example : ∀ build, scalar_quat_multiplication build = .ok () := by intro build; cases build <;> decide +kernel

/-- /repo/test/quat_test.cpp:43-51 -/
def quat_scalar_devision (build : Build) : Res Unit := do
  let result : Quat F32 := (first / scalar)
  check (floatEq result.x (lit (2 / 5)))
  check (floatEq result.y (lit (433 / 500)))
  check (floatEq result.z (-(lit (139 / 125))))
  check (floatEq result.w (lit (6121 / 5000)))

example : ∀ build, quat_scalar_devision build = .ok () := by intro build; cases build <;> decide +kernel

/-- /repo/test/quat_test.cpp:53-61 -/
def scalar_quat_devision (build : Build) : Res Unit := do
  let result : Quat F32 := (scalar / first)
  check (floatEq result.x (lit (5 / 2)))
  check (floatEq result.y (lit (1154734411 / 1000000000)))
  check (floatEq result.z (-(lit (89928057 / 100000000))))
  check (floatEq result.w (lit (81685999 / 100000000)))

example : ∀ build, scalar_quat_devision build = .ok () := by intro build; cases build <;> decide +kernel

/-- /repo/test/quat_test.cpp:63-71 -/
def quat_addition (build : Build) : Res Unit := do
  let result : Quat F32 := (first + second)
  check (floatEq result.x (-(lit (233 / 100))))
  check (floatEq result.y (lit (781 / 80)))
  check (floatEq result.z (-(lit (13121 / 2000))))
  check (floatEq result.w (lit (7549 / 2000)))

example : ∀ build, quat_addition build = .ok () := by intro build; cases build <;> decide +kernel

/-- /repo/test/quat_test.cpp:73-81 -/
def quat_substraction (build : Build) : Res Unit := do
  let result : Quat F32 := (first - second)
  check (floatEq result.x (lit (633 / 100)))
  check (floatEq result.y (-(lit (441 / 400))))
  check (floatEq result.z (-(lit (9119 / 2000))))
  check (floatEq result.w (lit (3387 / 400)))

example : ∀ build, quat_substraction build = .ok () := by intro build; cases build <;> decide +kernel

/-- /repo/test/quat_test.cpp:83-91 -/
def quat_unar_substraction (build : Build) : Res Unit := do
  let result : Quat F32 := (-first)
  check (floatEq result.x (-first.x))
  check (floatEq result.y (-first.y))
  check (floatEq result.z (-first.z))
  check (floatEq result.w (-first.w))

example : ∀ build, quat_unar_substraction build = .ok () := by intro build; cases build <;> decide +kernel

/-- /repo/test/quat_test.cpp:93-101 -/
def quat_multiplication (build : Build) : Res Unit := do
  let result : Quat F32 := (first * second)
  check (floatEq result.x (-(lit (2662197 / 500000))))
  check (floatEq result.y (lit (4916779 / 100000)))
  check (floatEq result.z (lit (1826819 / 50000)))
  check (floatEq result.w (-(lit (3478843 / 100000))))

example : ∀ build, quat_multiplication build = .ok () := by intro build; cases build <;> decide +kernel

/-- /repo/test/quat_test.cpp:103-116 -/
def access (build : Build) : Res Unit := do
  let result : Quat F32 := first
  let result ← Quat.set build result 0 (lit 1)
  let result ← Quat.set build result 1 (lit 1)
  let result ← Quat.set build result 2 (lit 1)
  let result ← Quat.set build result 3 (lit 1)
  let t1 ← Quat.at build result 0
  check (floatEq t1 (lit 1))
  let t2 ← Quat.at build result 1
  check (floatEq t2 (lit 1))
  let t3 ← Quat.at build result 2
  check (floatEq t3 (lit 1))
  let t4 ← Quat.at build result 3
  check (floatEq t4 (lit 1))

example : ∀ build, access build = .ok () := by intro build; cases build <;> decide +kernel

/-- /repo/test/quat_test.cpp:118-126 -/
def const_access (build : Build) : Res Unit := do
  let result : Quat F32 := first
  let t1 ← Quat.at build result 0
  check (floatEq t1 (lit 2))
  let t2 ← Quat.at build result 1
  check (floatEq t2 (lit (433 / 100)))
  let t3 ← Quat.at build result 2
  check (floatEq t3 (-(lit (139 / 25))))
  let t4 ← Quat.at build result 3
  check (floatEq t4 (lit (6121 / 1000)))

example : ∀ build, const_access build = .ok () := by intro build; cases build <;> decide +kernel

/-- /repo/test/quat_test.cpp:128-133 -/
def dot (build : Build) : Res Unit := do
  let result : F32 := (Quat.dot first second)
  check (floatEq result (lit (12125157 / 2000000)))

example : ∀ build, dot build = .ok () := by intro build; cases build <;> decide +kernel

/-- /repo/test/quat_test.cpp:135-140 -/
def lenght (build : Build) : Res Unit := do
  let result : F32 := (Quat.length first)
  check (floatEq result (lit (119327 / 12500)))

example : ∀ build, lenght build = .ok () := by intro build; cases build <;> decide +kernel

/-- /repo/test/quat_test.cpp:142-151 -/
def normalize (build : Build) : Res Unit := do
  let result : Quat F32 := (Quat.normalize first)
  check (floatEq result.x (lit (1047541627 / 5000000000)))
  check (floatEq result.y (lit (18143421 / 40000000)))
  check (floatEq result.z (-(lit (116486629 / 200000000))))
  check (floatEq result.w (lit (801500289 / 1250000000)))

example : ∀ build, normalize build = .ok () := by intro build; cases build <;> decide +kernel

/-- /repo/test/quat_test.cpp:153-164 -/
def isnan (build : Build) : Res Unit := do
  let result : V4 Bool := (Quat.isnan first)
  check ((BV4.any result) == false)
  let tmp : Quat F32 := first
  let tmp := { tmp with x := F32.nan }
  let result : V4 Bool := (BV4.ofXYZW true false false false)
  check (BV4.eq (Quat.isnan tmp) result)

example : ∀ build, isnan build = .ok () := by intro build; cases build <;> decide +kernel

/-- /repo/test/quat_test.cpp:166-178 -/
def isinf (build : Build) : Res Unit := do
  let result : V4 Bool := (Quat.isinf first)
  check ((BV4.any result) == false)
  let tmp : Quat F32 := first
  let tmp := { tmp with y := (F32.inf false) }
  let tmp := { tmp with x := (-(F32.inf false)) }
  let result : V4 Bool := (BV4.ofXYZW true true false false)
  check (BV4.eq (Quat.isinf tmp) result)

example : ∀ build, isinf build = .ok () := by intro build; cases build <;> decide +kernel

/-- /repo/test/quat_test.cpp:180-190 -/
def equal (build : Build) : Res Unit := do
  let result : V4 Bool := (Quat.equal first first)
  check ((BV4.all result) == true)
  let tmp : Quat F32 := first
  let tmp := { tmp with x := (lit 12312412) }
  let result : V4 Bool := (BV4.ofXYZW false true true true)
  check (BV4.eq (Quat.equal first tmp) result)

example : ∀ build, equal build = .ok () := by intro build; cases build <;> decide +kernel

/-- /repo/test/quat_test.cpp:192-200 -/
def make (build : Build) : Res Unit := do
  let d : List F32 := [(lit 0), (lit 1), (-(lit 1)), (lit 2)]
  let t1 ← Quat.make build (some fun i => d.getD i F32.nan)
  let result : Quat F32 := t1
  let t2 ← Quat.at build result 0
  check (t2 == (d.getD 0 F32.nan))
  let t3 ← Quat.at build result 1
  check (t3 == (d.getD 1 F32.nan))
  let t4 ← Quat.at build result 2
  check (t4 == (d.getD 2 F32.nan))
  let t5 ← Quat.at build result 3
  check (t5 == (d.getD 3 F32.nan))

example : ∀ build, make build = .ok () := by intro build; cases build <;> decide +kernel

/-- /repo/test/quat_test.cpp:202-206 -/
def sqrt (build : Build) : Res Unit := do
  let s : List F32 := [(F.sqrt (lit 2)), (F.sqrt (lit 3)), (F.sqrt (lit 4)), (F.sqrt (lit 5))]
  let result : Quat F32 := (Quat.sqrt (Quat.wxyz (lit 5) (lit 2) (lit 3) (lit 4)))
  let t1 ← Quat.make build (some fun i => s.getD i F32.nan)
  check (Quat.eq result t1)

example : ∀ build, sqrt build = .ok () := by intro build; cases build <;> decide +kernel

/-- /repo/test/quat_test.cpp:208-212 -/
def cbrt [Libm F32] (build : Build) : Res Unit := do
  let s : List F32 := [(F.cbrt (lit 2)), (F.cbrt (lit 3)), (F.cbrt (lit 4)), (F.cbrt (lit 5))]
  let result : Quat F32 := (Quat.cbrt (Quat.wxyz (lit 5) (lit 2) (lit 3) (lit 4)))
  let t1 ← Quat.make build (some fun i => s.getD i F32.nan)
  check (Quat.eq result t1)

example [Libm F32] (h : ∀ n ∈ [2, 3, 4, 5], (F.cbrt (lit n) : F32) ≠ .nan) : ∀ build, cbrt build = .ok () := by
  simp only [List.forall_mem_cons] at h
  intro build; cases build <;> exact quat_check _ _ _ _ h.1 h.2.1 h.2.2.1 h.2.2.2.1

/-- /repo/test/quat_test.cpp:214-218 -/
def pow [Libm F32] (build : Build) : Res Unit := do
  let s : List F32 := [(F.pow (lit 2) (lit (3 / 2))), (F.pow (lit 3) (lit (3 / 2))), (F.pow (lit 4) (lit (3 / 2))), (F.pow (lit 5) (lit (3 / 2)))]
  let result : Quat F32 := (Quat.pow (Quat.wxyz (lit 5) (lit 2) (lit 3) (lit 4)) (lit (3 / 2)))
  let t1 ← Quat.make build (some fun i => s.getD i F32.nan)
  check (Quat.eq result t1)

example [Libm F32] (h : ∀ n ∈ [2, 3, 4, 5], (F.pow (lit n) (lit (3 / 2)) : F32) ≠ .nan) : ∀ build, pow build = .ok () := by
  simp only [List.forall_mem_cons] at h
  intro build; cases build <;> exact quat_check _ _ _ _ h.1 h.2.1 h.2.2.1 h.2.2.2.1

/-- /repo/test/quat_test.cpp:220-224 -/
def exp [Libm F32] (build : Build) : Res Unit := do
  let s : List F32 := [(F.exp (lit 2)), (F.exp (lit 3)), (F.exp (lit 4)), (F.exp (lit 5))]
  let result : Quat F32 := (Quat.exp (Quat.wxyz (lit 5) (lit 2) (lit 3) (lit 4)))
  let t1 ← Quat.make build (some fun i => s.getD i F32.nan)
  check (Quat.eq result t1)

example [Libm F32] (h : ∀ n ∈ [2, 3, 4, 5], (F.exp (lit n) : F32) ≠ .nan) : ∀ build, exp build = .ok () := by
  simp only [List.forall_mem_cons] at h
  intro build; cases build <;> exact quat_check _ _ _ _ h.1 h.2.1 h.2.2.1 h.2.2.2.1

/-- /repo/test/quat_test.cpp:226-230 -/
def log [Libm F32] (build : Build) : Res Unit := do
  let s : List F32 := [(F.log (lit 2)), (F.log (lit 3)), (F.log (lit 4)), (F.log (lit 5))]
  let result : Quat F32 := (Quat.log (Quat.wxyz (lit 5) (lit 2) (lit 3) (lit 4)))
  let t1 ← Quat.make build (some fun i => s.getD i F32.nan)
  check (Quat.eq result t1)

example [Libm F32] (h : ∀ n ∈ [2, 3, 4, 5], (F.log (lit n) : F32) ≠ .nan) : ∀ build, log build = .ok () := by
  simp only [List.forall_mem_cons] at h
  intro build; cases build <;> exact quat_check _ _ _ _ h.1 h.2.1 h.2.2.1 h.2.2.2.1

/-- /repo/test/quat_test.cpp:232-236 -/
def log2 [Libm F32] (build : Build) : Res Unit := do
  let s : List F32 := [(F.log2 (lit 2)), (F.log2 (lit 3)), (F.log2 (lit 4)), (F.log2 (lit 5))]
  let result : Quat F32 := (Quat.log2 (Quat.wxyz (lit 5) (lit 2) (lit 3) (lit 4)))
  let t1 ← Quat.make build (some fun i => s.getD i F32.nan)
  check (Quat.eq result t1)

example [Libm F32] (h : ∀ n ∈ [2, 3, 4, 5], (F.log2 (lit n) : F32) ≠ .nan) : ∀ build, log2 build = .ok () := by
  simp only [List.forall_mem_cons] at h
  intro build; cases build <;> exact quat_check _ _ _ _ h.1 h.2.1 h.2.2.1 h.2.2.2.1

/-- /repo/test/quat_test.cpp:238-242 -/
def exp2 [Libm F32] (build : Build) : Res Unit := do
  let s : List F32 := [(F.exp2 (lit 2)), (F.exp2 (lit 3)), (F.exp2 (lit 4)), (F.exp2 (lit 5))]
  let result : Quat F32 := (Quat.exp2 (Quat.wxyz (lit 5) (lit 2) (lit 3) (lit 4)))
  let t1 ← Quat.make build (some fun i => s.getD i F32.nan)
  check (Quat.eq result t1)

example [Libm F32] (h : ∀ n ∈ [2, 3, 4, 5], (F.exp2 (lit n) : F32) ≠ .nan) : ∀ build, exp2 build = .ok () := by
  simp only [List.forall_mem_cons] at h
  intro build; cases build <;> exact quat_check _ _ _ _ h.1 h.2.1 h.2.2.1 h.2.2.2.1

/-- /repo/test/quat_test.cpp:244-248 -/
def inversesqrt (build : Build) : Res Unit := do
  let s : List F32 := [(F.inversesqrt (lit 2)), (F.inversesqrt (lit 3)), (F.inversesqrt (lit 4)), (F.inversesqrt (lit 5))]
  let result : Quat F32 := (Quat.inversesqrt (Quat.wxyz (lit 5) (lit 2) (lit 3) (lit 4)))
  let t1 ← Quat.make build (some fun i => s.getD i F32.nan)
  check (Quat.eq result t1)

example : ∀ build, inversesqrt build = .ok () := by intro build; cases build <;> decide +kernel

end Zcm.Conformance.Quaternion
