import Verif.Spec.Coord

/-!
# C15: matrix constructors and conversions

The conversion `mat3(mat2)` violates the claim: it reads column 2 of a two-column matrix
(src/mat3.cpp:27), so it aborts in a debug build and is undefined otherwise, for every argument
(`C15_mat3_of_mat2_false`, `C15_mat3_of_mat2_outcome`).  Everything else holds.
-/

namespace Zcm

variable {α : Type} [FloatOps α]

/-- C15 for `mat2`: `mat2(s)`, `mat2()`, the scalar constructor (`f k` is its `k`-th argument)
and the column constructor. -/
theorem C15_mat2 (s : α) (f : ℕ → α) (c0 c1 : V2 α) (c r : Fin 2) :
    entry (M2.diag s) c r = (if c = r then s else lit 0) ∧
    entry (M2.default : M2 α) c r = (if c = r then lit 1 else lit 0) ∧
    entry (M2.ofFloats (f 0) (f 1) (f 2) (f 3)) c r = f (2 * c + r) ∧
    entry (M2.ofCols c0 c1) c r = coord (![c0, c1] c) r := by
  fin_cases c <;> fin_cases r <;> exact ⟨rfl, rfl, rfl, rfl⟩

/-- C15 for `mat3`: `mat3(s)`, `mat3()`, the scalar constructor (`f k` is its `k`-th argument)
and the column constructor. -/
theorem C15_mat3 (s : α) (f : ℕ → α) (c0 c1 c2 : V3 α) (c r : Fin 3) :
    entry (M3.diag s) c r = (if c = r then s else lit 0) ∧
    entry (M3.default : M3 α) c r = (if c = r then lit 1 else lit 0) ∧
    entry (M3.ofFloats (f 0) (f 1) (f 2) (f 3) (f 4) (f 5) (f 6) (f 7) (f 8)) c r = f (3 * c + r) ∧
    entry (M3.ofCols c0 c1 c2) c r = coord (![c0, c1, c2] c) r := by
  fin_cases c <;> fin_cases r <;> exact ⟨rfl, rfl, rfl, rfl⟩

/-- C15 for `mat4`: `mat4(s)`, `mat4()`, the scalar constructor (`f k` is its `k`-th argument)
and the column constructor. -/
theorem C15_mat4 (s : α) (f : ℕ → α) (c0 c1 c2 c3 : V4 α) (c r : Fin 4) :
    entry (M4.diag s) c r = (if c = r then s else lit 0) ∧
    entry (M4.default : M4 α) c r = (if c = r then lit 1 else lit 0) ∧
    entry (M4.ofFloats (f 0) (f 1) (f 2) (f 3) (f 4) (f 5) (f 6) (f 7) (f 8) (f 9) (f 10) (f 11) (f 12) (f 13) (f 14) (f 15)) c r = f (4 * c + r) ∧
    entry (M4.ofCols c0 c1 c2 c3) c r = coord (![c0, c1, c2, c3] c) r := by
  fin_cases c <;> fin_cases r <;> exact ⟨rfl, rfl, rfl, rfl⟩

/-- C15 for `mat4(mat3)` and the conversions that drop the last row and column. -/
theorem C15_convert (m : M3 α) (k : M4 α) :
    (∀ c r : Fin 4, entry (M4.ofMat3 m) c r =
      if h : c.val < 3 ∧ r.val < 3 then entry m ⟨c, h.1⟩ ⟨r, h.2⟩
      else if c = r then lit 1 else lit 0) ∧
    (∀ c r : Fin 3, entry (M4.toMat3 k) c r = entry k c.castSucc r.castSucc) ∧
    (∀ c r : Fin 2, entry (M3.toMat2 m) c r = entry m c.castSucc r.castSucc) ∧
    M4.toMat3 (M4.ofMat3 m) = m := by
  refine ⟨fun c r => ?_, fun c r => ?_, fun c r => ?_, rfl⟩ <;> fin_cases c <;> fin_cases r <;> rfl

/-- The full claim for `mat3(mat2)`. -/
def Mat3OfMat2Spec (conv : Build → M2 α → Res (M3 α)) : Prop :=
  ∀ b m, ∃ k, conv b m = .ok k ∧ M3.toMat2 k = m ∧ ∀ c r : Fin 3, entry k c r =
    if h : c.val < 2 ∧ r.val < 2 then entry m ⟨c, h.1⟩ ⟨r, h.2⟩
    else if c = r then lit 1 else lit 0

/-- What `mat3(mat2)` really does, for every argument. -/
theorem C15_mat3_of_mat2_outcome (m : M2 α) :
    M3.ofMat2 .debug m = .abort ∧ M3.ofMat2 .release m = .ub := ⟨rfl, rfl⟩

/-- Hence the claim is false for it. -/
theorem C15_mat3_of_mat2_false : ¬ Mat3OfMat2Spec (M3.ofMat2 (α := α)) := by
  intro h
  obtain ⟨k, hk, -⟩ := h .debug (M2.diag (lit 0))
  rw [(C15_mat3_of_mat2_outcome _).1] at hk
  cases hk

/-- Non-vacuity: the specification of `mat3(mat2)` can be met. -/
example : Mat3OfMat2Spec (α := α) fun _ m =>
    .ok ⟨⟨m.c0.x, m.c0.y, lit 0⟩, ⟨m.c1.x, m.c1.y, lit 0⟩, ⟨lit 0, lit 0, lit 1⟩⟩ := by
  intro b m
  exact ⟨_, rfl, rfl, fun c r => by fin_cases c <;> fin_cases r <;> rfl⟩

/-- Non-vacuity of the column-major layout. -/
example : entry (M3.ofFloats 1 2 3 4 5 6 7 8 9 : M3 ℕ) 2 0 = 7 := rfl

end Zcm
