import Verif.Spec.Coord

/-!
# C03: increment and decrement

The model returns the pair (object afterwards, value of the expression).
-/

namespace Zcm

section vec
variable {α : Type} [Add α] [Sub α] [FloatOps α]

/-- C03 for `vec2`: prefix forms yield the updated object, postfix forms the old value, and all
of them add / subtract the number one in every component. -/
theorem C03_vec2 (v : V2 α) :
    ((∀ i, coord (V2.preInc v).1 i = coord v i + lit 1) ∧ (V2.preInc v).2 = (V2.preInc v).1) ∧
    ((∀ i, coord (V2.postInc v).1 i = coord v i + lit 1) ∧ (V2.postInc v).2 = v) ∧
    ((∀ i, coord (V2.preDec v).1 i = coord v i - lit 1) ∧ (V2.preDec v).2 = (V2.preDec v).1) ∧
    ((∀ i, coord (V2.postDec v).1 i = coord v i - lit 1) ∧ (V2.postDec v).2 = v) := by
  refine ⟨⟨fun i => ?_, rfl⟩, ⟨fun i => ?_, rfl⟩, ⟨fun i => ?_, rfl⟩, ⟨fun i => ?_, rfl⟩⟩ <;>
    fin_cases i <;> rfl

/-- C03 for `vec3`: prefix forms yield the updated object, postfix forms the old value, and all
of them add / subtract the number one in every component. -/
theorem C03_vec3 (v : V3 α) :
    ((∀ i, coord (V3.preInc v).1 i = coord v i + lit 1) ∧ (V3.preInc v).2 = (V3.preInc v).1) ∧
    ((∀ i, coord (V3.postInc v).1 i = coord v i + lit 1) ∧ (V3.postInc v).2 = v) ∧
    ((∀ i, coord (V3.preDec v).1 i = coord v i - lit 1) ∧ (V3.preDec v).2 = (V3.preDec v).1) ∧
    ((∀ i, coord (V3.postDec v).1 i = coord v i - lit 1) ∧ (V3.postDec v).2 = v) := by
  refine ⟨⟨fun i => ?_, rfl⟩, ⟨fun i => ?_, rfl⟩, ⟨fun i => ?_, rfl⟩, ⟨fun i => ?_, rfl⟩⟩ <;>
    fin_cases i <;> rfl

/-- C03 for `vec4`: prefix forms yield the updated object, postfix forms the old value, and all
of them add / subtract the number one in every component. -/
theorem C03_vec4 (v : V4 α) :
    ((∀ i, coord (V4.preInc v).1 i = coord v i + lit 1) ∧ (V4.preInc v).2 = (V4.preInc v).1) ∧
    ((∀ i, coord (V4.postInc v).1 i = coord v i + lit 1) ∧ (V4.postInc v).2 = v) ∧
    ((∀ i, coord (V4.preDec v).1 i = coord v i - lit 1) ∧ (V4.preDec v).2 = (V4.preDec v).1) ∧
    ((∀ i, coord (V4.postDec v).1 i = coord v i - lit 1) ∧ (V4.postDec v).2 = v) := by
  refine ⟨⟨fun i => ?_, rfl⟩, ⟨fun i => ?_, rfl⟩, ⟨fun i => ?_, rfl⟩, ⟨fun i => ?_, rfl⟩⟩ <;>
    fin_cases i <;> rfl

end vec

/-- "Running the statement leaves the object `o` and yields `r`, where every component of `o`
is the component of `v` plus `d`; it is undefined exactly if such an `int32_t` does not exist." -/
def IncSpec {V : Type → Type} {n : ℕ} [Coords V n] (v : V I32) (d : ℤ) (old : Bool)
    (res : Res (V I32 × V I32)) : Prop :=
  ((∀ i, -2147483648 ≤ (coord v i).toInt + d ∧ (coord v i).toInt + d < 2147483648) →
    ∃ o r, res = .ok (o, r) ∧ (∀ i, (coord o i).toInt = (coord v i).toInt + d) ∧
      r = if old then v else o) ∧
  ((∃ i, ¬(-2147483648 ≤ (coord v i).toInt + d ∧ (coord v i).toInt + d < 2147483648)) →
    res = .ub)

private theorem toInt_lit (z : ℤ) (h : -2147483648 ≤ z ∧ z < 2147483648) :
    (⟨BitVec.ofInt 32 z⟩ : I32).toInt = z := by
  simp only [I32.toInt, BitVec.toInt_ofInt]
  exact Int.bmod_eq_of_le (by omega) (by omega)

private theorem one_toInt : (I32.lit 1).toInt = 1 := by decide

private theorem add_one (a : I32) (h : -2147483648 ≤ a.toInt + 1 ∧ a.toInt + 1 < 2147483648) :
    ∃ r, I32.add a (I32.lit 1) = .ok r ∧ r.toInt = a.toInt + 1 := by
  refine ⟨⟨BitVec.ofInt 32 (a.toInt + 1)⟩, ?_, toInt_lit _ h⟩
  simp [I32.add, I32.ofInt?, one_toInt, h]

private theorem add_one_ub (a : I32)
    (h : ¬(-2147483648 ≤ a.toInt + 1 ∧ a.toInt + 1 < 2147483648)) :
    I32.add a (I32.lit 1) = .ub := by
  simp only [I32.add, I32.ofInt?, one_toInt, if_neg h]

private theorem sub_one (a : I32) (h : -2147483648 ≤ a.toInt + -1 ∧ a.toInt + -1 < 2147483648) :
    ∃ r, I32.sub a (I32.lit 1) = .ok r ∧ r.toInt = a.toInt + -1 := by
  refine ⟨⟨BitVec.ofInt 32 (a.toInt + -1)⟩, ?_, toInt_lit _ h⟩
  simp only [I32.sub, I32.ofInt?, one_toInt]
  rw [if_pos (by omega)]; rfl

private theorem sub_one_ub (a : I32)
    (h : ¬(-2147483648 ≤ a.toInt + -1 ∧ a.toInt + -1 < 2147483648)) :
    I32.sub a (I32.lit 1) = .ub := by
  simp only [I32.sub, I32.ofInt?, one_toInt]
  rw [if_neg (by omega)]

theorem C03_ivec2_preInc (v : V2 I32) : IncSpec v (1) false (IV2.preInc v) := by
  constructor
  · intro h
    obtain ⟨r0, e0, t0⟩ := add_one v.x (h 0)
    obtain ⟨r1, e1, t1⟩ := add_one v.y (h 1)
    refine ⟨⟨r0, r1⟩, ⟨r0, r1⟩, ?_, ?_, rfl⟩
    · simp [IV2.preInc, e0, e1]
    · intro i; fin_cases i
      · exact t0
      · exact t1
  · intro h
    by_cases h0 : (-2147483648 ≤ v.x.toInt + 1 ∧ v.x.toInt + 1 < 2147483648)
    swap
    · simp [IV2.preInc, add_one_ub _ h0]
    obtain ⟨r0, e0, -⟩ := add_one v.x h0
    by_cases h1 : (-2147483648 ≤ v.y.toInt + 1 ∧ v.y.toInt + 1 < 2147483648)
    swap
    · simp [IV2.preInc, add_one_ub _ h1, e0]
    obtain ⟨r1, e1, -⟩ := add_one v.y h1
    obtain ⟨i, hi⟩ := h
    fin_cases i
    · exact absurd h0 hi
    · exact absurd h1 hi

theorem C03_ivec2_postInc (v : V2 I32) : IncSpec v (1) true (IV2.postInc v) := by
  constructor
  · intro h
    obtain ⟨r0, e0, t0⟩ := add_one v.x (h 0)
    obtain ⟨r1, e1, t1⟩ := add_one v.y (h 1)
    refine ⟨⟨r0, r1⟩, v, ?_, ?_, rfl⟩
    · simp [IV2.postInc, e0, e1]
    · intro i; fin_cases i
      · exact t0
      · exact t1
  · intro h
    by_cases h0 : (-2147483648 ≤ v.x.toInt + 1 ∧ v.x.toInt + 1 < 2147483648)
    swap
    · simp [IV2.postInc, add_one_ub _ h0]
    obtain ⟨r0, e0, -⟩ := add_one v.x h0
    by_cases h1 : (-2147483648 ≤ v.y.toInt + 1 ∧ v.y.toInt + 1 < 2147483648)
    swap
    · simp [IV2.postInc, add_one_ub _ h1, e0]
    obtain ⟨r1, e1, -⟩ := add_one v.y h1
    obtain ⟨i, hi⟩ := h
    fin_cases i
    · exact absurd h0 hi
    · exact absurd h1 hi

theorem C03_ivec2_preDec (v : V2 I32) : IncSpec v (-1) false (IV2.preDec v) := by
  constructor
  · intro h
    obtain ⟨r0, e0, t0⟩ := sub_one v.x (h 0)
    obtain ⟨r1, e1, t1⟩ := sub_one v.y (h 1)
    refine ⟨⟨r0, r1⟩, ⟨r0, r1⟩, ?_, ?_, rfl⟩
    · simp [IV2.preDec, e0, e1]
    · intro i; fin_cases i
      · exact t0
      · exact t1
  · intro h
    by_cases h0 : (-2147483648 ≤ v.x.toInt + -1 ∧ v.x.toInt + -1 < 2147483648)
    swap
    · simp [IV2.preDec, sub_one_ub _ h0]
    obtain ⟨r0, e0, -⟩ := sub_one v.x h0
    by_cases h1 : (-2147483648 ≤ v.y.toInt + -1 ∧ v.y.toInt + -1 < 2147483648)
    swap
    · simp [IV2.preDec, sub_one_ub _ h1, e0]
    obtain ⟨r1, e1, -⟩ := sub_one v.y h1
    obtain ⟨i, hi⟩ := h
    fin_cases i
    · exact absurd h0 hi
    · exact absurd h1 hi

theorem C03_ivec2_postDec (v : V2 I32) : IncSpec v (-1) true (IV2.postDec v) := by
  constructor
  · intro h
    obtain ⟨r0, e0, t0⟩ := sub_one v.x (h 0)
    obtain ⟨r1, e1, t1⟩ := sub_one v.y (h 1)
    refine ⟨⟨r0, r1⟩, v, ?_, ?_, rfl⟩
    · simp [IV2.postDec, e0, e1]
    · intro i; fin_cases i
      · exact t0
      · exact t1
  · intro h
    by_cases h0 : (-2147483648 ≤ v.x.toInt + -1 ∧ v.x.toInt + -1 < 2147483648)
    swap
    · simp [IV2.postDec, sub_one_ub _ h0]
    obtain ⟨r0, e0, -⟩ := sub_one v.x h0
    by_cases h1 : (-2147483648 ≤ v.y.toInt + -1 ∧ v.y.toInt + -1 < 2147483648)
    swap
    · simp [IV2.postDec, sub_one_ub _ h1, e0]
    obtain ⟨r1, e1, -⟩ := sub_one v.y h1
    obtain ⟨i, hi⟩ := h
    fin_cases i
    · exact absurd h0 hi
    · exact absurd h1 hi

theorem C03_ivec3_preInc (v : V3 I32) : IncSpec v (1) false (IV3.preInc v) := by
  constructor
  · intro h
    obtain ⟨r0, e0, t0⟩ := add_one v.x (h 0)
    obtain ⟨r1, e1, t1⟩ := add_one v.y (h 1)
    obtain ⟨r2, e2, t2⟩ := add_one v.z (h 2)
    refine ⟨⟨r0, r1, r2⟩, ⟨r0, r1, r2⟩, ?_, ?_, rfl⟩
    · simp [IV3.preInc, e0, e1, e2]
    · intro i; fin_cases i
      · exact t0
      · exact t1
      · exact t2
  · intro h
    by_cases h0 : (-2147483648 ≤ v.x.toInt + 1 ∧ v.x.toInt + 1 < 2147483648)
    swap
    · simp [IV3.preInc, add_one_ub _ h0]
    obtain ⟨r0, e0, -⟩ := add_one v.x h0
    by_cases h1 : (-2147483648 ≤ v.y.toInt + 1 ∧ v.y.toInt + 1 < 2147483648)
    swap
    · simp [IV3.preInc, add_one_ub _ h1, e0]
    obtain ⟨r1, e1, -⟩ := add_one v.y h1
    by_cases h2 : (-2147483648 ≤ v.z.toInt + 1 ∧ v.z.toInt + 1 < 2147483648)
    swap
    · simp [IV3.preInc, add_one_ub _ h2, e0, e1]
    obtain ⟨r2, e2, -⟩ := add_one v.z h2
    obtain ⟨i, hi⟩ := h
    fin_cases i
    · exact absurd h0 hi
    · exact absurd h1 hi
    · exact absurd h2 hi

theorem C03_ivec3_postInc (v : V3 I32) : IncSpec v (1) true (IV3.postInc v) := by
  constructor
  · intro h
    obtain ⟨r0, e0, t0⟩ := add_one v.x (h 0)
    obtain ⟨r1, e1, t1⟩ := add_one v.y (h 1)
    obtain ⟨r2, e2, t2⟩ := add_one v.z (h 2)
    refine ⟨⟨r0, r1, r2⟩, v, ?_, ?_, rfl⟩
    · simp [IV3.postInc, e0, e1, e2]
    · intro i; fin_cases i
      · exact t0
      · exact t1
      · exact t2
  · intro h
    by_cases h0 : (-2147483648 ≤ v.x.toInt + 1 ∧ v.x.toInt + 1 < 2147483648)
    swap
    · simp [IV3.postInc, add_one_ub _ h0]
    obtain ⟨r0, e0, -⟩ := add_one v.x h0
    by_cases h1 : (-2147483648 ≤ v.y.toInt + 1 ∧ v.y.toInt + 1 < 2147483648)
    swap
    · simp [IV3.postInc, add_one_ub _ h1, e0]
    obtain ⟨r1, e1, -⟩ := add_one v.y h1
    by_cases h2 : (-2147483648 ≤ v.z.toInt + 1 ∧ v.z.toInt + 1 < 2147483648)
    swap
    · simp [IV3.postInc, add_one_ub _ h2, e0, e1]
    obtain ⟨r2, e2, -⟩ := add_one v.z h2
    obtain ⟨i, hi⟩ := h
    fin_cases i
    · exact absurd h0 hi
    · exact absurd h1 hi
    · exact absurd h2 hi

theorem C03_ivec3_preDec (v : V3 I32) : IncSpec v (-1) false (IV3.preDec v) := by
  constructor
  · intro h
    obtain ⟨r0, e0, t0⟩ := sub_one v.x (h 0)
    obtain ⟨r1, e1, t1⟩ := sub_one v.y (h 1)
    obtain ⟨r2, e2, t2⟩ := sub_one v.z (h 2)
    refine ⟨⟨r0, r1, r2⟩, ⟨r0, r1, r2⟩, ?_, ?_, rfl⟩
    · simp [IV3.preDec, e0, e1, e2]
    · intro i; fin_cases i
      · exact t0
      · exact t1
      · exact t2
  · intro h
    by_cases h0 : (-2147483648 ≤ v.x.toInt + -1 ∧ v.x.toInt + -1 < 2147483648)
    swap
    · simp [IV3.preDec, sub_one_ub _ h0]
    obtain ⟨r0, e0, -⟩ := sub_one v.x h0
    by_cases h1 : (-2147483648 ≤ v.y.toInt + -1 ∧ v.y.toInt + -1 < 2147483648)
    swap
    · simp [IV3.preDec, sub_one_ub _ h1, e0]
    obtain ⟨r1, e1, -⟩ := sub_one v.y h1
    by_cases h2 : (-2147483648 ≤ v.z.toInt + -1 ∧ v.z.toInt + -1 < 2147483648)
    swap
    · simp [IV3.preDec, sub_one_ub _ h2, e0, e1]
    obtain ⟨r2, e2, -⟩ := sub_one v.z h2
    obtain ⟨i, hi⟩ := h
    fin_cases i
    · exact absurd h0 hi
    · exact absurd h1 hi
    · exact absurd h2 hi

theorem C03_ivec3_postDec (v : V3 I32) : IncSpec v (-1) true (IV3.postDec v) := by
  constructor
  · intro h
    obtain ⟨r0, e0, t0⟩ := sub_one v.x (h 0)
    obtain ⟨r1, e1, t1⟩ := sub_one v.y (h 1)
    obtain ⟨r2, e2, t2⟩ := sub_one v.z (h 2)
    refine ⟨⟨r0, r1, r2⟩, v, ?_, ?_, rfl⟩
    · simp [IV3.postDec, e0, e1, e2]
    · intro i; fin_cases i
      · exact t0
      · exact t1
      · exact t2
  · intro h
    by_cases h0 : (-2147483648 ≤ v.x.toInt + -1 ∧ v.x.toInt + -1 < 2147483648)
    swap
    · simp [IV3.postDec, sub_one_ub _ h0]
    obtain ⟨r0, e0, -⟩ := sub_one v.x h0
    by_cases h1 : (-2147483648 ≤ v.y.toInt + -1 ∧ v.y.toInt + -1 < 2147483648)
    swap
    · simp [IV3.postDec, sub_one_ub _ h1, e0]
    obtain ⟨r1, e1, -⟩ := sub_one v.y h1
    by_cases h2 : (-2147483648 ≤ v.z.toInt + -1 ∧ v.z.toInt + -1 < 2147483648)
    swap
    · simp [IV3.postDec, sub_one_ub _ h2, e0, e1]
    obtain ⟨r2, e2, -⟩ := sub_one v.z h2
    obtain ⟨i, hi⟩ := h
    fin_cases i
    · exact absurd h0 hi
    · exact absurd h1 hi
    · exact absurd h2 hi

theorem C03_ivec4_preInc (v : V4 I32) : IncSpec v (1) false (IV4.preInc v) := by
  constructor
  · intro h
    obtain ⟨r0, e0, t0⟩ := add_one v.x (h 0)
    obtain ⟨r1, e1, t1⟩ := add_one v.y (h 1)
    obtain ⟨r2, e2, t2⟩ := add_one v.z (h 2)
    obtain ⟨r3, e3, t3⟩ := add_one v.w (h 3)
    refine ⟨⟨r0, r1, r2, r3⟩, ⟨r0, r1, r2, r3⟩, ?_, ?_, rfl⟩
    · simp [IV4.preInc, e0, e1, e2, e3]
    · intro i; fin_cases i
      · exact t0
      · exact t1
      · exact t2
      · exact t3
  · intro h
    by_cases h0 : (-2147483648 ≤ v.x.toInt + 1 ∧ v.x.toInt + 1 < 2147483648)
    swap
    · simp [IV4.preInc, add_one_ub _ h0]
    obtain ⟨r0, e0, -⟩ := add_one v.x h0
    by_cases h1 : (-2147483648 ≤ v.y.toInt + 1 ∧ v.y.toInt + 1 < 2147483648)
    swap
    · simp [IV4.preInc, add_one_ub _ h1, e0]
    obtain ⟨r1, e1, -⟩ := add_one v.y h1
    by_cases h2 : (-2147483648 ≤ v.z.toInt + 1 ∧ v.z.toInt + 1 < 2147483648)
    swap
    · simp [IV4.preInc, add_one_ub _ h2, e0, e1]
    obtain ⟨r2, e2, -⟩ := add_one v.z h2
    by_cases h3 : (-2147483648 ≤ v.w.toInt + 1 ∧ v.w.toInt + 1 < 2147483648)
    swap
    · simp [IV4.preInc, add_one_ub _ h3, e0, e1, e2]
    obtain ⟨r3, e3, -⟩ := add_one v.w h3
    obtain ⟨i, hi⟩ := h
    fin_cases i
    · exact absurd h0 hi
    · exact absurd h1 hi
    · exact absurd h2 hi
    · exact absurd h3 hi

theorem C03_ivec4_postInc (v : V4 I32) : IncSpec v (1) true (IV4.postInc v) := by
  constructor
  · intro h
    obtain ⟨r0, e0, t0⟩ := add_one v.x (h 0)
    obtain ⟨r1, e1, t1⟩ := add_one v.y (h 1)
    obtain ⟨r2, e2, t2⟩ := add_one v.z (h 2)
    obtain ⟨r3, e3, t3⟩ := add_one v.w (h 3)
    refine ⟨⟨r0, r1, r2, r3⟩, v, ?_, ?_, rfl⟩
    · simp [IV4.postInc, e0, e1, e2, e3]
    · intro i; fin_cases i
      · exact t0
      · exact t1
      · exact t2
      · exact t3
  · intro h
    by_cases h0 : (-2147483648 ≤ v.x.toInt + 1 ∧ v.x.toInt + 1 < 2147483648)
    swap
    · simp [IV4.postInc, add_one_ub _ h0]
    obtain ⟨r0, e0, -⟩ := add_one v.x h0
    by_cases h1 : (-2147483648 ≤ v.y.toInt + 1 ∧ v.y.toInt + 1 < 2147483648)
    swap
    · simp [IV4.postInc, add_one_ub _ h1, e0]
    obtain ⟨r1, e1, -⟩ := add_one v.y h1
    by_cases h2 : (-2147483648 ≤ v.z.toInt + 1 ∧ v.z.toInt + 1 < 2147483648)
    swap
    · simp [IV4.postInc, add_one_ub _ h2, e0, e1]
    obtain ⟨r2, e2, -⟩ := add_one v.z h2
    by_cases h3 : (-2147483648 ≤ v.w.toInt + 1 ∧ v.w.toInt + 1 < 2147483648)
    swap
    · simp [IV4.postInc, add_one_ub _ h3, e0, e1, e2]
    obtain ⟨r3, e3, -⟩ := add_one v.w h3
    obtain ⟨i, hi⟩ := h
    fin_cases i
    · exact absurd h0 hi
    · exact absurd h1 hi
    · exact absurd h2 hi
    · exact absurd h3 hi

theorem C03_ivec4_preDec (v : V4 I32) : IncSpec v (-1) false (IV4.preDec v) := by
  constructor
  · intro h
    obtain ⟨r0, e0, t0⟩ := sub_one v.x (h 0)
    obtain ⟨r1, e1, t1⟩ := sub_one v.y (h 1)
    obtain ⟨r2, e2, t2⟩ := sub_one v.z (h 2)
    obtain ⟨r3, e3, t3⟩ := sub_one v.w (h 3)
    refine ⟨⟨r0, r1, r2, r3⟩, ⟨r0, r1, r2, r3⟩, ?_, ?_, rfl⟩
    · simp [IV4.preDec, e0, e1, e2, e3]
    · intro i; fin_cases i
      · exact t0
      · exact t1
      · exact t2
      · exact t3
  · intro h
    by_cases h0 : (-2147483648 ≤ v.x.toInt + -1 ∧ v.x.toInt + -1 < 2147483648)
    swap
    · simp [IV4.preDec, sub_one_ub _ h0]
    obtain ⟨r0, e0, -⟩ := sub_one v.x h0
    by_cases h1 : (-2147483648 ≤ v.y.toInt + -1 ∧ v.y.toInt + -1 < 2147483648)
    swap
    · simp [IV4.preDec, sub_one_ub _ h1, e0]
    obtain ⟨r1, e1, -⟩ := sub_one v.y h1
    by_cases h2 : (-2147483648 ≤ v.z.toInt + -1 ∧ v.z.toInt + -1 < 2147483648)
    swap
    · simp [IV4.preDec, sub_one_ub _ h2, e0, e1]
    obtain ⟨r2, e2, -⟩ := sub_one v.z h2
    by_cases h3 : (-2147483648 ≤ v.w.toInt + -1 ∧ v.w.toInt + -1 < 2147483648)
    swap
    · simp [IV4.preDec, sub_one_ub _ h3, e0, e1, e2]
    obtain ⟨r3, e3, -⟩ := sub_one v.w h3
    obtain ⟨i, hi⟩ := h
    fin_cases i
    · exact absurd h0 hi
    · exact absurd h1 hi
    · exact absurd h2 hi
    · exact absurd h3 hi

theorem C03_ivec4_postDec (v : V4 I32) : IncSpec v (-1) true (IV4.postDec v) := by
  constructor
  · intro h
    obtain ⟨r0, e0, t0⟩ := sub_one v.x (h 0)
    obtain ⟨r1, e1, t1⟩ := sub_one v.y (h 1)
    obtain ⟨r2, e2, t2⟩ := sub_one v.z (h 2)
    obtain ⟨r3, e3, t3⟩ := sub_one v.w (h 3)
    refine ⟨⟨r0, r1, r2, r3⟩, v, ?_, ?_, rfl⟩
    · simp [IV4.postDec, e0, e1, e2, e3]
    · intro i; fin_cases i
      · exact t0
      · exact t1
      · exact t2
      · exact t3
  · intro h
    by_cases h0 : (-2147483648 ≤ v.x.toInt + -1 ∧ v.x.toInt + -1 < 2147483648)
    swap
    · simp [IV4.postDec, sub_one_ub _ h0]
    obtain ⟨r0, e0, -⟩ := sub_one v.x h0
    by_cases h1 : (-2147483648 ≤ v.y.toInt + -1 ∧ v.y.toInt + -1 < 2147483648)
    swap
    · simp [IV4.postDec, sub_one_ub _ h1, e0]
    obtain ⟨r1, e1, -⟩ := sub_one v.y h1
    by_cases h2 : (-2147483648 ≤ v.z.toInt + -1 ∧ v.z.toInt + -1 < 2147483648)
    swap
    · simp [IV4.postDec, sub_one_ub _ h2, e0, e1]
    obtain ⟨r2, e2, -⟩ := sub_one v.z h2
    by_cases h3 : (-2147483648 ≤ v.w.toInt + -1 ∧ v.w.toInt + -1 < 2147483648)
    swap
    · simp [IV4.postDec, sub_one_ub _ h3, e0, e1, e2]
    obtain ⟨r3, e3, -⟩ := sub_one v.w h3
    obtain ⟨i, hi⟩ := h
    fin_cases i
    · exact absurd h0 hi
    · exact absurd h1 hi
    · exact absurd h2 hi
    · exact absurd h3 hi

/-- Non-vacuity: a defined and an undefined increment. -/
example : IV2.postInc ⟨I32.lit 41, I32.lit (-1)⟩ =
      .ok (⟨I32.lit 42, I32.lit 0⟩, ⟨I32.lit 41, I32.lit (-1)⟩) ∧
    IV2.preInc ⟨I32.lit 41, I32.lit 2147483647⟩ = .ub := by decide +kernel

end Zcm
