import Verif.Spec.Names
import Verif.Model.TypePtr

/-!
# C08: make_* and value_ptr round-trip, in documented memory order

`(value_ptr v).read i` is `ptr[i]`; `PtrSpec` says in which order the elements appear, that the
pointer reaches exactly the object, and that a write through it changes exactly one element.
`MakeSpec` says that `make_*` inverts `value_ptr` and depends on nothing but the first elements.
-/

set_option linter.unusedSimpArgs false

namespace Zcm

/-- `ptr` points at exactly the elements `elem 0, elem 1, …`, in this order. -/
def PtrSpec {β : Type} {n : ℕ} (ptr : Ptr β) (elem : Fin n → β) : Prop :=
  (∀ i : Fin n, ptr.read i = .ok (elem i)) ∧ (∀ i, n ≤ i → ptr.read i = .ub) ∧
  (∀ (i : Fin n) a, ptr.write i a = .ok (List.ofFn (Function.update elem i a))) ∧
  (∀ i a, n ≤ i → ptr.write i a = .ub)

/-- `make` builds from an array the value whose elements are the first `n` of the array, whatever
the array holds beyond them, and asserts that the pointer is not null. -/
def MakeSpec {V β : Type} {n : ℕ} (elem : V → Fin n → β)
    (make : Build → Option (ℕ → β) → Res V) : Prop :=
  (∀ b p, ∃ v, make b (some p) = .ok v ∧ ∀ i : Fin n, elem v i = p i) ∧
  (∀ b p v, (∀ i : Fin n, elem v i = p i) → make b (some p) = .ok v) ∧
  make .debug none = .abort

/-- The elements of a matrix column by column. -/
def colMajor {M : Type → Type} {n : ℕ} [Entries M n] {β : Type} (m : M β) (k : Fin (n * n)) : β :=
  entry m k.divNat k.modNat

variable {α : Type}

/-- C08 for `vec2`: memory order. -/
theorem C08_vec2_value_ptr (v : V2 α) : PtrSpec (V2.value_ptr v) (coord v) := by
  refine ⟨fun i => by fin_cases i <;> rfl, fun i h => ?_, fun i a => by fin_cases i <;> rfl,
    fun i a h => ?_⟩
  · simp [Ptr.read, V2.value_ptr, V2.layout, List.getElem?_eq_none, h]
  · simp [Ptr.write, V2.value_ptr, V2.layout]; omega

/-- C08 for `vec3`: memory order. -/
theorem C08_vec3_value_ptr (v : V3 α) : PtrSpec (V3.value_ptr v) (coord v) := by
  refine ⟨fun i => by fin_cases i <;> rfl, fun i h => ?_, fun i a => by fin_cases i <;> rfl,
    fun i a h => ?_⟩
  · simp [Ptr.read, V3.value_ptr, V3.layout, List.getElem?_eq_none, h]
  · simp [Ptr.write, V3.value_ptr, V3.layout]; omega

/-- C08 for `vec4`: memory order. -/
theorem C08_vec4_value_ptr (v : V4 α) : PtrSpec (V4.value_ptr v) (coord v) := by
  refine ⟨fun i => by fin_cases i <;> rfl, fun i h => ?_, fun i a => by fin_cases i <;> rfl,
    fun i a h => ?_⟩
  · simp [Ptr.read, V4.value_ptr, V4.layout, List.getElem?_eq_none, h]
  · simp [Ptr.write, V4.value_ptr, V4.layout]; omega

/-- C08 for `bvec2`: memory order. -/
theorem C08_bvec2_value_ptr (v : V2 Bool) : PtrSpec (BV2.value_ptr v) (coord v) := by
  refine ⟨fun i => by fin_cases i <;> rfl, fun i h => ?_, fun i a => by fin_cases i <;> rfl,
    fun i a h => ?_⟩
  · simp [Ptr.read, BV2.value_ptr, V2.layout, List.getElem?_eq_none, h]
  · simp [Ptr.write, BV2.value_ptr, V2.layout]; omega

/-- C08 for `bvec3`: memory order. -/
theorem C08_bvec3_value_ptr (v : V3 Bool) : PtrSpec (BV3.value_ptr v) (coord v) := by
  refine ⟨fun i => by fin_cases i <;> rfl, fun i h => ?_, fun i a => by fin_cases i <;> rfl,
    fun i a h => ?_⟩
  · simp [Ptr.read, BV3.value_ptr, V3.layout, List.getElem?_eq_none, h]
  · simp [Ptr.write, BV3.value_ptr, V3.layout]; omega

/-- C08 for `bvec4`: memory order. -/
theorem C08_bvec4_value_ptr (v : V4 Bool) : PtrSpec (BV4.value_ptr v) (coord v) := by
  refine ⟨fun i => by fin_cases i <;> rfl, fun i h => ?_, fun i a => by fin_cases i <;> rfl,
    fun i a h => ?_⟩
  · simp [Ptr.read, BV4.value_ptr, V4.layout, List.getElem?_eq_none, h]
  · simp [Ptr.write, BV4.value_ptr, V4.layout]; omega

/-- C08 for `quat`: memory order. -/
theorem C08_quat_value_ptr (v : Quat α) : PtrSpec (Quat.value_ptr v) (coord v) := by
  refine ⟨fun i => by fin_cases i <;> rfl, fun i h => ?_, fun i a => by fin_cases i <;> rfl,
    fun i a h => ?_⟩
  · simp [Ptr.read, Quat.value_ptr, Quat.layout, List.getElem?_eq_none, h]
  · simp [Ptr.write, Quat.value_ptr, Quat.layout]; omega

/-- C08 for `vec2`: `make_vec2`. -/
theorem C08_vec2_make : MakeSpec (fun v : V2 α => coord v) V2.make := by
  refine ⟨fun b p => ⟨⟨p 0, p 1⟩, by cases b <;> rfl, fun i => by fin_cases i <;> rfl⟩,
    fun b p v h => ?_, rfl⟩
  have : V2.make b (some p) = .ok ⟨p 0, p 1⟩ := by cases b <;> rfl
  rw [this]
  congr 1
  exact coord_inj2.1 fun i => by
    have := h i
    fin_cases i <;> exact this.symm

/-- C08 for `vec3`: `make_vec3`. -/
theorem C08_vec3_make : MakeSpec (fun v : V3 α => coord v) V3.make := by
  refine ⟨fun b p => ⟨⟨p 0, p 1, p 2⟩, by cases b <;> rfl, fun i => by fin_cases i <;> rfl⟩,
    fun b p v h => ?_, rfl⟩
  have : V3.make b (some p) = .ok ⟨p 0, p 1, p 2⟩ := by cases b <;> rfl
  rw [this]
  congr 1
  exact coord_inj3.1 fun i => by
    have := h i
    fin_cases i <;> exact this.symm

/-- C08 for `vec4`: `make_vec4`. -/
theorem C08_vec4_make : MakeSpec (fun v : V4 α => coord v) V4.make := by
  refine ⟨fun b p => ⟨⟨p 0, p 1, p 2, p 3⟩, by cases b <;> rfl, fun i => by fin_cases i <;> rfl⟩,
    fun b p v h => ?_, rfl⟩
  have : V4.make b (some p) = .ok ⟨p 0, p 1, p 2, p 3⟩ := by cases b <;> rfl
  rw [this]
  congr 1
  exact coord_inj4.1 fun i => by
    have := h i
    fin_cases i <;> exact this.symm

/-- C08 for `bvec2`: `make_bvec2`. -/
theorem C08_bvec2_make : MakeSpec (fun v : V2 Bool => coord v) BV2.make := by
  refine ⟨fun b p => ⟨⟨p 0, p 1⟩, by cases b <;> rfl, fun i => by fin_cases i <;> rfl⟩,
    fun b p v h => ?_, rfl⟩
  have : BV2.make b (some p) = .ok ⟨p 0, p 1⟩ := by cases b <;> rfl
  rw [this]
  congr 1
  exact coord_inj2.1 fun i => by
    have := h i
    fin_cases i <;> exact this.symm

/-- C08 for `bvec3`: `make_bvec3`. -/
theorem C08_bvec3_make : MakeSpec (fun v : V3 Bool => coord v) BV3.make := by
  refine ⟨fun b p => ⟨⟨p 0, p 1, p 2⟩, by cases b <;> rfl, fun i => by fin_cases i <;> rfl⟩,
    fun b p v h => ?_, rfl⟩
  have : BV3.make b (some p) = .ok ⟨p 0, p 1, p 2⟩ := by cases b <;> rfl
  rw [this]
  congr 1
  exact coord_inj3.1 fun i => by
    have := h i
    fin_cases i <;> exact this.symm

/-- C08 for `bvec4`: `make_bvec4`. -/
theorem C08_bvec4_make : MakeSpec (fun v : V4 Bool => coord v) BV4.make := by
  refine ⟨fun b p => ⟨⟨p 0, p 1, p 2, p 3⟩, by cases b <;> rfl, fun i => by fin_cases i <;> rfl⟩,
    fun b p v h => ?_, rfl⟩
  have : BV4.make b (some p) = .ok ⟨p 0, p 1, p 2, p 3⟩ := by cases b <;> rfl
  rw [this]
  congr 1
  exact coord_inj4.1 fun i => by
    have := h i
    fin_cases i <;> exact this.symm

/-- C08 for `ivec2`: `make_ivec2`. -/
theorem C08_ivec2_make : MakeSpec (fun v : V2 I32 => coord v) IV2.make := by
  refine ⟨fun b p => ⟨⟨p 0, p 1⟩, by cases b <;> rfl, fun i => by fin_cases i <;> rfl⟩,
    fun b p v h => ?_, rfl⟩
  have : IV2.make b (some p) = .ok ⟨p 0, p 1⟩ := by cases b <;> rfl
  rw [this]
  congr 1
  exact coord_inj2.1 fun i => by
    have := h i
    fin_cases i <;> exact this.symm

/-- C08 for `ivec3`: `make_ivec3`. -/
theorem C08_ivec3_make : MakeSpec (fun v : V3 I32 => coord v) IV3.make := by
  refine ⟨fun b p => ⟨⟨p 0, p 1, p 2⟩, by cases b <;> rfl, fun i => by fin_cases i <;> rfl⟩,
    fun b p v h => ?_, rfl⟩
  have : IV3.make b (some p) = .ok ⟨p 0, p 1, p 2⟩ := by cases b <;> rfl
  rw [this]
  congr 1
  exact coord_inj3.1 fun i => by
    have := h i
    fin_cases i <;> exact this.symm

/-- C08 for `ivec4`: `make_ivec4`. -/
theorem C08_ivec4_make : MakeSpec (fun v : V4 I32 => coord v) IV4.make := by
  refine ⟨fun b p => ⟨⟨p 0, p 1, p 2, p 3⟩, by cases b <;> rfl, fun i => by fin_cases i <;> rfl⟩,
    fun b p v h => ?_, rfl⟩
  have : IV4.make b (some p) = .ok ⟨p 0, p 1, p 2, p 3⟩ := by cases b <;> rfl
  rw [this]
  congr 1
  exact coord_inj4.1 fun i => by
    have := h i
    fin_cases i <;> exact this.symm

/-- C08 for `quat`: `make_quat`. -/
theorem C08_quat_make : MakeSpec (fun v : Quat α => coord v) Quat.make := by
  refine ⟨fun b p => ⟨⟨p 0, p 1, p 2, p 3⟩, by cases b <;> rfl, fun i => by fin_cases i <;> rfl⟩,
    fun b p v h => ?_, rfl⟩
  have : Quat.make b (some p) = .ok ⟨p 0, p 1, p 2, p 3⟩ := by cases b <;> rfl
  rw [this]
  congr 1
  exact coord_injQ.1 fun i => by
    have := h i
    fin_cases i <;> exact this.symm

/-- C08 for `mat2`: memory order. -/
theorem C08_mat2_value_ptr (m : M2 α) : PtrSpec (M2.value_ptr m) (colMajor m) := by
  refine ⟨fun i => by fin_cases i <;> rfl, fun i h => ?_, fun i a => by fin_cases i <;> rfl,
    fun i a h => ?_⟩
  · simp [Ptr.read, M2.value_ptr, M2.layout, V2.layout, List.getElem?_eq_none, h]
  · simp [Ptr.write, M2.value_ptr, M2.layout, V2.layout]; omega

/-- C08 for `mat2`: `make_mat2`. -/
theorem C08_mat2_make : MakeSpec (fun m : M2 α => colMajor m) M2.make := by
  refine ⟨fun b p => ⟨M2.ofFloats (p 0) (p 1) (p 2) (p 3),
    by cases b <;> rfl, fun i => by fin_cases i <;> rfl⟩, fun b p v h => ?_, rfl⟩
  have : M2.make b (some p) = .ok (M2.ofFloats (p 0) (p 1) (p 2) (p 3)) := by
    cases b <;> rfl
  rw [this]
  congr 1
  refine entry_inj2.1 fun c r => ?_
  have := h (finProdFinEquiv (c, r))
  fin_cases c <;> fin_cases r <;> exact this.symm

/-- C08 for `mat3`: memory order. -/
theorem C08_mat3_value_ptr (m : M3 α) : PtrSpec (M3.value_ptr m) (colMajor m) := by
  refine ⟨fun i => by fin_cases i <;> rfl, fun i h => ?_, fun i a => by fin_cases i <;> rfl,
    fun i a h => ?_⟩
  · simp [Ptr.read, M3.value_ptr, M3.layout, V3.layout, List.getElem?_eq_none, h]
  · simp [Ptr.write, M3.value_ptr, M3.layout, V3.layout]; omega

/-- C08 for `mat3`: `make_mat3`. -/
theorem C08_mat3_make : MakeSpec (fun m : M3 α => colMajor m) M3.make := by
  refine ⟨fun b p => ⟨M3.ofFloats (p 0) (p 1) (p 2) (p 3) (p 4) (p 5) (p 6) (p 7) (p 8),
    by cases b <;> rfl, fun i => by fin_cases i <;> rfl⟩, fun b p v h => ?_, rfl⟩
  have : M3.make b (some p) = .ok (M3.ofFloats (p 0) (p 1) (p 2) (p 3) (p 4) (p 5) (p 6) (p 7) (p 8)) := by
    cases b <;> rfl
  rw [this]
  congr 1
  refine entry_inj3.1 fun c r => ?_
  have := h (finProdFinEquiv (c, r))
  fin_cases c <;> fin_cases r <;> exact this.symm

/-- C08 for `mat4`: memory order. -/
theorem C08_mat4_value_ptr (m : M4 α) : PtrSpec (M4.value_ptr m) (colMajor m) := by
  refine ⟨fun i => by fin_cases i <;> rfl, fun i h => ?_, fun i a => by fin_cases i <;> rfl,
    fun i a h => ?_⟩
  · simp [Ptr.read, M4.value_ptr, M4.layout, V4.layout, List.getElem?_eq_none, h]
  · simp [Ptr.write, M4.value_ptr, M4.layout, V4.layout]; omega

/-- C08 for `mat4`: `make_mat4`. -/
theorem C08_mat4_make : MakeSpec (fun m : M4 α => colMajor m) M4.make := by
  refine ⟨fun b p => ⟨M4.ofFloats (p 0) (p 1) (p 2) (p 3) (p 4) (p 5) (p 6) (p 7) (p 8) (p 9) (p 10) (p 11) (p 12) (p 13) (p 14) (p 15),
    by cases b <;> rfl, fun i => by fin_cases i <;> rfl⟩, fun b p v h => ?_, rfl⟩
  have : M4.make b (some p) = .ok (M4.ofFloats (p 0) (p 1) (p 2) (p 3) (p 4) (p 5) (p 6) (p 7) (p 8) (p 9) (p 10) (p 11) (p 12) (p 13) (p 14) (p 15)) := by
    cases b <;> rfl
  rw [this]
  congr 1
  refine entry_inj4.1 fun c r => ?_
  have := h (finProdFinEquiv (c, r))
  fin_cases c <;> fin_cases r <;> exact this.symm

/-- The round trip for `mat3` spelled out: whatever array the pointer of `m` reads as. -/
theorem C08_mat3_roundtrip (b : Build) (m : M3 α) (p : ℕ → α)
    (h : ∀ i, i < 9 → (M3.value_ptr m).read i = .ok (p i)) : M3.make b (some p) = .ok m := by
  refine C08_mat3_make.2.1 b p m fun i => ?_
  have h1 := (C08_mat3_value_ptr m).1 i
  rw [h i i.2] at h1
  exact (Res.ok.inj h1).symm

/-- Non-vacuity: the array `1 … 9` and the matrix with columns `123`, `456`, `789`. -/
example : M3.make .debug (some fun i => i + 1) =
    .ok (⟨⟨1, 2, 3⟩, ⟨4, 5, 6⟩, ⟨7, 8, 9⟩⟩ : M3 ℕ) := rfl

end Zcm
