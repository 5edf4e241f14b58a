import Verif.Spec.Coord

/-!
# C09: equality means equality of every component

For float types `==` on scalars is the carrier's own `==` (for floats it is not reflexive at NaN),
so the statement is an equivalence with componentwise `==` for every carrier.  On `ivec` and `bvec`
it is identity of values, hence an equivalence relation.
-/

set_option linter.unusedSimpArgs false

namespace Zcm

variable {α : Type} [BEq α]

/-- C09 for `vec2`. -/
theorem C09_vec2 (a b : V2 α) :
    (V2.eq a b = true ↔ ∀ i, (coord a i == coord b i) = true) ∧ (V2.ne a b = true ↔ ¬ V2.eq a b = true) := by
  refine ⟨?_, by simp [V2.ne]⟩
  simp [V2.eq, Fin.forall_fin_succ, coord, and_assoc]

/-- C09 for `vec3`. -/
theorem C09_vec3 (a b : V3 α) :
    (V3.eq a b = true ↔ ∀ i, (coord a i == coord b i) = true) ∧ (V3.ne a b = true ↔ ¬ V3.eq a b = true) := by
  refine ⟨?_, by simp [V3.ne]⟩
  simp [V3.eq, Fin.forall_fin_succ, coord, and_assoc]

/-- C09 for `vec4`. -/
theorem C09_vec4 (a b : V4 α) :
    (V4.eq a b = true ↔ ∀ i, (coord a i == coord b i) = true) ∧ (V4.ne a b = true ↔ ¬ V4.eq a b = true) := by
  refine ⟨?_, by simp [V4.ne]⟩
  simp [V4.eq, Fin.forall_fin_succ, coord, and_assoc]

/-- C09 for `quat`. -/
theorem C09_quat (a b : Quat α) :
    (Quat.eq a b = true ↔ ∀ i, (coord a i == coord b i) = true) ∧ (Quat.ne a b = true ↔ ¬ Quat.eq a b = true) := by
  refine ⟨?_, by simp [Quat.ne]⟩
  simp [Quat.eq, Fin.forall_fin_succ, coord, and_assoc]

/-- C09 for `mat2`. -/
theorem C09_mat2 (a b : M2 α) :
    (M2.eq a b = true ↔ ∀ c r, (entry a c r == entry b c r) = true) ∧
    (M2.ne a b = true ↔ ¬ M2.eq a b = true) := by
  refine ⟨?_, by simp [M2.ne]⟩
  simp [M2.eq, V2.eq, Fin.forall_fin_succ, entry, coord, and_assoc]

/-- C09 for `mat3`. -/
theorem C09_mat3 (a b : M3 α) :
    (M3.eq a b = true ↔ ∀ c r, (entry a c r == entry b c r) = true) ∧
    (M3.ne a b = true ↔ ¬ M3.eq a b = true) := by
  refine ⟨?_, by simp [M3.ne]⟩
  simp [M3.eq, V3.eq, Fin.forall_fin_succ, entry, coord, and_assoc]

/-- C09 for `mat4`. -/
theorem C09_mat4 (a b : M4 α) :
    (M4.eq a b = true ↔ ∀ c r, (entry a c r == entry b c r) = true) ∧
    (M4.ne a b = true ↔ ¬ M4.eq a b = true) := by
  refine ⟨?_, by simp [M4.ne]⟩
  simp [M4.eq, V4.eq, Fin.forall_fin_succ, entry, coord, and_assoc]

/-- C09 for `ivec2`: `==` is identity. -/
theorem C09_ivec2 (a b : V2 I32) :
    (IV2.eq a b = true ↔ ∀ i, coord a i = coord b i) ∧ (IV2.eq a b = true ↔ a = b) ∧
    (IV2.ne a b = true ↔ ¬ IV2.eq a b = true) := by
  have h : IV2.eq a b = true ↔ ∀ i, coord a i = coord b i := by
    simp [IV2.eq, Fin.forall_fin_succ, coord, and_assoc]
  exact ⟨h, h.trans coord_inj2, by simp [IV2.ne]⟩

/-- C09 for `ivec3`: `==` is identity. -/
theorem C09_ivec3 (a b : V3 I32) :
    (IV3.eq a b = true ↔ ∀ i, coord a i = coord b i) ∧ (IV3.eq a b = true ↔ a = b) ∧
    (IV3.ne a b = true ↔ ¬ IV3.eq a b = true) := by
  have h : IV3.eq a b = true ↔ ∀ i, coord a i = coord b i := by
    simp [IV3.eq, Fin.forall_fin_succ, coord, and_assoc]
  exact ⟨h, h.trans coord_inj3, by simp [IV3.ne]⟩

/-- C09 for `ivec4`: `==` is identity. -/
theorem C09_ivec4 (a b : V4 I32) :
    (IV4.eq a b = true ↔ ∀ i, coord a i = coord b i) ∧ (IV4.eq a b = true ↔ a = b) ∧
    (IV4.ne a b = true ↔ ¬ IV4.eq a b = true) := by
  have h : IV4.eq a b = true ↔ ∀ i, coord a i = coord b i := by
    simp [IV4.eq, Fin.forall_fin_succ, coord, and_assoc]
  exact ⟨h, h.trans coord_inj4, by simp [IV4.ne]⟩

/-- C09 for `bvec2`: `==` is identity. -/
theorem C09_bvec2 (a b : V2 Bool) :
    (BV2.eq a b = true ↔ ∀ i, coord a i = coord b i) ∧ (BV2.eq a b = true ↔ a = b) ∧
    (BV2.ne a b = true ↔ ¬ BV2.eq a b = true) := by
  have h : BV2.eq a b = true ↔ ∀ i, coord a i = coord b i := by
    simp [BV2.eq, Fin.forall_fin_succ, coord, and_assoc]
  exact ⟨h, h.trans coord_inj2, by simp [BV2.ne]⟩

/-- C09 for `bvec3`: `==` is identity. -/
theorem C09_bvec3 (a b : V3 Bool) :
    (BV3.eq a b = true ↔ ∀ i, coord a i = coord b i) ∧ (BV3.eq a b = true ↔ a = b) ∧
    (BV3.ne a b = true ↔ ¬ BV3.eq a b = true) := by
  have h : BV3.eq a b = true ↔ ∀ i, coord a i = coord b i := by
    simp [BV3.eq, Fin.forall_fin_succ, coord, and_assoc]
  exact ⟨h, h.trans coord_inj3, by simp [BV3.ne]⟩

/-- C09 for `bvec4`: `==` is identity. -/
theorem C09_bvec4 (a b : V4 Bool) :
    (BV4.eq a b = true ↔ ∀ i, coord a i = coord b i) ∧ (BV4.eq a b = true ↔ a = b) ∧
    (BV4.ne a b = true ↔ ¬ BV4.eq a b = true) := by
  have h : BV4.eq a b = true ↔ ∀ i, coord a i = coord b i := by
    simp [BV4.eq, Fin.forall_fin_succ, coord, and_assoc]
  exact ⟨h, h.trans coord_inj4, by simp [BV4.ne]⟩

/-- With a carrier whose `==` decides identity (such as the exact numbers) `==` is identity. -/
theorem C09_lawful [LawfulBEq α] :
    (∀ a b : V2 α, V2.eq a b = true ↔ a = b) ∧ (∀ a b : V3 α, V3.eq a b = true ↔ a = b) ∧
    (∀ a b : V4 α, V4.eq a b = true ↔ a = b) ∧ (∀ a b : Quat α, Quat.eq a b = true ↔ a = b) ∧
    (∀ a b : M2 α, M2.eq a b = true ↔ a = b) ∧ (∀ a b : M3 α, M3.eq a b = true ↔ a = b) ∧
    (∀ a b : M4 α, M4.eq a b = true ↔ a = b) := by
  refine ⟨fun a b => ?_, fun a b => ?_, fun a b => ?_, fun a b => ?_, fun a b => ?_, fun a b => ?_,
    fun a b => ?_⟩
  · rw [(C09_vec2 a b).1, ← coord_inj2]; simp only [beq_iff_eq]
  · rw [(C09_vec3 a b).1, ← coord_inj3]; simp only [beq_iff_eq]
  · rw [(C09_vec4 a b).1, ← coord_inj4]; simp only [beq_iff_eq]
  · rw [(C09_quat a b).1, ← coord_injQ]; simp only [beq_iff_eq]
  · rw [(C09_mat2 a b).1, ← entry_inj2]; simp only [beq_iff_eq]
  · rw [(C09_mat3 a b).1, ← entry_inj3]; simp only [beq_iff_eq]
  · rw [(C09_mat4 a b).1, ← entry_inj4]; simp only [beq_iff_eq]

/-- Non-vacuity: two vectors that differ only in the last component are different. -/
example : IV4.eq ⟨⟨1⟩, ⟨2⟩, ⟨3⟩, ⟨4⟩⟩ ⟨⟨1⟩, ⟨2⟩, ⟨3⟩, ⟨4⟩⟩ = true ∧
    IV4.eq ⟨⟨1⟩, ⟨2⟩, ⟨3⟩, ⟨4⟩⟩ ⟨⟨1⟩, ⟨2⟩, ⟨3⟩, ⟨5⟩⟩ = false := by decide

end Zcm
