import Verif.Spec.Coord
import Verif.Model.Matrix

/-!
# C02: compound assignment equals the binary operator, also when aliased

`vec`, `ivec` and `bvec` operators take their operand by value, so the aliased call `a op= a` is
the case `b = a`.  `mat` and `quat` take it by reference: the theorems are about a store `σ`,
the target address `t` and the operand address `s`, with `t = s` allowed; they also say that no
other object changes.
-/

namespace Zcm

section vec
variable {α : Type} [Add α] [Sub α] [Mul α] [Div α]

/-- C02 for `vec2`, vector and scalar right-hand sides. -/
theorem C02_vec2 (a b : V2 α) (s : α) :
    V2.addAssign a b = a + b ∧
    V2.addAssignS a s = a + s ∧
    V2.subAssign a b = a - b ∧
    V2.subAssignS a s = a - s ∧
    V2.mulAssign a b = a * b ∧
    V2.mulAssignS a s = a * s ∧
    V2.divAssign a b = a / b ∧
    V2.divAssignS a s = a / s :=
  ⟨rfl, rfl, rfl, rfl, rfl, rfl, rfl, rfl⟩

/-- C02 for `vec3`, vector and scalar right-hand sides. -/
theorem C02_vec3 (a b : V3 α) (s : α) :
    V3.addAssign a b = a + b ∧
    V3.addAssignS a s = a + s ∧
    V3.subAssign a b = a - b ∧
    V3.subAssignS a s = a - s ∧
    V3.mulAssign a b = a * b ∧
    V3.mulAssignS a s = a * s ∧
    V3.divAssign a b = a / b ∧
    V3.divAssignS a s = a / s :=
  ⟨rfl, rfl, rfl, rfl, rfl, rfl, rfl, rfl⟩

/-- C02 for `vec4`, vector and scalar right-hand sides. -/
theorem C02_vec4 (a b : V4 α) (s : α) :
    V4.addAssign a b = a + b ∧
    V4.addAssignS a s = a + s ∧
    V4.subAssign a b = a - b ∧
    V4.subAssignS a s = a - s ∧
    V4.mulAssign a b = a * b ∧
    V4.mulAssignS a s = a * s ∧
    V4.divAssign a b = a / b ∧
    V4.divAssignS a s = a / s :=
  ⟨rfl, rfl, rfl, rfl, rfl, rfl, rfl, rfl⟩

end vec

/-- C02 for `ivec2`: same value, and undefined in exactly the same cases. -/
theorem C02_ivec2 (a b : V2 I32) (s : I32) :
    IV2.addAssign a b = IV2.add a b ∧
    IV2.addAssignS a s = IV2.addS a s ∧
    IV2.subAssign a b = IV2.sub a b ∧
    IV2.subAssignS a s = IV2.subS a s ∧
    IV2.mulAssign a b = IV2.mul a b ∧
    IV2.mulAssignS a s = IV2.mulS a s ∧
    IV2.divAssign a b = IV2.div a b ∧
    IV2.divAssignS a s = IV2.divS a s ∧
    IV2.modAssign a b = IV2.mod a b ∧
    IV2.modAssignS a s = IV2.modS a s ∧
    IV2.orAssign a b = IV2.or a b ∧
    IV2.orAssignS a s = IV2.orS a s ∧
    IV2.andAssign a b = IV2.and a b ∧
    IV2.andAssignS a s = IV2.andS a s ∧
    IV2.xorAssign a b = IV2.xor a b ∧
    IV2.xorAssignS a s = IV2.xorS a s ∧
    IV2.shrAssign a b = IV2.shr a b ∧
    IV2.shrAssignS a s = IV2.shrS a s ∧
    IV2.shlAssign a b = IV2.shl a b ∧
    IV2.shlAssignS a s = IV2.shlS a s :=
  ⟨rfl, rfl, rfl, rfl, rfl, rfl, rfl, rfl, rfl, rfl, rfl, rfl, rfl, rfl, rfl, rfl, rfl, rfl, rfl, rfl⟩

/-- C02 for `ivec3`: same value, and undefined in exactly the same cases. -/
theorem C02_ivec3 (a b : V3 I32) (s : I32) :
    IV3.addAssign a b = IV3.add a b ∧
    IV3.addAssignS a s = IV3.addS a s ∧
    IV3.subAssign a b = IV3.sub a b ∧
    IV3.subAssignS a s = IV3.subS a s ∧
    IV3.mulAssign a b = IV3.mul a b ∧
    IV3.mulAssignS a s = IV3.mulS a s ∧
    IV3.divAssign a b = IV3.div a b ∧
    IV3.divAssignS a s = IV3.divS a s ∧
    IV3.modAssign a b = IV3.mod a b ∧
    IV3.modAssignS a s = IV3.modS a s ∧
    IV3.orAssign a b = IV3.or a b ∧
    IV3.orAssignS a s = IV3.orS a s ∧
    IV3.andAssign a b = IV3.and a b ∧
    IV3.andAssignS a s = IV3.andS a s ∧
    IV3.xorAssign a b = IV3.xor a b ∧
    IV3.xorAssignS a s = IV3.xorS a s ∧
    IV3.shrAssign a b = IV3.shr a b ∧
    IV3.shrAssignS a s = IV3.shrS a s ∧
    IV3.shlAssign a b = IV3.shl a b ∧
    IV3.shlAssignS a s = IV3.shlS a s :=
  ⟨rfl, rfl, rfl, rfl, rfl, rfl, rfl, rfl, rfl, rfl, rfl, rfl, rfl, rfl, rfl, rfl, rfl, rfl, rfl, rfl⟩

/-- C02 for `ivec4`: same value, and undefined in exactly the same cases. -/
theorem C02_ivec4 (a b : V4 I32) (s : I32) :
    IV4.addAssign a b = IV4.add a b ∧
    IV4.addAssignS a s = IV4.addS a s ∧
    IV4.subAssign a b = IV4.sub a b ∧
    IV4.subAssignS a s = IV4.subS a s ∧
    IV4.mulAssign a b = IV4.mul a b ∧
    IV4.mulAssignS a s = IV4.mulS a s ∧
    IV4.divAssign a b = IV4.div a b ∧
    IV4.divAssignS a s = IV4.divS a s :=
  ⟨rfl, rfl, rfl, rfl, rfl, rfl, rfl, rfl⟩

/-- C02 for `bvec2`: `&= |= ^=` against `&& || ^`. -/
theorem C02_bvec2 (a b : V2 Bool) (s : Bool) :
    BV2.andAssign a b = BV2.and a b ∧
    BV2.andAssignS a s = BV2.andS a s ∧
    BV2.orAssign a b = BV2.or a b ∧
    BV2.orAssignS a s = BV2.orS a s ∧
    BV2.xorAssign a b = BV2.xor a b ∧
    BV2.xorAssignS a s = BV2.xorS a s :=
  ⟨rfl, rfl, rfl, rfl, rfl, rfl⟩

/-- C02 for `bvec3`: `&= |= ^=` against `&& || ^`. -/
theorem C02_bvec3 (a b : V3 Bool) (s : Bool) :
    BV3.andAssign a b = BV3.and a b ∧
    BV3.andAssignS a s = BV3.andS a s ∧
    BV3.orAssign a b = BV3.or a b ∧
    BV3.orAssignS a s = BV3.orS a s ∧
    BV3.xorAssign a b = BV3.xor a b ∧
    BV3.xorAssignS a s = BV3.xorS a s :=
  ⟨rfl, rfl, rfl, rfl, rfl, rfl⟩

/-- C02 for `bvec4`: `&= |= ^=` against `&& || ^`. -/
theorem C02_bvec4 (a b : V4 Bool) (s : Bool) :
    BV4.andAssign a b = BV4.and a b ∧
    BV4.andAssignS a s = BV4.andS a s ∧
    BV4.orAssign a b = BV4.or a b ∧
    BV4.orAssignS a s = BV4.orS a s ∧
    BV4.xorAssign a b = BV4.xor a b ∧
    BV4.xorAssignS a s = BV4.xorS a s :=
  ⟨rfl, rfl, rfl, rfl, rfl, rfl⟩

section ref
variable {α : Type} [Add α] [Sub α] [Mul α] [Div α] [Neg α] [FloatOps α]

/-- "After the statement the object at `t` holds `v` and every other object is unchanged." -/
def Stored {β : Type} (before after : Store β) (t : ℕ) (v : β) : Prop :=
  after t = v ∧ ∀ u, u ≠ t → after u = before u

private theorem stored_update {β : Type} (σ : Store β) (t : ℕ) (v : β) :
    Stored σ (Function.update σ t v) t v :=
  ⟨Function.update_self .., fun _ h => Function.update_of_ne h ..⟩

/-- C02 for `mat2`: `t` and `s` may be the same object. -/
theorem C02_mat2 (σ : Store (M2 α)) (t s : ℕ) :
    Stored σ (M2.addAssign σ t s) t (σ t + σ s) ∧
    Stored σ (M2.subAssign σ t s) t (σ t - σ s) ∧
    Stored σ (M2.mulAssign σ t s) t (σ t * σ s) ∧
    Stored σ (M2.divAssign σ t s) t (σ t / σ s) :=
  ⟨stored_update .., stored_update .., stored_update .., stored_update ..⟩

/-- C02 for `mat3`: `t` and `s` may be the same object. -/
theorem C02_mat3 (σ : Store (M3 α)) (t s : ℕ) :
    Stored σ (M3.addAssign σ t s) t (σ t + σ s) ∧
    Stored σ (M3.subAssign σ t s) t (σ t - σ s) ∧
    Stored σ (M3.mulAssign σ t s) t (σ t * σ s) ∧
    Stored σ (M3.divAssign σ t s) t (σ t / σ s) :=
  ⟨stored_update .., stored_update .., stored_update .., stored_update ..⟩

/-- C02 for `mat4`: `t` and `s` may be the same object. -/
theorem C02_mat4 (σ : Store (M4 α)) (t s : ℕ) :
    Stored σ (M4.addAssign σ t s) t (σ t + σ s) ∧
    Stored σ (M4.subAssign σ t s) t (σ t - σ s) ∧
    Stored σ (M4.mulAssign σ t s) t (σ t * σ s) ∧
    Stored σ (M4.divAssign σ t s) t (σ t / σ s) :=
  ⟨stored_update .., stored_update .., stored_update .., stored_update ..⟩

/-- C02 for `quat`, by-reference operand: `t` and `s` may be the same object. -/
theorem C02_quat (σ : Store (Quat α)) (t s : ℕ) :
    Stored σ (Quat.addAssign σ t s) t (σ t + σ s) ∧
    Stored σ (Quat.subAssign σ t s) t (σ t - σ s) ∧
    Stored σ (Quat.mulAssign σ t s) t (σ t * σ s) := by
  refine ⟨⟨?_, ?_⟩, ⟨?_, ?_⟩, ⟨?_, ?_⟩⟩
  · by_cases h : s = t
    · subst h; simp [Quat.addAssign]; rfl
    · simp [Quat.addAssign, Function.update_of_ne h]; rfl
  · intro u hu; simp [Quat.addAssign, Function.update_of_ne hu]
  · by_cases h : s = t
    · subst h; simp [Quat.subAssign]; rfl
    · simp [Quat.subAssign, Function.update_of_ne h]; rfl
  · intro u hu; simp [Quat.subAssign, Function.update_of_ne hu]
  · simp only [Quat.mulAssign, Function.update_self]; rfl
  · intro u hu; simp [Quat.mulAssign, Function.update_of_ne hu]

/-- C02 for `quat` with a scalar right-hand side. -/
theorem C02_quat_scalar (a : Quat α) (s : α) :
    Quat.mulAssignS a s = a * s ∧ Quat.divAssignS a s = a / s := ⟨rfl, rfl⟩

end ref

/-- Non-vacuity: an aliased `v += v` and an aliased integer `*=` without overflow. -/
example : V2.addAssign (⟨3, 4⟩ : V2 ℤ) ⟨3, 4⟩ = ⟨6, 8⟩ ∧
    IV2.mulAssign ⟨I32.lit 3, I32.lit (-4)⟩ ⟨I32.lit 3, I32.lit (-4)⟩ =
      .ok ⟨I32.lit 9, I32.lit 16⟩ := by decide +kernel

end Zcm
