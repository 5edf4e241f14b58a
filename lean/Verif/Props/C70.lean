import Verif.Spec.Coord
import Verif.Lemmas.F32Bits
import Verif.Model.IVec
import Verif.Model.BVec
import Verif.Model.Hash
import Verif.Model.Mat

/-!
# C70: equal values have equal hashes

True for integers and booleans.  False for floats (`C70_*_false`): 0.0 and -0.0 are equal and have
different hashes.  True for floats other than zeros (`C70_*_partial`).
-/

namespace Zcm

/-- C70 for `int` and `bool`. -/
theorem C70_int (a b : I32) (h : (a == b) = true) : I.hash a = I.hash b := by
  rw [beq_iff_eq] at h; rw [h]

/-- C70 for `bool`. -/
theorem C70_bool (a b : Bool) (h : (a == b) = true) : B.hash a = B.hash b := by
  rw [beq_iff_eq] at h; rw [h]

/-- C70 for `ivec2`. -/
theorem C70_ivec2 (a b : V2 I32) (h : IV2.eq a b = true) : IV2.hash a = IV2.hash b := by
  simp only [IV2.eq, Bool.and_eq_true, beq_iff_eq] at h
  have e : a = b := by
    ext <;> simp [h]
  rw [e]

/-- C70 for `bvec2`. -/
theorem C70_bvec2 (a b : V2 Bool) (h : BV2.eq a b = true) : BV2.hash a = BV2.hash b := by
  simp only [BV2.eq, Bool.and_eq_true, beq_iff_eq] at h
  have e : a = b := by
    ext <;> simp [h]
  rw [e]

/-- C70 for `ivec3`. -/
theorem C70_ivec3 (a b : V3 I32) (h : IV3.eq a b = true) : IV3.hash a = IV3.hash b := by
  simp only [IV3.eq, Bool.and_eq_true, beq_iff_eq] at h
  have e : a = b := by
    ext <;> simp [h]
  rw [e]

/-- C70 for `bvec3`. -/
theorem C70_bvec3 (a b : V3 Bool) (h : BV3.eq a b = true) : BV3.hash a = BV3.hash b := by
  simp only [BV3.eq, Bool.and_eq_true, beq_iff_eq] at h
  have e : a = b := by
    ext <;> simp [h]
  rw [e]

/-- C70 for `ivec4`. -/
theorem C70_ivec4 (a b : V4 I32) (h : IV4.eq a b = true) : IV4.hash a = IV4.hash b := by
  simp only [IV4.eq, Bool.and_eq_true, beq_iff_eq] at h
  have e : a = b := by
    ext <;> simp [h]
  rw [e]

/-- C70 for `bvec4`. -/
theorem C70_bvec4 (a b : V4 Bool) (h : BV4.eq a b = true) : BV4.hash a = BV4.hash b := by
  simp only [BV4.eq, Bool.and_eq_true, beq_iff_eq] at h
  have e : a = b := by
    ext <;> simp [h]
  rw [e]

example : IV2.eq (⟨⟨3#32⟩, ⟨4#32⟩⟩ : V2 I32) ⟨⟨3#32⟩, ⟨4#32⟩⟩ = true := by decide

/-- -0.0 -/
def negZero : F32 := -(lit 0)

/-- C70, defect: 0.0 == -0.0, but their hashes differ. -/
theorem C70_float_false : ((lit 0 : F32) == negZero) = true ∧ F.hash (lit 0 : F32) ≠ F.hash negZero := by
  decide +kernel

/-- C70 for floats other than zeros. Missing: the two zeros (`C70_float_false`). -/
theorem C70_float_partial (a b : F32) (h : (a == b) = true) (h0 : (a == lit 0) = false) :
    F.hash a = F.hash b := by
  rw [F32.bits_of_beq h (by rw [h0]; simp)]

example : ((lit 1 : F32) == lit 1) = true ∧ ((lit 1 : F32) == lit 0) = false := by decide +kernel

/-- C70, defect: the same for `vec2`. -/
theorem C70_vec2_false :
    V2.eq (⟨lit 0, lit 0⟩ : V2 F32) ⟨negZero, lit 0⟩ = true ∧
    V2.hash (⟨lit 0, lit 0⟩ : V2 F32) ≠ V2.hash ⟨negZero, lit 0⟩ := by
  decide +kernel

/-- C70 for `vec2` without zero components. Missing: zero components (`C70_vec2_false`). -/
theorem C70_vec2_partial (a b : V2 F32) (h : V2.eq a b = true)
    (h0 : ∀ i, (coord a i == lit 0) = false) : V2.hash a = V2.hash b := by
  simp only [V2.eq, Bool.and_eq_true] at h
  have e : a = b := by
    ext1
    · exact F32.bits_of_beq (by simp only [h]) (by rw [show (a.x == lit 0) = false from h0 0]; simp)
    · exact F32.bits_of_beq (by simp only [h]) (by rw [show (a.y == lit 0) = false from h0 1]; simp)
  rw [e]

/-- C70, defect: the same for `vec3`. -/
theorem C70_vec3_false :
    V3.eq (⟨lit 0, lit 0, lit 0⟩ : V3 F32) ⟨negZero, lit 0, lit 0⟩ = true ∧
    V3.hash (⟨lit 0, lit 0, lit 0⟩ : V3 F32) ≠ V3.hash ⟨negZero, lit 0, lit 0⟩ := by
  decide +kernel

/-- C70 for `vec3` without zero components. Missing: zero components (`C70_vec3_false`). -/
theorem C70_vec3_partial (a b : V3 F32) (h : V3.eq a b = true)
    (h0 : ∀ i, (coord a i == lit 0) = false) : V3.hash a = V3.hash b := by
  simp only [V3.eq, Bool.and_eq_true] at h
  have e : a = b := by
    ext1
    · exact F32.bits_of_beq (by simp only [h]) (by rw [show (a.x == lit 0) = false from h0 0]; simp)
    · exact F32.bits_of_beq (by simp only [h]) (by rw [show (a.y == lit 0) = false from h0 1]; simp)
    · exact F32.bits_of_beq (by simp only [h]) (by rw [show (a.z == lit 0) = false from h0 2]; simp)
  rw [e]

/-- C70, defect: the same for `vec4`. -/
theorem C70_vec4_false :
    V4.eq (⟨lit 0, lit 0, lit 0, lit 0⟩ : V4 F32) ⟨negZero, lit 0, lit 0, lit 0⟩ = true ∧
    V4.hash (⟨lit 0, lit 0, lit 0, lit 0⟩ : V4 F32) ≠ V4.hash ⟨negZero, lit 0, lit 0, lit 0⟩ := by
  decide +kernel

/-- C70 for `vec4` without zero components. Missing: zero components (`C70_vec4_false`). -/
theorem C70_vec4_partial (a b : V4 F32) (h : V4.eq a b = true)
    (h0 : ∀ i, (coord a i == lit 0) = false) : V4.hash a = V4.hash b := by
  simp only [V4.eq, Bool.and_eq_true] at h
  have e : a = b := by
    ext1
    · exact F32.bits_of_beq (by simp only [h]) (by rw [show (a.x == lit 0) = false from h0 0]; simp)
    · exact F32.bits_of_beq (by simp only [h]) (by rw [show (a.y == lit 0) = false from h0 1]; simp)
    · exact F32.bits_of_beq (by simp only [h]) (by rw [show (a.z == lit 0) = false from h0 2]; simp)
    · exact F32.bits_of_beq (by simp only [h]) (by rw [show (a.w == lit 0) = false from h0 3]; simp)
  rw [e]

/-- C70, defect: the same for `quat`. -/
theorem C70_quat_false :
    Quat.eq (⟨lit 0, lit 0, lit 0, lit 0⟩ : Quat F32) ⟨negZero, lit 0, lit 0, lit 0⟩ = true ∧
    Quat.hash (⟨lit 0, lit 0, lit 0, lit 0⟩ : Quat F32) ≠ Quat.hash ⟨negZero, lit 0, lit 0, lit 0⟩ := by
  decide +kernel

/-- C70 for `quat` without zero components. Missing: zero components (`C70_quat_false`). -/
theorem C70_quat_partial (a b : Quat F32) (h : Quat.eq a b = true)
    (h0 : ∀ i, (coord a i == lit 0) = false) : Quat.hash a = Quat.hash b := by
  simp only [Quat.eq, Bool.and_eq_true] at h
  have e : a = b := by
    ext1
    · exact F32.bits_of_beq (by simp only [h]) (by rw [show (a.x == lit 0) = false from h0 0]; simp)
    · exact F32.bits_of_beq (by simp only [h]) (by rw [show (a.y == lit 0) = false from h0 1]; simp)
    · exact F32.bits_of_beq (by simp only [h]) (by rw [show (a.z == lit 0) = false from h0 2]; simp)
    · exact F32.bits_of_beq (by simp only [h]) (by rw [show (a.w == lit 0) = false from h0 3]; simp)
  rw [e]

/-- C70, defect: the same for `mat2`. -/
theorem C70_mat2_false :
    M2.eq (⟨⟨lit 0, lit 0⟩, ⟨lit 0, lit 0⟩⟩ : M2 F32) ⟨⟨negZero, lit 0⟩, ⟨lit 0, lit 0⟩⟩ = true ∧
    M2.hash (⟨⟨lit 0, lit 0⟩, ⟨lit 0, lit 0⟩⟩ : M2 F32) ≠ M2.hash ⟨⟨negZero, lit 0⟩, ⟨lit 0, lit 0⟩⟩ := by
  decide +kernel

/-- C70 for `mat2` without zero entries. Missing: zero entries (`C70_mat2_false`). -/
theorem C70_mat2_partial (a b : M2 F32) (h : M2.eq a b = true)
    (h0 : ∀ c r, (entry a c r == lit 0) = false) : M2.hash a = M2.hash b := by
  simp only [M2.eq, V2.eq, Bool.and_eq_true] at h
  have e : a = b := by
    ext
    · exact F32.bits_of_beq (by simp only [h])
        (by rw [show (a.c0.x == lit 0) = false from h0 0 0]; simp)
    · exact F32.bits_of_beq (by simp only [h])
        (by rw [show (a.c0.y == lit 0) = false from h0 0 1]; simp)
    · exact F32.bits_of_beq (by simp only [h])
        (by rw [show (a.c1.x == lit 0) = false from h0 1 0]; simp)
    · exact F32.bits_of_beq (by simp only [h])
        (by rw [show (a.c1.y == lit 0) = false from h0 1 1]; simp)
  rw [e]

/-- C70, defect: the same for `mat3`. -/
theorem C70_mat3_false :
    M3.eq (⟨⟨lit 0, lit 0, lit 0⟩, ⟨lit 0, lit 0, lit 0⟩, ⟨lit 0, lit 0, lit 0⟩⟩ : M3 F32) ⟨⟨negZero, lit 0, lit 0⟩, ⟨lit 0, lit 0, lit 0⟩, ⟨lit 0, lit 0, lit 0⟩⟩ = true ∧
    M3.hash (⟨⟨lit 0, lit 0, lit 0⟩, ⟨lit 0, lit 0, lit 0⟩, ⟨lit 0, lit 0, lit 0⟩⟩ : M3 F32) ≠ M3.hash ⟨⟨negZero, lit 0, lit 0⟩, ⟨lit 0, lit 0, lit 0⟩, ⟨lit 0, lit 0, lit 0⟩⟩ := by
  decide +kernel

/-- C70 for `mat3` without zero entries. Missing: zero entries (`C70_mat3_false`). -/
theorem C70_mat3_partial (a b : M3 F32) (h : M3.eq a b = true)
    (h0 : ∀ c r, (entry a c r == lit 0) = false) : M3.hash a = M3.hash b := by
  simp only [M3.eq, V3.eq, Bool.and_eq_true] at h
  have e : a = b := by
    ext
    · exact F32.bits_of_beq (by simp only [h])
        (by rw [show (a.c0.x == lit 0) = false from h0 0 0]; simp)
    · exact F32.bits_of_beq (by simp only [h])
        (by rw [show (a.c0.y == lit 0) = false from h0 0 1]; simp)
    · exact F32.bits_of_beq (by simp only [h])
        (by rw [show (a.c0.z == lit 0) = false from h0 0 2]; simp)
    · exact F32.bits_of_beq (by simp only [h])
        (by rw [show (a.c1.x == lit 0) = false from h0 1 0]; simp)
    · exact F32.bits_of_beq (by simp only [h])
        (by rw [show (a.c1.y == lit 0) = false from h0 1 1]; simp)
    · exact F32.bits_of_beq (by simp only [h])
        (by rw [show (a.c1.z == lit 0) = false from h0 1 2]; simp)
    · exact F32.bits_of_beq (by simp only [h])
        (by rw [show (a.c2.x == lit 0) = false from h0 2 0]; simp)
    · exact F32.bits_of_beq (by simp only [h])
        (by rw [show (a.c2.y == lit 0) = false from h0 2 1]; simp)
    · exact F32.bits_of_beq (by simp only [h])
        (by rw [show (a.c2.z == lit 0) = false from h0 2 2]; simp)
  rw [e]

/-- C70, defect: the same for `mat4`. -/
theorem C70_mat4_false :
    M4.eq (⟨⟨lit 0, lit 0, lit 0, lit 0⟩, ⟨lit 0, lit 0, lit 0, lit 0⟩, ⟨lit 0, lit 0, lit 0, lit 0⟩, ⟨lit 0, lit 0, lit 0, lit 0⟩⟩ : M4 F32) ⟨⟨negZero, lit 0, lit 0, lit 0⟩, ⟨lit 0, lit 0, lit 0, lit 0⟩, ⟨lit 0, lit 0, lit 0, lit 0⟩, ⟨lit 0, lit 0, lit 0, lit 0⟩⟩ = true ∧
    M4.hash (⟨⟨lit 0, lit 0, lit 0, lit 0⟩, ⟨lit 0, lit 0, lit 0, lit 0⟩, ⟨lit 0, lit 0, lit 0, lit 0⟩, ⟨lit 0, lit 0, lit 0, lit 0⟩⟩ : M4 F32) ≠ M4.hash ⟨⟨negZero, lit 0, lit 0, lit 0⟩, ⟨lit 0, lit 0, lit 0, lit 0⟩, ⟨lit 0, lit 0, lit 0, lit 0⟩, ⟨lit 0, lit 0, lit 0, lit 0⟩⟩ := by
  decide +kernel

/-- C70 for `mat4` without zero entries. Missing: zero entries (`C70_mat4_false`). -/
theorem C70_mat4_partial (a b : M4 F32) (h : M4.eq a b = true)
    (h0 : ∀ c r, (entry a c r == lit 0) = false) : M4.hash a = M4.hash b := by
  simp only [M4.eq, V4.eq, Bool.and_eq_true] at h
  have e : a = b := by
    ext
    · exact F32.bits_of_beq (by simp only [h])
        (by rw [show (a.c0.x == lit 0) = false from h0 0 0]; simp)
    · exact F32.bits_of_beq (by simp only [h])
        (by rw [show (a.c0.y == lit 0) = false from h0 0 1]; simp)
    · exact F32.bits_of_beq (by simp only [h])
        (by rw [show (a.c0.z == lit 0) = false from h0 0 2]; simp)
    · exact F32.bits_of_beq (by simp only [h])
        (by rw [show (a.c0.w == lit 0) = false from h0 0 3]; simp)
    · exact F32.bits_of_beq (by simp only [h])
        (by rw [show (a.c1.x == lit 0) = false from h0 1 0]; simp)
    · exact F32.bits_of_beq (by simp only [h])
        (by rw [show (a.c1.y == lit 0) = false from h0 1 1]; simp)
    · exact F32.bits_of_beq (by simp only [h])
        (by rw [show (a.c1.z == lit 0) = false from h0 1 2]; simp)
    · exact F32.bits_of_beq (by simp only [h])
        (by rw [show (a.c1.w == lit 0) = false from h0 1 3]; simp)
    · exact F32.bits_of_beq (by simp only [h])
        (by rw [show (a.c2.x == lit 0) = false from h0 2 0]; simp)
    · exact F32.bits_of_beq (by simp only [h])
        (by rw [show (a.c2.y == lit 0) = false from h0 2 1]; simp)
    · exact F32.bits_of_beq (by simp only [h])
        (by rw [show (a.c2.z == lit 0) = false from h0 2 2]; simp)
    · exact F32.bits_of_beq (by simp only [h])
        (by rw [show (a.c2.w == lit 0) = false from h0 2 3]; simp)
    · exact F32.bits_of_beq (by simp only [h])
        (by rw [show (a.c3.x == lit 0) = false from h0 3 0]; simp)
    · exact F32.bits_of_beq (by simp only [h])
        (by rw [show (a.c3.y == lit 0) = false from h0 3 1]; simp)
    · exact F32.bits_of_beq (by simp only [h])
        (by rw [show (a.c3.z == lit 0) = false from h0 3 2]; simp)
    · exact F32.bits_of_beq (by simp only [h])
        (by rw [show (a.c3.w == lit 0) = false from h0 3 3]; simp)
  rw [e]

end Zcm
