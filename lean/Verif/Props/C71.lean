import Verif.Spec.Coord
import Verif.Lemmas.Hash
import Verif.Model.BVec
import Verif.Model.Mat

/-!
# C71: hash depends on every component

For integers and booleans a change of one component always changes the hash.  For floats a change
of a component other than the first of a vector (or matrix column) always changes it, and a change of
the first one changes it whenever the second one is +0.0, so no component is ignored.  Except in
`mat4`, where columns 1 and 2 are (`C71_mat4_false`).
-/

namespace Zcm

/-- C71: different ints, unsigneds and bools have different hashes. -/
theorem C71_int : Function.Injective I.hash ∧ Function.Injective hashUnsigned ∧
    Function.Injective B.hash :=
  ⟨fun _ _ h => I.hash_inj h, fun _ _ h => hashUnsigned_inj h, by
    intro a b
    revert a b
    decide⟩

/-- C71: in an `ivec2` changing one component always changes the hash. -/
theorem C71_ivec2 (a b : V2 I32) (i : Fin 2) (h : coord a i ≠ coord b i)
    (hs : ∀ j, j ≠ i → coord a j = coord b j) : IV2.hash a ≠ IV2.hash b := by
  intro heq
  apply h
  apply C71_int.1
  simp only [IV2.hash] at heq
  fin_cases i
  · have h1 : a.y = b.y := hs 1 (by decide)
    rw [h1] at heq
    simp only [BitVec.xor_left_inj, BitVec.xor_right_inj] at heq
    exact heq
  · have h0 : a.x = b.x := hs 0 (by decide)
    rw [h0] at heq
    simp only [BitVec.xor_left_inj, BitVec.xor_right_inj] at heq
    exact heq

/-- C71: in an `bvec2` changing one component always changes the hash. -/
theorem C71_bvec2 (a b : V2 Bool) (i : Fin 2) (h : coord a i ≠ coord b i)
    (hs : ∀ j, j ≠ i → coord a j = coord b j) : BV2.hash a ≠ BV2.hash b := by
  intro heq
  apply h
  apply C71_int.2.2
  simp only [BV2.hash] at heq
  fin_cases i
  · have h1 : a.y = b.y := hs 1 (by decide)
    rw [h1] at heq
    simp only [BitVec.xor_left_inj, BitVec.xor_right_inj] at heq
    exact heq
  · have h0 : a.x = b.x := hs 0 (by decide)
    rw [h0] at heq
    simp only [BitVec.xor_left_inj, BitVec.xor_right_inj] at heq
    exact heq

/-- C71: in an `ivec3` changing one component always changes the hash. -/
theorem C71_ivec3 (a b : V3 I32) (i : Fin 3) (h : coord a i ≠ coord b i)
    (hs : ∀ j, j ≠ i → coord a j = coord b j) : IV3.hash a ≠ IV3.hash b := by
  intro heq
  apply h
  apply C71_int.1
  simp only [IV3.hash] at heq
  fin_cases i
  · have h1 : a.y = b.y := hs 1 (by decide)
    have h2 : a.z = b.z := hs 2 (by decide)
    rw [h1, h2] at heq
    simp only [BitVec.xor_left_inj, BitVec.xor_right_inj] at heq
    exact heq
  · have h0 : a.x = b.x := hs 0 (by decide)
    have h2 : a.z = b.z := hs 2 (by decide)
    rw [h0, h2] at heq
    simp only [BitVec.xor_left_inj, BitVec.xor_right_inj] at heq
    exact heq
  · have h0 : a.x = b.x := hs 0 (by decide)
    have h1 : a.y = b.y := hs 1 (by decide)
    rw [h0, h1] at heq
    simp only [BitVec.xor_left_inj, BitVec.xor_right_inj] at heq
    exact heq

/-- C71: in an `bvec3` changing one component always changes the hash. -/
theorem C71_bvec3 (a b : V3 Bool) (i : Fin 3) (h : coord a i ≠ coord b i)
    (hs : ∀ j, j ≠ i → coord a j = coord b j) : BV3.hash a ≠ BV3.hash b := by
  intro heq
  apply h
  apply C71_int.2.2
  simp only [BV3.hash] at heq
  fin_cases i
  · have h1 : a.y = b.y := hs 1 (by decide)
    have h2 : a.z = b.z := hs 2 (by decide)
    rw [h1, h2] at heq
    simp only [BitVec.xor_left_inj, BitVec.xor_right_inj] at heq
    exact heq
  · have h0 : a.x = b.x := hs 0 (by decide)
    have h2 : a.z = b.z := hs 2 (by decide)
    rw [h0, h2] at heq
    simp only [BitVec.xor_left_inj, BitVec.xor_right_inj] at heq
    exact heq
  · have h0 : a.x = b.x := hs 0 (by decide)
    have h1 : a.y = b.y := hs 1 (by decide)
    rw [h0, h1] at heq
    simp only [BitVec.xor_left_inj, BitVec.xor_right_inj] at heq
    exact heq

/-- C71: in an `ivec4` changing one component always changes the hash. -/
theorem C71_ivec4 (a b : V4 I32) (i : Fin 4) (h : coord a i ≠ coord b i)
    (hs : ∀ j, j ≠ i → coord a j = coord b j) : IV4.hash a ≠ IV4.hash b := by
  intro heq
  apply h
  apply C71_int.1
  simp only [IV4.hash] at heq
  fin_cases i
  · have h1 : a.y = b.y := hs 1 (by decide)
    have h2 : a.z = b.z := hs 2 (by decide)
    have h3 : a.w = b.w := hs 3 (by decide)
    rw [h1, h2, h3] at heq
    simp only [BitVec.xor_left_inj, BitVec.xor_right_inj] at heq
    exact heq
  · have h0 : a.x = b.x := hs 0 (by decide)
    have h2 : a.z = b.z := hs 2 (by decide)
    have h3 : a.w = b.w := hs 3 (by decide)
    rw [h0, h2, h3] at heq
    simp only [BitVec.xor_left_inj, BitVec.xor_right_inj] at heq
    exact heq
  · have h0 : a.x = b.x := hs 0 (by decide)
    have h1 : a.y = b.y := hs 1 (by decide)
    have h3 : a.w = b.w := hs 3 (by decide)
    rw [h0, h1, h3] at heq
    simp only [BitVec.xor_left_inj, BitVec.xor_right_inj] at heq
    exact heq
  · have h0 : a.x = b.x := hs 0 (by decide)
    have h1 : a.y = b.y := hs 1 (by decide)
    have h2 : a.z = b.z := hs 2 (by decide)
    rw [h0, h1, h2] at heq
    simp only [BitVec.xor_left_inj, BitVec.xor_right_inj] at heq
    exact heq

/-- C71: in an `bvec4` changing one component always changes the hash. -/
theorem C71_bvec4 (a b : V4 Bool) (i : Fin 4) (h : coord a i ≠ coord b i)
    (hs : ∀ j, j ≠ i → coord a j = coord b j) : BV4.hash a ≠ BV4.hash b := by
  intro heq
  apply h
  apply C71_int.2.2
  simp only [BV4.hash] at heq
  fin_cases i
  · have h1 : a.y = b.y := hs 1 (by decide)
    have h2 : a.z = b.z := hs 2 (by decide)
    have h3 : a.w = b.w := hs 3 (by decide)
    rw [h1, h2, h3] at heq
    simp only [BitVec.xor_left_inj, BitVec.xor_right_inj] at heq
    exact heq
  · have h0 : a.x = b.x := hs 0 (by decide)
    have h2 : a.z = b.z := hs 2 (by decide)
    have h3 : a.w = b.w := hs 3 (by decide)
    rw [h0, h2, h3] at heq
    simp only [BitVec.xor_left_inj, BitVec.xor_right_inj] at heq
    exact heq
  · have h0 : a.x = b.x := hs 0 (by decide)
    have h1 : a.y = b.y := hs 1 (by decide)
    have h3 : a.w = b.w := hs 3 (by decide)
    rw [h0, h1, h3] at heq
    simp only [BitVec.xor_left_inj, BitVec.xor_right_inj] at heq
    exact heq
  · have h0 : a.x = b.x := hs 0 (by decide)
    have h1 : a.y = b.y := hs 1 (by decide)
    have h2 : a.z = b.z := hs 2 (by decide)
    rw [h0, h1, h2] at heq
    simp only [BitVec.xor_left_inj, BitVec.xor_right_inj] at heq
    exact heq

/-- C71: in a `vec2` changing one component other than the first changes the hash; changing the first
one changes it whenever the second one is +0.0. -/
theorem C71_vec2 (a b : V2 F32) (i : Fin 2) (h : coord a i ≠ coord b i)
    (hs : ∀ j, j ≠ i → coord a j = coord b j) (h0 : i = 0 → coord a 1 = lit 0) :
    V2.hash a ≠ V2.hash b := by
  obtain ⟨a0, a1⟩ := a
  obtain ⟨b0, b1⟩ := b
  fin_cases i
  · obtain rfl : a1 = b1 := hs 1 (by decide)
    obtain rfl : a1 = lit 0 := h0 rfl
    exact V2.hash_x h
  · obtain rfl : a0 = b0 := hs 0 (by decide)
    exact V2.hash_y h

/-- C71: in a `vec3` changing one component other than the first changes the hash; changing the first
one changes it whenever the second one is +0.0. -/
theorem C71_vec3 (a b : V3 F32) (i : Fin 3) (h : coord a i ≠ coord b i)
    (hs : ∀ j, j ≠ i → coord a j = coord b j) (h0 : i = 0 → coord a 1 = lit 0) :
    V3.hash a ≠ V3.hash b := by
  obtain ⟨a0, a1, a2⟩ := a
  obtain ⟨b0, b1, b2⟩ := b
  fin_cases i
  · obtain rfl : a1 = b1 := hs 1 (by decide)
    obtain rfl : a2 = b2 := hs 2 (by decide)
    obtain rfl : a1 = lit 0 := h0 rfl
    exact V3.hash_x h
  · obtain rfl : a0 = b0 := hs 0 (by decide)
    obtain rfl : a2 = b2 := hs 2 (by decide)
    exact V3.hash_y h
  · obtain rfl : a0 = b0 := hs 0 (by decide)
    obtain rfl : a1 = b1 := hs 1 (by decide)
    exact V3.hash_z h

/-- C71: in a `vec4` changing one component other than the first changes the hash; changing the first
one changes it whenever the second one is +0.0. -/
theorem C71_vec4 (a b : V4 F32) (i : Fin 4) (h : coord a i ≠ coord b i)
    (hs : ∀ j, j ≠ i → coord a j = coord b j) (h0 : i = 0 → coord a 1 = lit 0) :
    V4.hash a ≠ V4.hash b := by
  obtain ⟨a0, a1, a2, a3⟩ := a
  obtain ⟨b0, b1, b2, b3⟩ := b
  fin_cases i
  · obtain rfl : a1 = b1 := hs 1 (by decide)
    obtain rfl : a2 = b2 := hs 2 (by decide)
    obtain rfl : a3 = b3 := hs 3 (by decide)
    obtain rfl : a1 = lit 0 := h0 rfl
    exact V4.hash_xyz (V3.hash_x h)
  · obtain rfl : a0 = b0 := hs 0 (by decide)
    obtain rfl : a2 = b2 := hs 2 (by decide)
    obtain rfl : a3 = b3 := hs 3 (by decide)
    exact V4.hash_xyz (V3.hash_y h)
  · obtain rfl : a0 = b0 := hs 0 (by decide)
    obtain rfl : a1 = b1 := hs 1 (by decide)
    obtain rfl : a3 = b3 := hs 3 (by decide)
    exact V4.hash_xyz (V3.hash_z h)
  · obtain rfl : a0 = b0 := hs 0 (by decide)
    obtain rfl : a1 = b1 := hs 1 (by decide)
    obtain rfl : a2 = b2 := hs 2 (by decide)
    exact V4.hash_w h

/-- C71: in a `quat` changing one component other than the first changes the hash; changing the first
one changes it whenever the second one is +0.0. -/
theorem C71_quat (a b : Quat F32) (i : Fin 4) (h : coord a i ≠ coord b i)
    (hs : ∀ j, j ≠ i → coord a j = coord b j) (h0 : i = 0 → coord a 1 = lit 0) :
    Quat.hash a ≠ Quat.hash b := by
  obtain ⟨a0, a1, a2, a3⟩ := a
  obtain ⟨b0, b1, b2, b3⟩ := b
  fin_cases i
  · obtain rfl : a1 = b1 := hs 1 (by decide)
    obtain rfl : a2 = b2 := hs 2 (by decide)
    obtain rfl : a3 = b3 := hs 3 (by decide)
    obtain rfl : a1 = lit 0 := h0 rfl
    exact V4.hash_xyz (V3.hash_x h)
  · obtain rfl : a0 = b0 := hs 0 (by decide)
    obtain rfl : a2 = b2 := hs 2 (by decide)
    obtain rfl : a3 = b3 := hs 3 (by decide)
    exact V4.hash_xyz (V3.hash_y h)
  · obtain rfl : a0 = b0 := hs 0 (by decide)
    obtain rfl : a1 = b1 := hs 1 (by decide)
    obtain rfl : a3 = b3 := hs 3 (by decide)
    exact V4.hash_xyz (V3.hash_z h)
  · obtain rfl : a0 = b0 := hs 0 (by decide)
    obtain rfl : a1 = b1 := hs 1 (by decide)
    obtain rfl : a2 = b2 := hs 2 (by decide)
    exact V4.hash_w h

example : V3.hash (⟨lit 1, lit 0, lit 2⟩ : V3 F32) ≠ V3.hash (⟨lit 3, lit 0, lit 2⟩ : V3 F32) :=
  C71_vec3 _ _ 0 (by decide +kernel) (by decide +kernel) (fun _ => rfl)

/-- C71: changing one entry of a `mat2` outside the first row changes the hash; changing one in
the first row changes it whenever the entry below it is +0.0. -/
theorem C71_mat2 (a b : M2 F32) (c r : Fin 2) (h : entry a c r ≠ entry b c r)
    (hs : ∀ c' r', (c', r') ≠ (c, r) → entry a c' r' = entry b c' r')
    (h0 : r = 0 → entry a c 1 = lit 0) : M2.hash a ≠ M2.hash b := by
  obtain ⟨a0, a1⟩ := a
  obtain ⟨b0, b1⟩ := b
  fin_cases c
  · obtain rfl : a1 = b1 := coord_inj2.1 fun r' => hs 1 r' (by simp)
    have k := C71_vec2 a0 b0 r h (fun r' hr => hs 0 r' (by simpa using hr)) h0
    simpa only [M2.hash, ne_eq, BitVec.xor_left_inj, BitVec.xor_right_inj] using k
  · obtain rfl : a0 = b0 := coord_inj2.1 fun r' => hs 0 r' (by simp)
    have k := C71_vec2 a1 b1 r h (fun r' hr => hs 1 r' (by simpa using hr)) h0
    simpa only [M2.hash, ne_eq, BitVec.xor_left_inj, BitVec.xor_right_inj] using k

/-- C71: changing one entry of a `mat3` outside the first row changes the hash; changing one in
the first row changes it whenever the entry below it is +0.0. -/
theorem C71_mat3 (a b : M3 F32) (c r : Fin 3) (h : entry a c r ≠ entry b c r)
    (hs : ∀ c' r', (c', r') ≠ (c, r) → entry a c' r' = entry b c' r')
    (h0 : r = 0 → entry a c 1 = lit 0) : M3.hash a ≠ M3.hash b := by
  obtain ⟨a0, a1, a2⟩ := a
  obtain ⟨b0, b1, b2⟩ := b
  fin_cases c
  · obtain rfl : a1 = b1 := coord_inj3.1 fun r' => hs 1 r' (by simp)
    obtain rfl : a2 = b2 := coord_inj3.1 fun r' => hs 2 r' (by simp)
    have k := C71_vec3 a0 b0 r h (fun r' hr => hs 0 r' (by simpa using hr)) h0
    simpa only [M3.hash, ne_eq, BitVec.xor_left_inj, BitVec.xor_right_inj] using k
  · obtain rfl : a0 = b0 := coord_inj3.1 fun r' => hs 0 r' (by simp)
    obtain rfl : a2 = b2 := coord_inj3.1 fun r' => hs 2 r' (by simp)
    have k := C71_vec3 a1 b1 r h (fun r' hr => hs 1 r' (by simpa using hr)) h0
    simpa only [M3.hash, ne_eq, BitVec.xor_left_inj, BitVec.xor_right_inj] using k
  · obtain rfl : a0 = b0 := coord_inj3.1 fun r' => hs 0 r' (by simp)
    obtain rfl : a1 = b1 := coord_inj3.1 fun r' => hs 1 r' (by simp)
    have k := C71_vec3 a2 b2 r h (fun r' hr => hs 2 r' (by simpa using hr)) h0
    simpa only [M3.hash, ne_eq, BitVec.xor_left_inj, BitVec.xor_right_inj] using k

/-- C71: changing one entry in column 0 or 3 of a `mat4` outside the first row changes the hash; changing one in
the first row changes it whenever the entry below it is +0.0. Missing: columns 1 and 2 (`C71_mat4_false`). -/
theorem C71_mat4_partial (a b : M4 F32) (c r : Fin 4) (hcol : c = 0 ∨ c = 3) (h : entry a c r ≠ entry b c r)
    (hs : ∀ c' r', (c', r') ≠ (c, r) → entry a c' r' = entry b c' r')
    (h0 : r = 0 → entry a c 1 = lit 0) : M4.hash a ≠ M4.hash b := by
  obtain ⟨a0, a1, a2, a3⟩ := a
  obtain ⟨b0, b1, b2, b3⟩ := b
  rcases hcol with rfl | rfl
  · obtain rfl : a1 = b1 := coord_inj4.1 fun r' => hs 1 r' (by simp)
    obtain rfl : a2 = b2 := coord_inj4.1 fun r' => hs 2 r' (by simp)
    obtain rfl : a3 = b3 := coord_inj4.1 fun r' => hs 3 r' (by simp)
    have k := C71_vec4 a0 b0 r h (fun r' hr => hs 0 r' (by simpa using hr)) h0
    simpa only [M4.hash, ne_eq, BitVec.xor_left_inj, BitVec.xor_right_inj] using k
  · obtain rfl : a0 = b0 := coord_inj4.1 fun r' => hs 0 r' (by simp)
    obtain rfl : a1 = b1 := coord_inj4.1 fun r' => hs 1 r' (by simp)
    obtain rfl : a2 = b2 := coord_inj4.1 fun r' => hs 2 r' (by simp)
    have k := C71_vec4 a3 b3 r h (fun r' hr => hs 3 r' (by simpa using hr)) h0
    simpa only [M4.hash, ne_eq, BitVec.xor_left_inj, BitVec.xor_right_inj] using k

example : M4.hash (⟨⟨lit 1, lit 0, lit 0, lit 0⟩, ⟨lit 0, lit 0, lit 0, lit 0⟩,
      ⟨lit 0, lit 0, lit 0, lit 0⟩, ⟨lit 0, lit 0, lit 0, lit 0⟩⟩ : M4 F32) ≠
    M4.hash (⟨⟨lit 2, lit 0, lit 0, lit 0⟩, ⟨lit 0, lit 0, lit 0, lit 0⟩,
      ⟨lit 0, lit 0, lit 0, lit 0⟩, ⟨lit 0, lit 0, lit 0, lit 0⟩⟩ : M4 F32) := by decide +kernel

/-- C71, defect: the hash of a `mat4` does not depend on columns 1 and 2 at all, in any arithmetic. -/
theorem C71_mat4_false {α : Type} [FloatBits α] (c0 c1 c2 c3 c1' c2' : V4 α) :
    M4.hash ⟨c0, c1, c2, c3⟩ = M4.hash ⟨c0, c1', c2', c3⟩ := by
  simp only [M4.hash, BitVec.xor_assoc]
  rw [← BitVec.xor_assoc (V4.hash c1), ← BitVec.xor_assoc (V4.hash c1'), BitVec.xor_self,
    BitVec.xor_self]

end Zcm
