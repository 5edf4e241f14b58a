import Verif.Lemmas.F32Bits
import Verif.Model.IVec

/-!
# Injectivity of the pieces of the hash functions
-/

namespace Zcm

theorem mul_const_inj {a b : BitVec 64} (h : a * 1273103906433186827#64 = b * 1273103906433186827#64) :
    a = b := by
  have e : (1273103906433186827#64) * 3248545791705542563#64 = 1#64 := by decide
  have := congrArg (· * 3248545791705542563#64) h
  simpa only [BitVec.mul_assoc, e, BitVec.mul_one] using this

theorem mul_const_inj32 {a b : BitVec 32}
    (h : a * (1273103906433186827#64).setWidth 32 = b * (1273103906433186827#64).setWidth 32) :
    a = b := by
  have e : (1273103906433186827#64).setWidth 32 * (3248545791705542563#64).setWidth 32 = 1#32 := by decide
  have := congrArg (· * (3248545791705542563#64).setWidth 32) h
  simpa only [BitVec.mul_assoc, e, BitVec.mul_one] using this

theorem mul_const_inj48 {a b : BitVec 48}
    (h : a * (1273103906433186827#64).setWidth 48 = b * (1273103906433186827#64).setWidth 48) :
    a = b := by
  have e : (1273103906433186827#64).setWidth 48 * (3248545791705542563#64).setWidth 48 = 1#48 := by decide
  have := congrArg (· * (3248545791705542563#64).setWidth 48) h
  simpa only [BitVec.mul_assoc, e, BitVec.mul_one] using this

theorem hashUnsigned_inj {a b : BitVec 32} (h : hashUnsigned a = hashUnsigned b) : a = b := by
  have h' := mul_const_inj h
  have := congrArg (BitVec.setWidth 32) h'
  simpa using this

/-- the low half of the hash is an injective function of the argument -/
theorem hashUnsigned_low_inj {a b : BitVec 32}
    (h : (hashUnsigned a).setWidth 32 = (hashUnsigned b).setWidth 32) : a = b := by
  unfold hashUnsigned at h
  rw [BitVec.setWidth_mul _ _ (by norm_num), BitVec.setWidth_mul _ _ (by norm_num)] at h
  have := mul_const_inj32 h
  simpa using this

theorem hashUnsigned_low48_inj {a b : BitVec 32}
    (h : (hashUnsigned a).setWidth 48 = (hashUnsigned b).setWidth 48) : a = b := by
  unfold hashUnsigned at h
  rw [BitVec.setWidth_mul _ _ (by norm_num), BitVec.setWidth_mul _ _ (by norm_num)] at h
  have := congrArg (BitVec.setWidth 32) (mul_const_inj48 h)
  simpa using this

theorem low_shift_or (x y : BitVec 64) : (x <<< 32 ||| y).setWidth 32 = y.setWidth 32 := by
  ext i hi
  simp [hi]

theorem shift16_inj {x y : BitVec 64} (h : x <<< 16 = y <<< 16) : x.setWidth 48 = y.setWidth 48 := by
  ext i hi
  have := congrArg (fun z => BitVec.getLsbD z (i + 16)) h
  simp only [BitVec.getLsbD_shiftLeft] at this
  simp only [BitVec.getElem_setWidth]
  have h1 : i + 16 < 64 := by omega
  have h2 : ¬ i + 16 < 16 := by omega
  simpa [h1, h2] using this

theorem shift32_inj {x y : BitVec 64} (h : x <<< 32 = y <<< 32) : x.setWidth 32 = y.setWidth 32 := by
  ext i hi
  have := congrArg (fun z => BitVec.getLsbD z (i + 32)) h
  simp only [BitVec.getLsbD_shiftLeft] at this
  simp only [BitVec.getElem_setWidth]
  have h1 : i + 32 < 64 := by omega
  have h2 : ¬ i + 32 < 32 := by omega
  simpa [h1, h2] using this

theorem I.hash_inj {a b : I32} (h : I.hash a = I.hash b) : a = b := by
  have h' := mul_const_inj h
  ext1
  have := congrArg BitVec.toInt h'
  rw [BitVec.toInt_ofInt, BitVec.toInt_ofInt] at this
  have l1 := BitVec.toInt_lt (x := a.bits)
  have l2 := BitVec.le_toInt (x := a.bits)
  have l3 := BitVec.toInt_lt (x := b.bits)
  have l4 := BitVec.le_toInt (x := b.bits)
  apply BitVec.toInt_inj.1
  simp only [I32.toInt] at this
  rw [Int.bmod_eq_of_le (by omega) (by omega), Int.bmod_eq_of_le (by omega) (by omega)] at this
  exact this

theorem float_hash_zero : float_hash (lit 0 : F32) = 0#64 := by decide +kernel

theorem V2.hash_y {x y y' : F32} (h : y ≠ y') : V2.hash ⟨x, y⟩ ≠ V2.hash ⟨x, y'⟩ := by
  intro e
  have := congrArg (BitVec.setWidth 32) e
  simp only [V2.hash, low_shift_or] at this
  exact h (F32.bits_injective (hashUnsigned_low_inj this))

theorem V2.hash_x {x x' : F32} (h : x ≠ x') : V2.hash ⟨x, lit 0⟩ ≠ V2.hash ⟨x', lit 0⟩ := by
  intro e
  simp only [V2.hash, float_hash_zero, BitVec.or_zero] at e
  exact h (F32.bits_injective (hashUnsigned_low_inj (shift32_inj e)))

theorem V3.hash_eq (x y z : F32) : V3.hash ⟨x, y, z⟩ = V2.hash ⟨x, y⟩ ^^^ float_hash z <<< 16 := rfl

theorem V3.hash_x {x x' z : F32} (h : x ≠ x') : V3.hash ⟨x, lit 0, z⟩ ≠ V3.hash ⟨x', lit 0, z⟩ := by
  rw [V3.hash_eq, V3.hash_eq, Ne, BitVec.xor_left_inj]
  exact V2.hash_x h

theorem V3.hash_y {x y y' z : F32} (h : y ≠ y') : V3.hash ⟨x, y, z⟩ ≠ V3.hash ⟨x, y', z⟩ := by
  rw [V3.hash_eq, V3.hash_eq, Ne, BitVec.xor_left_inj]
  exact V2.hash_y h

theorem V3.hash_z {x y z z' : F32} (h : z ≠ z') : V3.hash ⟨x, y, z⟩ ≠ V3.hash ⟨x, y, z'⟩ := by
  rw [V3.hash_eq, V3.hash_eq, Ne, BitVec.xor_right_inj]
  intro e
  exact h (F32.bits_injective (hashUnsigned_low48_inj (shift16_inj e)))

theorem V4.hash_eq (x y z w : F32) : V4.hash ⟨x, y, z, w⟩ = V3.hash ⟨x, y, z⟩ ^^^ float_hash w := rfl

theorem V4.hash_xyz {x y z x' y' z' w : F32} (h : V3.hash ⟨x, y, z⟩ ≠ V3.hash ⟨x', y', z'⟩) :
    V4.hash ⟨x, y, z, w⟩ ≠ V4.hash ⟨x', y', z', w⟩ := by
  rw [V4.hash_eq, V4.hash_eq, Ne, BitVec.xor_left_inj]
  exact h

theorem V4.hash_w {x y z w w' : F32} (h : w ≠ w') : V4.hash ⟨x, y, z, w⟩ ≠ V4.hash ⟨x, y, z, w'⟩ := by
  rw [V4.hash_eq, V4.hash_eq, Ne, BitVec.xor_right_inj]
  intro e
  exact h (F32.bits_injective (hashUnsigned_inj e))

theorem Quat.hash_eq (q : Quat F32) : Quat.hash q = V4.hash ⟨q.x, q.y, q.z, q.w⟩ := rfl

end Zcm
