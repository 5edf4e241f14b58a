import Verif.Lemmas.Int

/-!
# C12: integer vector bitwise and shift operators

`bit a k` is bit `k` of the two's complement representation of `a`, stated by division, and
`intShl`/`intShr` are stated on mathematical integers (`Verif/Spec/Int.lean`).
-/

namespace Zcm

/-- The outcome `r` is the vector whose component `i` has, at each of its 32 bits, the bit
`f i k`. -/
def IsBits {V : Type → Type} {n : ℕ} [Coords V n] (r : Res (V I32)) (f : Fin n → ℕ → Bool) : Prop :=
  ∃ x, r = .ok x ∧ ∀ i, ∀ k < 32, bit (coord x i) k = f i k

/-- C12 for `| & ^` on `ivec2`, in all three operand forms. -/
theorem C12_ivec2_bitwise (a b : V2 I32) (s : I32) :
    IsBits (IV2.or a b) (fun i k => bit (coord a i) k || bit (coord b i) k) ∧
    IsBits (IV2.orS a s) (fun i k => bit (coord a i) k || bit s k) ∧
    IsBits (IV2.sOr s a) (fun i k => bit s k || bit (coord a i) k) ∧
    IsBits (IV2.and a b) (fun i k => bit (coord a i) k && bit (coord b i) k) ∧
    IsBits (IV2.andS a s) (fun i k => bit (coord a i) k && bit s k) ∧
    IsBits (IV2.sAnd s a) (fun i k => bit s k && bit (coord a i) k) ∧
    IsBits (IV2.xor a b) (fun i k => bit (coord a i) k ^^ bit (coord b i) k) ∧
    IsBits (IV2.xorS a s) (fun i k => bit (coord a i) k ^^ bit s k) ∧
    IsBits (IV2.sXor s a) (fun i k => bit s k ^^ bit (coord a i) k) := by
  refine ⟨⟨_, rfl, fun i k hk => ?_⟩, ⟨_, rfl, fun i k hk => ?_⟩, ⟨_, rfl, fun i k hk => ?_⟩, ⟨_, rfl, fun i k hk => ?_⟩, ⟨_, rfl, fun i k hk => ?_⟩, ⟨_, rfl, fun i k hk => ?_⟩, ⟨_, rfl, fun i k hk => ?_⟩, ⟨_, rfl, fun i k hk => ?_⟩, ⟨_, rfl, fun i k hk => ?_⟩⟩ <;>
    simp only [bit_eq _ _ hk] <;> fin_cases i <;> simp

/-- C12 for `<< >>` on `ivec2`, in all three operand forms. -/
theorem C12_ivec2_shift (a b : V2 I32) (s : I32) :
    IsIntVec (IV2.shr a b) (fun i => intShr (icoord a i) (icoord b i)) ∧
    IsIntVec (IV2.shrS a s) (fun i => intShr (icoord a i) s.toInt) ∧
    IsIntVec (IV2.sShr s a) (fun i => intShr s.toInt (icoord a i)) ∧
    IsIntVec (IV2.shl a b) (fun i => intShl (icoord a i) (icoord b i)) ∧
    IsIntVec (IV2.shlS a s) (fun i => intShl (icoord a i) s.toInt) ∧
    IsIntVec (IV2.sShl s a) (fun i => intShl s.toInt (icoord a i)) :=
  ⟨isIntVec_VV2 isInt_shr _ _, isIntVec_VS2 isInt_shr _ _, isIntVec_SV2 isInt_shr _ _,
   isIntVec_VV2 isInt_shl _ _, isIntVec_VS2 isInt_shl _ _, isIntVec_SV2 isInt_shl _ _⟩

/-- C12 for `| & ^` on `ivec3`, in all three operand forms. -/
theorem C12_ivec3_bitwise (a b : V3 I32) (s : I32) :
    IsBits (IV3.or a b) (fun i k => bit (coord a i) k || bit (coord b i) k) ∧
    IsBits (IV3.orS a s) (fun i k => bit (coord a i) k || bit s k) ∧
    IsBits (IV3.sOr s a) (fun i k => bit s k || bit (coord a i) k) ∧
    IsBits (IV3.and a b) (fun i k => bit (coord a i) k && bit (coord b i) k) ∧
    IsBits (IV3.andS a s) (fun i k => bit (coord a i) k && bit s k) ∧
    IsBits (IV3.sAnd s a) (fun i k => bit s k && bit (coord a i) k) ∧
    IsBits (IV3.xor a b) (fun i k => bit (coord a i) k ^^ bit (coord b i) k) ∧
    IsBits (IV3.xorS a s) (fun i k => bit (coord a i) k ^^ bit s k) ∧
    IsBits (IV3.sXor s a) (fun i k => bit s k ^^ bit (coord a i) k) := by
  refine ⟨⟨_, rfl, fun i k hk => ?_⟩, ⟨_, rfl, fun i k hk => ?_⟩, ⟨_, rfl, fun i k hk => ?_⟩, ⟨_, rfl, fun i k hk => ?_⟩, ⟨_, rfl, fun i k hk => ?_⟩, ⟨_, rfl, fun i k hk => ?_⟩, ⟨_, rfl, fun i k hk => ?_⟩, ⟨_, rfl, fun i k hk => ?_⟩, ⟨_, rfl, fun i k hk => ?_⟩⟩ <;>
    simp only [bit_eq _ _ hk] <;> fin_cases i <;> simp

/-- C12 for `<< >>` on `ivec3`, in all three operand forms. -/
theorem C12_ivec3_shift (a b : V3 I32) (s : I32) :
    IsIntVec (IV3.shr a b) (fun i => intShr (icoord a i) (icoord b i)) ∧
    IsIntVec (IV3.shrS a s) (fun i => intShr (icoord a i) s.toInt) ∧
    IsIntVec (IV3.sShr s a) (fun i => intShr s.toInt (icoord a i)) ∧
    IsIntVec (IV3.shl a b) (fun i => intShl (icoord a i) (icoord b i)) ∧
    IsIntVec (IV3.shlS a s) (fun i => intShl (icoord a i) s.toInt) ∧
    IsIntVec (IV3.sShl s a) (fun i => intShl s.toInt (icoord a i)) :=
  ⟨isIntVec_VV3 isInt_shr _ _, isIntVec_VS3 isInt_shr _ _, isIntVec_SV3 isInt_shr _ _,
   isIntVec_VV3 isInt_shl _ _, isIntVec_VS3 isInt_shl _ _, isIntVec_SV3 isInt_shl _ _⟩

/-- Non-vacuity: shifts in and out of range, and a bit pattern. -/
example : IV2.shlS ⟨I32.lit 3, I32.lit 1⟩ (I32.lit 4) = .ok ⟨I32.lit 48, I32.lit 16⟩ ∧
    IV2.shrS ⟨I32.lit (-5), I32.lit 5⟩ (I32.lit 1) = .ok ⟨I32.lit (-3), I32.lit 2⟩ ∧
    IV2.shlS ⟨I32.lit 3, I32.lit 1⟩ (I32.lit 32) = .ub ∧
    IV2.shlS ⟨I32.lit (-3), I32.lit 1⟩ (I32.lit 1) = .ub ∧
    IV2.xorS ⟨I32.lit 12, I32.lit (-1)⟩ (I32.lit 10) = .ok ⟨I32.lit 6, I32.lit (-11)⟩ ∧
    bit (I32.lit (-2)) 31 = true ∧ bit (I32.lit (-2)) 0 = false := by decide

end Zcm
