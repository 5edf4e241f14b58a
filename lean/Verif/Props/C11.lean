import Verif.Lemmas.Int
import Verif.Model.ComponentWise

/-!
# C11 (and the ivec part of C01): integer vector arithmetic is exact or undefined, and exactly when

The specification (`Verif/Spec/Int.lean`) is a set of partial functions on mathematical integers.
`IsIntVec r s` says that the outcome `r` has exactly the integers `s` if all of them are defined
and is undefined behaviour otherwise; there is no third case.
-/

namespace Zcm

/-- C01/C11 for `ivec2`: `+ - * /` in all three operand forms, unary `-` and `+`. -/
theorem C01_ivec2 (a b : V2 I32) (s : I32) :
    IsIntVec (IV2.add a b) (fun i => intAdd (icoord a i) (icoord b i)) ∧
    IsIntVec (IV2.addS a s) (fun i => intAdd (icoord a i) s.toInt) ∧
    IsIntVec (IV2.sAdd s a) (fun i => intAdd s.toInt (icoord a i)) ∧
    IsIntVec (IV2.sub a b) (fun i => intSub (icoord a i) (icoord b i)) ∧
    IsIntVec (IV2.subS a s) (fun i => intSub (icoord a i) s.toInt) ∧
    IsIntVec (IV2.sSub s a) (fun i => intSub s.toInt (icoord a i)) ∧
    IsIntVec (IV2.mul a b) (fun i => intMul (icoord a i) (icoord b i)) ∧
    IsIntVec (IV2.mulS a s) (fun i => intMul (icoord a i) s.toInt) ∧
    IsIntVec (IV2.sMul s a) (fun i => intMul s.toInt (icoord a i)) ∧
    IsIntVec (IV2.div a b) (fun i => intDiv (icoord a i) (icoord b i)) ∧
    IsIntVec (IV2.divS a s) (fun i => intDiv (icoord a i) s.toInt) ∧
    IsIntVec (IV2.sDiv s a) (fun i => intDiv s.toInt (icoord a i)) ∧
    IsIntVec (IV2.neg a) (fun i => intNeg (icoord a i)) ∧
    IV2.pos a = a :=
  ⟨isIntVec_VV2 isInt_add _ _,
   isIntVec_VS2 isInt_add _ _,
   isIntVec_SV2 isInt_add _ _,
   isIntVec_VV2 isInt_sub _ _,
   isIntVec_VS2 isInt_sub _ _,
   isIntVec_SV2 isInt_sub _ _,
   isIntVec_VV2 isInt_mul _ _,
   isIntVec_VS2 isInt_mul _ _,
   isIntVec_SV2 isInt_mul _ _,
   isIntVec_VV2 isInt_div _ _,
   isIntVec_VS2 isInt_div _ _,
   isIntVec_SV2 isInt_div _ _,
   isIntVec2 (isInt_neg _) (isInt_neg _) (by funext i; fin_cases i <;> rfl),
   rfl⟩

/-- C01/C11 for `ivec3`: `+ - * /` in all three operand forms, unary `-` and `+`. -/
theorem C01_ivec3 (a b : V3 I32) (s : I32) :
    IsIntVec (IV3.add a b) (fun i => intAdd (icoord a i) (icoord b i)) ∧
    IsIntVec (IV3.addS a s) (fun i => intAdd (icoord a i) s.toInt) ∧
    IsIntVec (IV3.sAdd s a) (fun i => intAdd s.toInt (icoord a i)) ∧
    IsIntVec (IV3.sub a b) (fun i => intSub (icoord a i) (icoord b i)) ∧
    IsIntVec (IV3.subS a s) (fun i => intSub (icoord a i) s.toInt) ∧
    IsIntVec (IV3.sSub s a) (fun i => intSub s.toInt (icoord a i)) ∧
    IsIntVec (IV3.mul a b) (fun i => intMul (icoord a i) (icoord b i)) ∧
    IsIntVec (IV3.mulS a s) (fun i => intMul (icoord a i) s.toInt) ∧
    IsIntVec (IV3.sMul s a) (fun i => intMul s.toInt (icoord a i)) ∧
    IsIntVec (IV3.div a b) (fun i => intDiv (icoord a i) (icoord b i)) ∧
    IsIntVec (IV3.divS a s) (fun i => intDiv (icoord a i) s.toInt) ∧
    IsIntVec (IV3.sDiv s a) (fun i => intDiv s.toInt (icoord a i)) ∧
    IsIntVec (IV3.neg a) (fun i => intNeg (icoord a i)) ∧
    IV3.pos a = a :=
  ⟨isIntVec_VV3 isInt_add _ _,
   isIntVec_VS3 isInt_add _ _,
   isIntVec_SV3 isInt_add _ _,
   isIntVec_VV3 isInt_sub _ _,
   isIntVec_VS3 isInt_sub _ _,
   isIntVec_SV3 isInt_sub _ _,
   isIntVec_VV3 isInt_mul _ _,
   isIntVec_VS3 isInt_mul _ _,
   isIntVec_SV3 isInt_mul _ _,
   isIntVec_VV3 isInt_div _ _,
   isIntVec_VS3 isInt_div _ _,
   isIntVec_SV3 isInt_div _ _,
   isIntVec3 (isInt_neg _) (isInt_neg _) (isInt_neg _) (by funext i; fin_cases i <;> rfl),
   rfl⟩

/-- C01/C11 for `ivec4`: `+ - * /` in all three operand forms, unary `-` and `+`. -/
theorem C01_ivec4 (a b : V4 I32) (s : I32) :
    IsIntVec (IV4.add a b) (fun i => intAdd (icoord a i) (icoord b i)) ∧
    IsIntVec (IV4.addS a s) (fun i => intAdd (icoord a i) s.toInt) ∧
    IsIntVec (IV4.sAdd s a) (fun i => intAdd s.toInt (icoord a i)) ∧
    IsIntVec (IV4.sub a b) (fun i => intSub (icoord a i) (icoord b i)) ∧
    IsIntVec (IV4.subS a s) (fun i => intSub (icoord a i) s.toInt) ∧
    IsIntVec (IV4.sSub s a) (fun i => intSub s.toInt (icoord a i)) ∧
    IsIntVec (IV4.mul a b) (fun i => intMul (icoord a i) (icoord b i)) ∧
    IsIntVec (IV4.mulS a s) (fun i => intMul (icoord a i) s.toInt) ∧
    IsIntVec (IV4.sMul s a) (fun i => intMul s.toInt (icoord a i)) ∧
    IsIntVec (IV4.div a b) (fun i => intDiv (icoord a i) (icoord b i)) ∧
    IsIntVec (IV4.divS a s) (fun i => intDiv (icoord a i) s.toInt) ∧
    IsIntVec (IV4.sDiv s a) (fun i => intDiv s.toInt (icoord a i)) ∧
    IsIntVec (IV4.neg a) (fun i => intNeg (icoord a i)) ∧
    IV4.pos a = a :=
  ⟨isIntVec_VV4 isInt_add _ _,
   isIntVec_VS4 isInt_add _ _,
   isIntVec_SV4 isInt_add _ _,
   isIntVec_VV4 isInt_sub _ _,
   isIntVec_VS4 isInt_sub _ _,
   isIntVec_SV4 isInt_sub _ _,
   isIntVec_VV4 isInt_mul _ _,
   isIntVec_VS4 isInt_mul _ _,
   isIntVec_SV4 isInt_mul _ _,
   isIntVec_VV4 isInt_div _ _,
   isIntVec_VS4 isInt_div _ _,
   isIntVec_SV4 isInt_div _ _,
   isIntVec4 (isInt_neg _) (isInt_neg _) (isInt_neg _) (isInt_neg _) (by funext i; fin_cases i <;> rfl),
   rfl⟩

/-- C11 for `%` on `ivec2` (`ivec4` declares it but does not define it). -/
theorem C11_ivec2_mod (a b : V2 I32) (s : I32) :
    IsIntVec (IV2.mod a b) (fun i => intMod (icoord a i) (icoord b i)) ∧
    IsIntVec (IV2.modS a s) (fun i => intMod (icoord a i) s.toInt) ∧
    IsIntVec (IV2.sMod s a) (fun i => intMod s.toInt (icoord a i)) :=
  ⟨isIntVec_VV2 isInt_mod _ _, isIntVec_VS2 isInt_mod _ _, isIntVec_SV2 isInt_mod _ _⟩

/-- C11 for `%` on `ivec3` (`ivec4` declares it but does not define it). -/
theorem C11_ivec3_mod (a b : V3 I32) (s : I32) :
    IsIntVec (IV3.mod a b) (fun i => intMod (icoord a i) (icoord b i)) ∧
    IsIntVec (IV3.modS a s) (fun i => intMod (icoord a i) s.toInt) ∧
    IsIntVec (IV3.sMod s a) (fun i => intMod s.toInt (icoord a i)) :=
  ⟨isIntVec_VV3 isInt_mod _ _, isIntVec_VS3 isInt_mod _ _, isIntVec_SV3 isInt_mod _ _⟩

/-- C11 for `abs`. -/
theorem C11_abs :
    (∀ x, IsInt (I.abs x) (intAbs x.toInt)) ∧
    (∀ v, IsIntVec (IV2.abs v) fun i => intAbs (icoord v i)) ∧
    (∀ v, IsIntVec (IV3.abs v) fun i => intAbs (icoord v i)) ∧
    (∀ v, IsIntVec (IV4.abs v) fun i => intAbs (icoord v i)) :=
  ⟨isInt_abs,
   fun _ => isIntVec2 (isInt_abs _) (isInt_abs _) (by funext i; fin_cases i <;> rfl),
   fun _ => isIntVec3 (isInt_abs _) (isInt_abs _) (isInt_abs _) (by funext i; fin_cases i <;> rfl),
   fun _ => isIntVec4 (isInt_abs _) (isInt_abs _) (isInt_abs _) (isInt_abs _)
    (by funext i; fin_cases i <;> rfl)⟩

/-- C11 for `++` (prefix): the object afterwards. -/
theorem C11_preInc :
    (∀ v, IsIntVec (do let p ← IV2.preInc v; pure p.1) fun i => intAdd (icoord v i) 1) ∧
    (∀ v, IsIntVec (do let p ← IV3.preInc v; pure p.1) fun i => intAdd (icoord v i) 1) ∧
    (∀ v, IsIntVec (do let p ← IV4.preInc v; pure p.1) fun i => intAdd (icoord v i) 1) := by
  have e : (I32.lit 1).toInt = 1 := by decide
  refine ⟨fun v => ?_, fun v => ?_, fun v => ?_⟩
  · have := isIntVec_VS2 isInt_add v (I32.lit 1)
    rw [e] at this
    convert this using 1
    unfold IV2.preInc V2.macroVS
    dsimp only
    cases I32.add v.x (I32.lit 1) <;> [skip; rfl; rfl]
    cases I32.add v.y (I32.lit 1) <;> [skip; rfl; rfl]
    rfl
  · have := isIntVec_VS3 isInt_add v (I32.lit 1)
    rw [e] at this
    convert this using 1
    unfold IV3.preInc V3.macroVS
    dsimp only
    cases I32.add v.x (I32.lit 1) <;> [skip; rfl; rfl]
    cases I32.add v.y (I32.lit 1) <;> [skip; rfl; rfl]
    cases I32.add v.z (I32.lit 1) <;> [skip; rfl; rfl]
    rfl
  · have := isIntVec_VS4 isInt_add v (I32.lit 1)
    rw [e] at this
    convert this using 1
    unfold IV4.preInc V4.macroVS
    dsimp only
    cases I32.add v.x (I32.lit 1) <;> [skip; rfl; rfl]
    cases I32.add v.y (I32.lit 1) <;> [skip; rfl; rfl]
    cases I32.add v.z (I32.lit 1) <;> [skip; rfl; rfl]
    cases I32.add v.w (I32.lit 1) <;> [skip; rfl; rfl]
    rfl

/-- C11 for `++` (postfix): the object afterwards. -/
theorem C11_postInc :
    (∀ v, IsIntVec (do let p ← IV2.postInc v; pure p.1) fun i => intAdd (icoord v i) 1) ∧
    (∀ v, IsIntVec (do let p ← IV3.postInc v; pure p.1) fun i => intAdd (icoord v i) 1) ∧
    (∀ v, IsIntVec (do let p ← IV4.postInc v; pure p.1) fun i => intAdd (icoord v i) 1) := by
  have e : (I32.lit 1).toInt = 1 := by decide
  refine ⟨fun v => ?_, fun v => ?_, fun v => ?_⟩
  · have := isIntVec_VS2 isInt_add v (I32.lit 1)
    rw [e] at this
    convert this using 1
    unfold IV2.postInc V2.macroVS
    dsimp only
    cases I32.add v.x (I32.lit 1) <;> [skip; rfl; rfl]
    cases I32.add v.y (I32.lit 1) <;> [skip; rfl; rfl]
    rfl
  · have := isIntVec_VS3 isInt_add v (I32.lit 1)
    rw [e] at this
    convert this using 1
    unfold IV3.postInc V3.macroVS
    dsimp only
    cases I32.add v.x (I32.lit 1) <;> [skip; rfl; rfl]
    cases I32.add v.y (I32.lit 1) <;> [skip; rfl; rfl]
    cases I32.add v.z (I32.lit 1) <;> [skip; rfl; rfl]
    rfl
  · have := isIntVec_VS4 isInt_add v (I32.lit 1)
    rw [e] at this
    convert this using 1
    unfold IV4.postInc V4.macroVS
    dsimp only
    cases I32.add v.x (I32.lit 1) <;> [skip; rfl; rfl]
    cases I32.add v.y (I32.lit 1) <;> [skip; rfl; rfl]
    cases I32.add v.z (I32.lit 1) <;> [skip; rfl; rfl]
    cases I32.add v.w (I32.lit 1) <;> [skip; rfl; rfl]
    rfl

/-- C11 for `--` (prefix): the object afterwards. -/
theorem C11_preDec :
    (∀ v, IsIntVec (do let p ← IV2.preDec v; pure p.1) fun i => intSub (icoord v i) 1) ∧
    (∀ v, IsIntVec (do let p ← IV3.preDec v; pure p.1) fun i => intSub (icoord v i) 1) ∧
    (∀ v, IsIntVec (do let p ← IV4.preDec v; pure p.1) fun i => intSub (icoord v i) 1) := by
  have e : (I32.lit 1).toInt = 1 := by decide
  refine ⟨fun v => ?_, fun v => ?_, fun v => ?_⟩
  · have := isIntVec_VS2 isInt_sub v (I32.lit 1)
    rw [e] at this
    convert this using 1
    unfold IV2.preDec V2.macroVS
    dsimp only
    cases I32.sub v.x (I32.lit 1) <;> [skip; rfl; rfl]
    cases I32.sub v.y (I32.lit 1) <;> [skip; rfl; rfl]
    rfl
  · have := isIntVec_VS3 isInt_sub v (I32.lit 1)
    rw [e] at this
    convert this using 1
    unfold IV3.preDec V3.macroVS
    dsimp only
    cases I32.sub v.x (I32.lit 1) <;> [skip; rfl; rfl]
    cases I32.sub v.y (I32.lit 1) <;> [skip; rfl; rfl]
    cases I32.sub v.z (I32.lit 1) <;> [skip; rfl; rfl]
    rfl
  · have := isIntVec_VS4 isInt_sub v (I32.lit 1)
    rw [e] at this
    convert this using 1
    unfold IV4.preDec V4.macroVS
    dsimp only
    cases I32.sub v.x (I32.lit 1) <;> [skip; rfl; rfl]
    cases I32.sub v.y (I32.lit 1) <;> [skip; rfl; rfl]
    cases I32.sub v.z (I32.lit 1) <;> [skip; rfl; rfl]
    cases I32.sub v.w (I32.lit 1) <;> [skip; rfl; rfl]
    rfl

/-- C11 for `--` (postfix): the object afterwards. -/
theorem C11_postDec :
    (∀ v, IsIntVec (do let p ← IV2.postDec v; pure p.1) fun i => intSub (icoord v i) 1) ∧
    (∀ v, IsIntVec (do let p ← IV3.postDec v; pure p.1) fun i => intSub (icoord v i) 1) ∧
    (∀ v, IsIntVec (do let p ← IV4.postDec v; pure p.1) fun i => intSub (icoord v i) 1) := by
  have e : (I32.lit 1).toInt = 1 := by decide
  refine ⟨fun v => ?_, fun v => ?_, fun v => ?_⟩
  · have := isIntVec_VS2 isInt_sub v (I32.lit 1)
    rw [e] at this
    convert this using 1
    unfold IV2.postDec V2.macroVS
    dsimp only
    cases I32.sub v.x (I32.lit 1) <;> [skip; rfl; rfl]
    cases I32.sub v.y (I32.lit 1) <;> [skip; rfl; rfl]
    rfl
  · have := isIntVec_VS3 isInt_sub v (I32.lit 1)
    rw [e] at this
    convert this using 1
    unfold IV3.postDec V3.macroVS
    dsimp only
    cases I32.sub v.x (I32.lit 1) <;> [skip; rfl; rfl]
    cases I32.sub v.y (I32.lit 1) <;> [skip; rfl; rfl]
    cases I32.sub v.z (I32.lit 1) <;> [skip; rfl; rfl]
    rfl
  · have := isIntVec_VS4 isInt_sub v (I32.lit 1)
    rw [e] at this
    convert this using 1
    unfold IV4.postDec V4.macroVS
    dsimp only
    cases I32.sub v.x (I32.lit 1) <;> [skip; rfl; rfl]
    cases I32.sub v.y (I32.lit 1) <;> [skip; rfl; rfl]
    cases I32.sub v.z (I32.lit 1) <;> [skip; rfl; rfl]
    cases I32.sub v.w (I32.lit 1) <;> [skip; rfl; rfl]
    rfl

private theorem isInt_bind {r : Res I32} {s : Option ℤ} {f : I32 → Res I32} {g : ℤ → Option ℤ}
    (h : IsInt r s) (hf : ∀ x, IsInt (f x) (g x.toInt)) : IsInt (r >>= f) (s >>= g) := by
  cases s with
  | none => change _ = _ at h; subst h; rfl
  | some z => obtain ⟨x, rfl, rfl⟩ := h; exact hf x

/-- C11 for `compAdd`: exact if every intermediate result (left to right) fits, undefined otherwise. -/
theorem C11_compAdd :
    (∀ v, IsInt (IV2.compAdd v) (intAdd (icoord v 0) (icoord v 1))) ∧
    (∀ v, IsInt (IV3.compAdd v) do
      let p ← intAdd (icoord v 0) (icoord v 1)
      intAdd p (icoord v 2)) ∧
    (∀ v, IsInt (IV4.compAdd v) do
      let p ← intAdd (icoord v 0) (icoord v 1)
      let q ← intAdd p (icoord v 2)
      intAdd q (icoord v 3)) :=
  ⟨fun _ => isInt_add _ _, fun _ => isInt_bind (isInt_add _ _) fun _ => isInt_add _ _,
   fun _ => isInt_bind (isInt_add _ _) fun _ => isInt_bind (isInt_add _ _) fun _ => isInt_add _ _⟩

/-- C11 for `compMul`: exact if every intermediate result (left to right) fits, undefined otherwise. -/
theorem C11_compMul :
    (∀ v, IsInt (IV2.compMul v) (intMul (icoord v 0) (icoord v 1))) ∧
    (∀ v, IsInt (IV3.compMul v) do
      let p ← intMul (icoord v 0) (icoord v 1)
      intMul p (icoord v 2)) ∧
    (∀ v, IsInt (IV4.compMul v) do
      let p ← intMul (icoord v 0) (icoord v 1)
      let q ← intMul p (icoord v 2)
      intMul q (icoord v 3)) :=
  ⟨fun _ => isInt_mul _ _, fun _ => isInt_bind (isInt_mul _ _) fun _ => isInt_mul _ _,
   fun _ => isInt_bind (isInt_mul _ _) fun _ => isInt_bind (isInt_mul _ _) fun _ => isInt_mul _ _⟩

/-- Non-vacuity: `(7, -7) / (2, 2)` truncates towards zero, and `INT_MAX + 1` is undefined. -/
example : IV2.divS ⟨I32.lit 7, I32.lit (-7)⟩ (I32.lit 2) = .ok ⟨I32.lit 3, I32.lit (-3)⟩ ∧
    IV2.addS ⟨I32.lit 2147483647, I32.lit 0⟩ (I32.lit 1) = .ub ∧
    intDiv 7 2 = some 3 ∧ intDiv (-7) 2 = some (-3) ∧ intAdd 2147483647 1 = none ∧
    intDiv (-2147483648) (-1) = none ∧ intMod (-7) 2 = some (-1) := by decide

end Zcm
