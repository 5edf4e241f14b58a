import Verif.Spec.Coord
import Verif.Model.Common

/-!
# C13: boolean vectors form a Boolean algebra; all/any quantify over components
-/

set_option linter.unusedSimpArgs false

namespace Zcm

/-- C13 for `bvec2`: every operator acts per component, a scalar operand is broadcast. -/
theorem C13_bvec2 (a b : V2 Bool) (s : Bool) (i : Fin 2) :
    coord (BV2.and a b) i = (coord a i && coord b i) ∧
    coord (BV2.andS a s) i = (coord a i && s) ∧
    coord (BV2.sAnd s a) i = (s && coord a i) ∧
    coord (BV2.or a b) i = (coord a i || coord b i) ∧
    coord (BV2.orS a s) i = (coord a i || s) ∧
    coord (BV2.sOr s a) i = (s || coord a i) ∧
    coord (BV2.xor a b) i = (coord a i ^^ coord b i) ∧
    coord (BV2.xorS a s) i = (coord a i ^^ s) ∧
    coord (BV2.sXor s a) i = (s ^^ coord a i) ∧
    coord (BV2.not a) i = !coord a i := by
  fin_cases i <;>
    simp [BV2.and, BV2.andS, BV2.sAnd, BV2.or, BV2.orS, BV2.sOr, BV2.xor, BV2.xorS, BV2.sXor,
      BV2.not, Bool.and_comm, Bool.or_comm, Bool.xor_comm]

/-- C13 for `bvec2`: the laws of a Boolean algebra (with `^` the symmetric difference). -/
theorem C13_bvec2_laws (a b c : V2 Bool) :
    BV2.and a b = BV2.and b a ∧ BV2.or a b = BV2.or b a ∧
    BV2.and a (BV2.and b c) = BV2.and (BV2.and a b) c ∧
    BV2.or a (BV2.or b c) = BV2.or (BV2.or a b) c ∧
    BV2.and a (BV2.or b c) = BV2.or (BV2.and a b) (BV2.and a c) ∧
    BV2.or a (BV2.and b c) = BV2.and (BV2.or a b) (BV2.or a c) ∧
    BV2.and a (BV2.splat true) = a ∧ BV2.or a (BV2.splat false) = a ∧
    BV2.and a (BV2.not a) = BV2.splat false ∧ BV2.or a (BV2.not a) = BV2.splat true ∧
    BV2.not (BV2.and a b) = BV2.or (BV2.not a) (BV2.not b) ∧
    BV2.not (BV2.or a b) = BV2.and (BV2.not a) (BV2.not b) ∧
    BV2.not (BV2.not a) = a ∧
    BV2.xor a b = BV2.or (BV2.and a (BV2.not b)) (BV2.and (BV2.not a) b) := by
  have hs : ∀ (t : Bool) (i : Fin 2), coord (BV2.splat t) i = t := fun t i => by fin_cases i <;> rfl
  have ha := fun (x y : V2 Bool) i => (C13_bvec2 x y true i).1
  have ho := fun (x y : V2 Bool) i => (C13_bvec2 x y true i).2.2.2.1
  have hx := fun (x y : V2 Bool) i => (C13_bvec2 x y true i).2.2.2.2.2.2.1
  have hn := fun (x : V2 Bool) i => (C13_bvec2 x x true i).2.2.2.2.2.2.2.2.2
  refine ⟨?_, ?_, ?_, ?_, ?_, ?_, ?_, ?_, ?_, ?_, ?_, ?_, ?_, ?_⟩ <;> refine coord_inj2.1 fun i => ?_ <;>
    simp only [hs, ha, ho, hx, hn] <;>
    cases coord a i <;> cases coord b i <;> cases coord c i <;> rfl

/-- C13 for `bvec2`: `all` and `any`. -/
theorem C13_bvec2_all_any (a : V2 Bool) :
    (BV2.all a = true ↔ ∀ i, coord a i = true) ∧ (BV2.any a = true ↔ ∃ i, coord a i = true) ∧
    BV2.all a = !(BV2.any (BV2.not a)) ∧ BV2.any a = !(BV2.all (BV2.not a)) := by
  refine ⟨?_, ?_, ?_, ?_⟩
  · simp [BV2.all, Fin.forall_fin_succ, coord, and_assoc]
  · simp [BV2.any, Fin.exists_fin_succ, coord, or_assoc]
  · simp [BV2.all, BV2.any, BV2.not]
  · simp [BV2.all, BV2.any, BV2.not]

/-- C13 for `bvec3`: every operator acts per component, a scalar operand is broadcast. -/
theorem C13_bvec3 (a b : V3 Bool) (s : Bool) (i : Fin 3) :
    coord (BV3.and a b) i = (coord a i && coord b i) ∧
    coord (BV3.andS a s) i = (coord a i && s) ∧
    coord (BV3.sAnd s a) i = (s && coord a i) ∧
    coord (BV3.or a b) i = (coord a i || coord b i) ∧
    coord (BV3.orS a s) i = (coord a i || s) ∧
    coord (BV3.sOr s a) i = (s || coord a i) ∧
    coord (BV3.xor a b) i = (coord a i ^^ coord b i) ∧
    coord (BV3.xorS a s) i = (coord a i ^^ s) ∧
    coord (BV3.sXor s a) i = (s ^^ coord a i) ∧
    coord (BV3.not a) i = !coord a i := by
  fin_cases i <;>
    simp [BV3.and, BV3.andS, BV3.sAnd, BV3.or, BV3.orS, BV3.sOr, BV3.xor, BV3.xorS, BV3.sXor,
      BV3.not, Bool.and_comm, Bool.or_comm, Bool.xor_comm]

/-- C13 for `bvec3`: the laws of a Boolean algebra (with `^` the symmetric difference). -/
theorem C13_bvec3_laws (a b c : V3 Bool) :
    BV3.and a b = BV3.and b a ∧ BV3.or a b = BV3.or b a ∧
    BV3.and a (BV3.and b c) = BV3.and (BV3.and a b) c ∧
    BV3.or a (BV3.or b c) = BV3.or (BV3.or a b) c ∧
    BV3.and a (BV3.or b c) = BV3.or (BV3.and a b) (BV3.and a c) ∧
    BV3.or a (BV3.and b c) = BV3.and (BV3.or a b) (BV3.or a c) ∧
    BV3.and a (BV3.splat true) = a ∧ BV3.or a (BV3.splat false) = a ∧
    BV3.and a (BV3.not a) = BV3.splat false ∧ BV3.or a (BV3.not a) = BV3.splat true ∧
    BV3.not (BV3.and a b) = BV3.or (BV3.not a) (BV3.not b) ∧
    BV3.not (BV3.or a b) = BV3.and (BV3.not a) (BV3.not b) ∧
    BV3.not (BV3.not a) = a ∧
    BV3.xor a b = BV3.or (BV3.and a (BV3.not b)) (BV3.and (BV3.not a) b) := by
  have hs : ∀ (t : Bool) (i : Fin 3), coord (BV3.splat t) i = t := fun t i => by fin_cases i <;> rfl
  have ha := fun (x y : V3 Bool) i => (C13_bvec3 x y true i).1
  have ho := fun (x y : V3 Bool) i => (C13_bvec3 x y true i).2.2.2.1
  have hx := fun (x y : V3 Bool) i => (C13_bvec3 x y true i).2.2.2.2.2.2.1
  have hn := fun (x : V3 Bool) i => (C13_bvec3 x x true i).2.2.2.2.2.2.2.2.2
  refine ⟨?_, ?_, ?_, ?_, ?_, ?_, ?_, ?_, ?_, ?_, ?_, ?_, ?_, ?_⟩ <;> refine coord_inj3.1 fun i => ?_ <;>
    simp only [hs, ha, ho, hx, hn] <;>
    cases coord a i <;> cases coord b i <;> cases coord c i <;> rfl

/-- C13 for `bvec3`: `all` and `any`. -/
theorem C13_bvec3_all_any (a : V3 Bool) :
    (BV3.all a = true ↔ ∀ i, coord a i = true) ∧ (BV3.any a = true ↔ ∃ i, coord a i = true) ∧
    BV3.all a = !(BV3.any (BV3.not a)) ∧ BV3.any a = !(BV3.all (BV3.not a)) := by
  refine ⟨?_, ?_, ?_, ?_⟩
  · simp [BV3.all, Fin.forall_fin_succ, coord, and_assoc]
  · simp [BV3.any, Fin.exists_fin_succ, coord, or_assoc]
  · simp [BV3.all, BV3.any, BV3.not]
  · simp [BV3.all, BV3.any, BV3.not]

/-- C13 for `bvec4`: every operator acts per component, a scalar operand is broadcast. -/
theorem C13_bvec4 (a b : V4 Bool) (s : Bool) (i : Fin 4) :
    coord (BV4.and a b) i = (coord a i && coord b i) ∧
    coord (BV4.andS a s) i = (coord a i && s) ∧
    coord (BV4.sAnd s a) i = (s && coord a i) ∧
    coord (BV4.or a b) i = (coord a i || coord b i) ∧
    coord (BV4.orS a s) i = (coord a i || s) ∧
    coord (BV4.sOr s a) i = (s || coord a i) ∧
    coord (BV4.xor a b) i = (coord a i ^^ coord b i) ∧
    coord (BV4.xorS a s) i = (coord a i ^^ s) ∧
    coord (BV4.sXor s a) i = (s ^^ coord a i) ∧
    coord (BV4.not a) i = !coord a i := by
  fin_cases i <;>
    simp [BV4.and, BV4.andS, BV4.sAnd, BV4.or, BV4.orS, BV4.sOr, BV4.xor, BV4.xorS, BV4.sXor,
      BV4.not, Bool.and_comm, Bool.or_comm, Bool.xor_comm]

/-- C13 for `bvec4`: the laws of a Boolean algebra (with `^` the symmetric difference). -/
theorem C13_bvec4_laws (a b c : V4 Bool) :
    BV4.and a b = BV4.and b a ∧ BV4.or a b = BV4.or b a ∧
    BV4.and a (BV4.and b c) = BV4.and (BV4.and a b) c ∧
    BV4.or a (BV4.or b c) = BV4.or (BV4.or a b) c ∧
    BV4.and a (BV4.or b c) = BV4.or (BV4.and a b) (BV4.and a c) ∧
    BV4.or a (BV4.and b c) = BV4.and (BV4.or a b) (BV4.or a c) ∧
    BV4.and a (BV4.splat true) = a ∧ BV4.or a (BV4.splat false) = a ∧
    BV4.and a (BV4.not a) = BV4.splat false ∧ BV4.or a (BV4.not a) = BV4.splat true ∧
    BV4.not (BV4.and a b) = BV4.or (BV4.not a) (BV4.not b) ∧
    BV4.not (BV4.or a b) = BV4.and (BV4.not a) (BV4.not b) ∧
    BV4.not (BV4.not a) = a ∧
    BV4.xor a b = BV4.or (BV4.and a (BV4.not b)) (BV4.and (BV4.not a) b) := by
  have hs : ∀ (t : Bool) (i : Fin 4), coord (BV4.splat t) i = t := fun t i => by fin_cases i <;> rfl
  have ha := fun (x y : V4 Bool) i => (C13_bvec4 x y true i).1
  have ho := fun (x y : V4 Bool) i => (C13_bvec4 x y true i).2.2.2.1
  have hx := fun (x y : V4 Bool) i => (C13_bvec4 x y true i).2.2.2.2.2.2.1
  have hn := fun (x : V4 Bool) i => (C13_bvec4 x x true i).2.2.2.2.2.2.2.2.2
  refine ⟨?_, ?_, ?_, ?_, ?_, ?_, ?_, ?_, ?_, ?_, ?_, ?_, ?_, ?_⟩ <;> refine coord_inj4.1 fun i => ?_ <;>
    simp only [hs, ha, ho, hx, hn] <;>
    cases coord a i <;> cases coord b i <;> cases coord c i <;> rfl

/-- C13 for `bvec4`: `all` and `any`. -/
theorem C13_bvec4_all_any (a : V4 Bool) :
    (BV4.all a = true ↔ ∀ i, coord a i = true) ∧ (BV4.any a = true ↔ ∃ i, coord a i = true) ∧
    BV4.all a = !(BV4.any (BV4.not a)) ∧ BV4.any a = !(BV4.all (BV4.not a)) := by
  refine ⟨?_, ?_, ?_, ?_⟩
  · simp [BV4.all, Fin.forall_fin_succ, coord, and_assoc]
  · simp [BV4.any, Fin.exists_fin_succ, coord, or_assoc]
  · simp [BV4.all, BV4.any, BV4.not]
  · simp [BV4.all, BV4.any, BV4.not]

/-- Non-vacuity: a vector for which `any` holds and `all` does not. -/
example : BV3.any ⟨true, false, true⟩ = true ∧ BV3.all ⟨true, false, true⟩ = false := by decide

end Zcm
