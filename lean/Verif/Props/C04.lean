import Verif.Spec.Coord

/-!
# C04: vector constructors place components in order

`comps v` is the list of the components of `v`, first to last; every constructor is described
as a concatenation of its arguments' components.
-/

namespace Zcm

/-- The components of a vector, in order. -/
def comps {V : Type → Type} {n : ℕ} [Coords V n] {β : Type} (v : V β) : List β :=
  List.ofFn (coord v)

/-- C04: all constructors of `vec2`. -/
theorem C04_vec2 {α : Type} [FloatOps α] (x y : α) :
    comps (V2.ofXY x y) = [x, y] ∧
    comps (V2.splat x) = [x, x] ∧
    comps (V2.default : V2 α) = [lit 0, lit 0] ∧
    (∀ k : ℤ, comps (V2.ofInt k : V2 α) = [lit k, lit k]) := by
  refine ⟨?_, ?_, ?_, ?_⟩ <;> intros <;> rfl

/-- C04: all constructors of `vec3`. -/
theorem C04_vec3 {α : Type} [FloatOps α] (x y z : α) (p : V2 α) :
    comps (V3.ofXYZ x y z) = [x, y, z] ∧
    comps (V3.splat x) = [x, x, x] ∧
    comps (V3.default : V3 α) = [lit 0, lit 0, lit 0] ∧
    (∀ k : ℤ, comps (V3.ofInt k : V3 α) = [lit k, lit k, lit k]) ∧
    comps (V3.ofXY_Z p x) = comps p ++ [x] ∧
    comps (V3.ofX_YZ x p) = [x] ++ comps p := by
  refine ⟨?_, ?_, ?_, ?_, ?_, ?_⟩ <;> intros <;> rfl

/-- C04: all constructors of `vec4`. -/
theorem C04_vec4 {α : Type} [FloatOps α] (x y z w : α) (p q : V2 α) (t : V3 α) :
    comps (V4.ofXYZW x y z w) = [x, y, z, w] ∧
    comps (V4.splat x) = [x, x, x, x] ∧
    comps (V4.default : V4 α) = [lit 0, lit 0, lit 0, lit 0] ∧
    (∀ k : ℤ, comps (V4.ofInt k : V4 α) = [lit k, lit k, lit k, lit k]) ∧
    comps (V4.ofXYZ_W t x) = comps t ++ [x] ∧
    comps (V4.ofX_YZW x t) = [x] ++ comps t ∧
    comps (V4.ofXY_ZW p q) = comps p ++ comps q ∧
    comps (V4.ofXY_Z_W p x y) = comps p ++ [x, y] ∧
    comps (V4.ofX_YZ_W x p y) = [x] ++ comps p ++ [y] ∧
    comps (V4.ofX_Y_ZW x y p) = [x, y] ++ comps p := by
  refine ⟨?_, ?_, ?_, ?_, ?_, ?_, ?_, ?_, ?_, ?_⟩ <;> intros <;> rfl

/-- C04: all constructors of `ivec2`. -/
theorem C04_ivec2 (x y : I32) :
    comps (IV2.ofXY x y) = [x, y] ∧
    comps (IV2.splat x) = [x, x] ∧
    comps (IV2.default : V2 I32) = [I32.lit 0, I32.lit 0] := by
  refine ⟨?_, ?_, ?_⟩ <;> intros <;> rfl

/-- C04: all constructors of `ivec3`. -/
theorem C04_ivec3 (x y z : I32) (p : V2 I32) :
    comps (IV3.ofXYZ x y z) = [x, y, z] ∧
    comps (IV3.splat x) = [x, x, x] ∧
    comps (IV3.default : V3 I32) = [I32.lit 0, I32.lit 0, I32.lit 0] ∧
    comps (IV3.ofXY_Z p x) = comps p ++ [x] ∧
    comps (IV3.ofX_YZ x p) = [x] ++ comps p := by
  refine ⟨?_, ?_, ?_, ?_, ?_⟩ <;> intros <;> rfl

/-- C04: all constructors of `ivec4`. -/
theorem C04_ivec4 (x y z w : I32) (p q : V2 I32) (t : V3 I32) :
    comps (IV4.ofXYZW x y z w) = [x, y, z, w] ∧
    comps (IV4.splat x) = [x, x, x, x] ∧
    comps (IV4.default : V4 I32) = [I32.lit 0, I32.lit 0, I32.lit 0, I32.lit 0] ∧
    comps (IV4.ofXYZ_W t x) = comps t ++ [x] ∧
    comps (IV4.ofX_YZW x t) = [x] ++ comps t ∧
    comps (IV4.ofXY_ZW p q) = comps p ++ comps q ∧
    comps (IV4.ofXY_Z_W p x y) = comps p ++ [x, y] ∧
    comps (IV4.ofX_YZ_W x p y) = [x] ++ comps p ++ [y] ∧
    comps (IV4.ofX_Y_ZW x y p) = [x, y] ++ comps p := by
  refine ⟨?_, ?_, ?_, ?_, ?_, ?_, ?_, ?_, ?_⟩ <;> intros <;> rfl

/-- C04: all constructors of `bvec2`. -/
theorem C04_bvec2 (x y : Bool) :
    comps (BV2.ofXY x y) = [x, y] ∧
    comps (BV2.splat x) = [x, x] ∧
    comps (BV2.default : V2 Bool) = [false, false] := by
  refine ⟨?_, ?_, ?_⟩ <;> intros <;> rfl

/-- C04: all constructors of `bvec3`. -/
theorem C04_bvec3 (x y z : Bool) (p : V2 Bool) :
    comps (BV3.ofXYZ x y z) = [x, y, z] ∧
    comps (BV3.splat x) = [x, x, x] ∧
    comps (BV3.default : V3 Bool) = [false, false, false] ∧
    comps (BV3.ofXY_Z p x) = comps p ++ [x] ∧
    comps (BV3.ofX_YZ x p) = [x] ++ comps p := by
  refine ⟨?_, ?_, ?_, ?_, ?_⟩ <;> intros <;> rfl

/-- C04: all constructors of `bvec4`. -/
theorem C04_bvec4 (x y z w : Bool) (p q : V2 Bool) (t : V3 Bool) :
    comps (BV4.ofXYZW x y z w) = [x, y, z, w] ∧
    comps (BV4.splat x) = [x, x, x, x] ∧
    comps (BV4.default : V4 Bool) = [false, false, false, false] ∧
    comps (BV4.ofXYZ_W t x) = comps t ++ [x] ∧
    comps (BV4.ofX_YZW x t) = [x] ++ comps t ∧
    comps (BV4.ofXY_ZW p q) = comps p ++ comps q ∧
    comps (BV4.ofXY_Z_W p x y) = comps p ++ [x, y] ∧
    comps (BV4.ofX_YZ_W x p y) = [x] ++ comps p ++ [y] ∧
    comps (BV4.ofX_Y_ZW x y p) = [x, y] ++ comps p := by
  refine ⟨?_, ?_, ?_, ?_, ?_, ?_, ?_, ?_, ?_⟩ <;> intros <;> rfl

/-- Non-vacuity: the components of a concrete vector built from two parts. -/
example : comps (V4.ofX_YZ_W (1 : ℤ) ⟨2, 3⟩ 4) = [1, 2, 3, 4] := by decide

end Zcm
