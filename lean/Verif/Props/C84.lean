import Verif.Spec.Coord
import Verif.Model.Geometric
import Verif.Lemmas.SignedZero

/-!
# C84  Sign symmetries hold in IEEE arithmetic

Negating operands commutes with the operations for every float, infinities and NaN included; where the code adds or
subtracts, a zero result may come with the other sign (`SameNumber`), which `==` does not see.
-/

namespace Zcm

open F32

theorem neg_sq' (a : F32) : -a * -a = a * a := by rw [neg_mul', mul_neg', neg_neg']

/-- C84, `vec2`: `a - b` and `-(b - a)`; `dot` with a negated operand; `length2`, `length`, `distance` do not see a
common sign and `normalize(-v)` is `-normalize(v)`, bit for bit. -/
theorem C84_vec2 (a b : V2 F32) :
    (∀ i, SameNumber (coord (a - b) i) (coord (-(b - a)) i)) ∧
    SameNumber (V2.dot (-a) b) (-V2.dot a b) ∧ SameNumber (V2.dot a (-b)) (-V2.dot a b) ∧
    V2.dot (-a) (-b) = V2.dot a b ∧ V2.length2 (-a) = V2.length2 a ∧ V2.length (-a) = V2.length a ∧
    V2.normalize (-a) = -V2.normalize a := by
  have d2 : V2.dot (-a) (-b) = V2.dot a b := by
    simp only [V2.dot, V2.neg_x, V2.neg_y, neg_mul', mul_neg', neg_neg']
  have d3 : V2.dot (-a) (-a) = V2.dot a a := by
    simp only [V2.dot, V2.neg_x, V2.neg_y, neg_mul', mul_neg', neg_neg']
  refine ⟨fun i => ?_, ?_, ?_, d2, d3, ?_, ?_⟩
  · fin_cases i <;> exact SameNumber.sub_swap' _ _
  · simp only [V2.dot, V2.neg_x, V2.neg_y, neg_mul']
    exact SameNumber.neg_add _ _
  · simp only [V2.dot, V2.neg_x, V2.neg_y, mul_neg']
    exact SameNumber.neg_add _ _
  · simp only [V2.length, V2.neg_x, V2.neg_y, neg_mul', mul_neg', neg_neg']
  · simp only [V2.normalize, d3]
    ext <;> exact neg_mul' _ _

/-- C84, `distance` of two negated `vec2` is the same. -/
theorem C84_distance_vec2 (a b : V2 F32) : V2.distance (-a) (-b) = V2.distance a b := by
  have e : ∀ x y : F32, (-x - -y) * (-x - -y) = (x - y) * (x - y) := by
    intro x y
    have : -x - -y = y - x := by rw [sub_eq, neg_neg', add_comm', sub_eq]
    rw [this, sub_sq_comm]
  simp only [V2.distance, V2.length, V2.neg_x, V2.sub_x, V2.neg_y, V2.sub_y, e]

/-- C84, `vec3`: `a - b` and `-(b - a)`; `dot` with a negated operand; `length2`, `length`, `distance` do not see a
common sign and `normalize(-v)` is `-normalize(v)`, bit for bit. -/
theorem C84_vec3 (a b : V3 F32) :
    (∀ i, SameNumber (coord (a - b) i) (coord (-(b - a)) i)) ∧
    SameNumber (V3.dot (-a) b) (-V3.dot a b) ∧ SameNumber (V3.dot a (-b)) (-V3.dot a b) ∧
    V3.dot (-a) (-b) = V3.dot a b ∧ V3.length2 (-a) = V3.length2 a ∧ V3.length (-a) = V3.length a ∧
    V3.normalize (-a) = -V3.normalize a := by
  have d2 : V3.dot (-a) (-b) = V3.dot a b := by
    simp only [V3.dot, V3.neg_x, V3.neg_y, V3.neg_z, neg_mul', mul_neg', neg_neg']
  have d3 : V3.dot (-a) (-a) = V3.dot a a := by
    simp only [V3.dot, V3.neg_x, V3.neg_y, V3.neg_z, neg_mul', mul_neg', neg_neg']
  refine ⟨fun i => ?_, ?_, ?_, d2, d3, ?_, ?_⟩
  · fin_cases i <;> exact SameNumber.sub_swap' _ _
  · simp only [V3.dot, V3.neg_x, V3.neg_y, V3.neg_z, neg_mul']
    exact ((SameNumber.neg_add _ _).add .rfl).trans (SameNumber.neg_add _ _)
  · simp only [V3.dot, V3.neg_x, V3.neg_y, V3.neg_z, mul_neg']
    exact ((SameNumber.neg_add _ _).add .rfl).trans (SameNumber.neg_add _ _)
  · simp only [V3.length, V3.neg_x, V3.neg_y, V3.neg_z, neg_mul', mul_neg', neg_neg']
  · simp only [V3.normalize, d3]
    ext <;> exact neg_mul' _ _

/-- C84, `distance` of two negated `vec3` is the same. -/
theorem C84_distance_vec3 (a b : V3 F32) : V3.distance (-a) (-b) = V3.distance a b := by
  have e : ∀ x y : F32, (-x - -y) * (-x - -y) = (x - y) * (x - y) := by
    intro x y
    have : -x - -y = y - x := by rw [sub_eq, neg_neg', add_comm', sub_eq]
    rw [this, sub_sq_comm]
  simp only [V3.distance, V3.length, V3.neg_x, V3.sub_x, V3.neg_y, V3.sub_y, V3.neg_z, V3.sub_z, e]

/-- C84, `vec4`: `a - b` and `-(b - a)`; `dot` with a negated operand; `length2`, `length`, `distance` do not see a
common sign and `normalize(-v)` is `-normalize(v)`, bit for bit. -/
theorem C84_vec4 (a b : V4 F32) :
    (∀ i, SameNumber (coord (a - b) i) (coord (-(b - a)) i)) ∧
    SameNumber (V4.dot (-a) b) (-V4.dot a b) ∧ SameNumber (V4.dot a (-b)) (-V4.dot a b) ∧
    V4.dot (-a) (-b) = V4.dot a b ∧ V4.length2 (-a) = V4.length2 a ∧ V4.length (-a) = V4.length a ∧
    V4.normalize (-a) = -V4.normalize a := by
  have d2 : V4.dot (-a) (-b) = V4.dot a b := by
    simp only [V4.dot, V4.neg_x, V4.neg_y, V4.neg_z, V4.neg_w, neg_mul', mul_neg', neg_neg']
  have d3 : V4.dot (-a) (-a) = V4.dot a a := by
    simp only [V4.dot, V4.neg_x, V4.neg_y, V4.neg_z, V4.neg_w, neg_mul', mul_neg', neg_neg']
  refine ⟨fun i => ?_, ?_, ?_, d2, d3, ?_, ?_⟩
  · fin_cases i <;> exact SameNumber.sub_swap' _ _
  · simp only [V4.dot, V4.neg_x, V4.neg_y, V4.neg_z, V4.neg_w, neg_mul']
    exact ((((SameNumber.neg_add _ _).add .rfl).trans (SameNumber.neg_add _ _)).add .rfl).trans (SameNumber.neg_add _ _)
  · simp only [V4.dot, V4.neg_x, V4.neg_y, V4.neg_z, V4.neg_w, mul_neg']
    exact ((((SameNumber.neg_add _ _).add .rfl).trans (SameNumber.neg_add _ _)).add .rfl).trans (SameNumber.neg_add _ _)
  · simp only [V4.length, V4.neg_x, V4.neg_y, V4.neg_z, V4.neg_w, neg_mul', mul_neg', neg_neg']
  · simp only [V4.normalize, d3]
    ext <;> exact neg_mul' _ _

/-- C84, `distance` of two negated `vec4` is the same. -/
theorem C84_distance_vec4 (a b : V4 F32) : V4.distance (-a) (-b) = V4.distance a b := by
  have e : ∀ x y : F32, (-x - -y) * (-x - -y) = (x - y) * (x - y) := by
    intro x y
    have : -x - -y = y - x := by rw [sub_eq, neg_neg', add_comm', sub_eq]
    rw [this, sub_sq_comm]
  simp only [V4.distance, V4.length, V4.neg_x, V4.sub_x, V4.neg_y, V4.sub_y, V4.neg_z, V4.sub_z, V4.neg_w, V4.sub_w, e]

/-- C84, `cross`: exchanging the operands, or negating one of them, negates the result. -/
theorem C84_cross (a b : V3 F32) (i : Fin 3) :
    SameNumber (coord (V3.cross b a) i) (-coord (V3.cross a b) i) ∧
    SameNumber (coord (V3.cross (-a) b) i) (-coord (V3.cross a b) i) ∧
    SameNumber (coord (V3.cross a (-b)) i) (-coord (V3.cross a b) i) ∧
    coord (V3.cross (-a) (-b)) i = coord (V3.cross a b) i := by
  have e : ∀ p q r s : F32, SameNumber (p * q - r * s) (-(s * r - q * p)) := by
    intro p q r s
    rw [mul_comm' s r, mul_comm' q p]
    exact SameNumber.sub_swap' _ _
  have n1 : ∀ p q : F32, SameNumber (-p - -q) (-(p - q)) := fun p q => by
    rw [sub_eq, sub_eq]; exact SameNumber.neg_add p (-q)
  have h : ∀ u v w x : F32, SameNumber (-u * v - -w * x) (-(u * v - w * x)) := fun u v w x => by
    rw [neg_mul', neg_mul']; exact n1 _ _
  have h' : ∀ u v w x : F32, SameNumber (u * -v - w * -x) (-(u * v - w * x)) := fun u v w x => by
    rw [mul_neg', mul_neg']; exact n1 _ _
  have h'' : ∀ u v w x : F32, -u * -v - -w * -x = u * v - w * x := fun u v w x => by
    rw [mul_neg', mul_neg', neg_mul', neg_mul', neg_neg', neg_neg']
  refine ⟨?_, ?_, ?_, ?_⟩ <;> fin_cases i
  iterate 3 exact e _ _ _ _
  iterate 3 exact h _ _ _ _
  iterate 3 exact h' _ _ _ _
  iterate 3 exact h'' _ _ _ _

/-- C84, `cross(a, a)`: every component is `+0`, unless a product overflows (then it is NaN). -/
theorem C84_cross_self (a : V3 F32) (i : Fin 3) :
    (coord (V3.cross a a) i = lit 0 ∨ coord (V3.cross a a) i = .nan) ∧
    ((coord a (i + 1) * coord a (i + 2)).IsFin = true → coord (V3.cross a a) i = lit 0) := by
  have e : ∀ x y : F32, ((x * y - y * x = lit 0) ∨ x * y - y * x = .nan) ∧
      ((x * y).IsFin = true → x * y - y * x = lit 0) := by
    intro x y
    rw [mul_comm' y x]
    generalize x * y = z
    refine ⟨?_, fun h => sub_self' h⟩
    rcases z with _ | s | ⟨s, k, h⟩
    · right; rfl
    · right; cases s <;> rfl
    · left; exact sub_self' rfl
  fin_cases i <;> exact e _ _

/-- C84, `mat2 * vec2`: a negated vector or matrix gives the negated result. -/
theorem C84_mat2 (m : M2 F32) (v : V2 F32) (i : Fin 2) :
    SameNumber (coord (m * -v) i) (-coord (m * v) i) ∧ SameNumber (coord (-m * v) i) (-coord (m * v) i) := by
  have h : ∀ p0 q0 p1 q1 : F32, SameNumber (p0 * -q0 + p1 * -q1) (-(p0 * q0 + p1 * q1)) := by
    intros
    simp only [mul_neg']
    exact SameNumber.neg_add _ _
  have g : ∀ p0 q0 p1 q1 : F32, SameNumber (-p0 * q0 + -p1 * q1) (-(p0 * q0 + p1 * q1)) := by
    intros
    simp only [neg_mul']
    exact SameNumber.neg_add _ _
  constructor <;> fin_cases i
  iterate 2 exact h _ _ _ _
  iterate 2 exact g _ _ _ _

/-- C84, `mat3 * vec3`: a negated vector or matrix gives the negated result. -/
theorem C84_mat3 (m : M3 F32) (v : V3 F32) (i : Fin 3) :
    SameNumber (coord (m * -v) i) (-coord (m * v) i) ∧ SameNumber (coord (-m * v) i) (-coord (m * v) i) := by
  have h : ∀ p0 q0 p1 q1 p2 q2 : F32, SameNumber (p0 * -q0 + p1 * -q1 + p2 * -q2) (-(p0 * q0 + p1 * q1 + p2 * q2)) := by
    intros
    simp only [mul_neg']
    exact ((SameNumber.neg_add _ _).add .rfl).trans (SameNumber.neg_add _ _)
  have g : ∀ p0 q0 p1 q1 p2 q2 : F32, SameNumber (-p0 * q0 + -p1 * q1 + -p2 * q2) (-(p0 * q0 + p1 * q1 + p2 * q2)) := by
    intros
    simp only [neg_mul']
    exact ((SameNumber.neg_add _ _).add .rfl).trans (SameNumber.neg_add _ _)
  constructor <;> fin_cases i
  iterate 3 exact h _ _ _ _ _ _
  iterate 3 exact g _ _ _ _ _ _

/-- C84, `mat4 * vec4`: a negated vector or matrix gives the negated result. -/
theorem C84_mat4 (m : M4 F32) (v : V4 F32) (i : Fin 4) :
    SameNumber (coord (m * -v) i) (-coord (m * v) i) ∧ SameNumber (coord (-m * v) i) (-coord (m * v) i) := by
  have h : ∀ p0 q0 p1 q1 p2 q2 p3 q3 : F32, SameNumber ((p0 * -q0 + p1 * -q1) + (p2 * -q2 + p3 * -q3)) (-((p0 * q0 + p1 * q1) + (p2 * q2 + p3 * q3))) := by
    intros
    simp only [mul_neg']
    exact ((SameNumber.neg_add _ _).add (SameNumber.neg_add _ _)).trans (SameNumber.neg_add _ _)
  have g : ∀ p0 q0 p1 q1 p2 q2 p3 q3 : F32, SameNumber ((-p0 * q0 + -p1 * q1) + (-p2 * q2 + -p3 * q3)) (-((p0 * q0 + p1 * q1) + (p2 * q2 + p3 * q3))) := by
    intros
    simp only [neg_mul']
    exact ((SameNumber.neg_add _ _).add (SameNumber.neg_add _ _)).trans (SameNumber.neg_add _ _)
  constructor <;> fin_cases i
  iterate 4 exact h _ _ _ _ _ _ _ _
  iterate 4 exact g _ _ _ _ _ _ _ _

/-- Non-vacuity: the sign of a zero really differs (the product of perpendicular vectors), and `==` does not see it. -/
example :
    let a : V2 F32 := ⟨lit 1, lit 1⟩
    let b : V2 F32 := ⟨lit 1, lit (-1)⟩
    V2.dot (-a) b ≠ -V2.dot a b ∧ (V2.dot (-a) b == -V2.dot a b) = true := by decide +kernel

end Zcm
