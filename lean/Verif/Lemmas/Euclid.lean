import Verif.Spec.Euclid
import Verif.Lemmas.Ops
import Mathlib.Tactic.Linarith

/-!
# Lemmas: the geometric functions in exact arithmetic are those of Euclidean space
-/

namespace Zcm

@[simp] theorem eu_apply {V : Type → Type} {n : ℕ} [Coords V n] (v : V ℝ) (i : Fin n) :
    eu v i = coord v i := rfl

theorem eu_inj {V : Type → Type} {n : ℕ} [Coords V n] {a b : V ℝ} :
    eu a = eu b ↔ ∀ i, coord a i = coord b i := by
  constructor
  · intro h i; rw [← eu_apply, h]; rfl
  · intro h; ext i; exact h i


theorem V2.eu_add (a b : V2 ℝ) : eu (a + b) = eu a + eu b := by
  ext i; fin_cases i <;> rfl
theorem V2.eu_sub (a b : V2 ℝ) : eu (a - b) = eu a - eu b := by
  ext i; fin_cases i <;> rfl
theorem V2.eu_neg (a : V2 ℝ) : eu (-a) = -eu a := by
  ext i; fin_cases i <;> rfl
theorem V2.eu_smul (s : ℝ) (a : V2 ℝ) : eu (s * a) = s • eu a := by
  ext i; fin_cases i <;> rfl
theorem V2.eu_mulS (a : V2 ℝ) (s : ℝ) : eu (a * s) = s • eu a := by
  ext i; fin_cases i <;> exact mul_comm _ _
theorem V2.eu_injective {a b : V2 ℝ} : eu a = eu b ↔ a = b := eu_inj.trans coord_inj2
theorem V2.dot_eq_sum (a b : V2 ℝ) : V2.dot a b = ∑ i, coord a i * coord b i := by
  rw [Fin.sum_univ_two]; rfl
theorem V2.dot_eq_inner (a b : V2 ℝ) : V2.dot a b = inner ℝ (eu a) (eu b) := by
  rw [V2.dot_eq_sum, PiLp.inner_apply]
  exact Finset.sum_congr rfl fun i _ => mul_comm _ _
theorem V2.length_eq_norm (a : V2 ℝ) : V2.length a = ‖eu a‖ := by
  rw [EuclideanSpace.norm_eq, Fin.sum_univ_two]
  simp [V2.length, sq]
theorem V2.length_eq_sqrt_dot (a : V2 ℝ) : V2.length a = Real.sqrt (V2.dot a a) := rfl
theorem V2.eu_eq_zero {a : V2 ℝ} : eu a = 0 ↔ ∀ i, coord a i = 0 := by
  constructor
  · intro h i; rw [← eu_apply, h]; rfl
  · intro h; ext i; exact h i

theorem V3.eu_add (a b : V3 ℝ) : eu (a + b) = eu a + eu b := by
  ext i; fin_cases i <;> rfl
theorem V3.eu_sub (a b : V3 ℝ) : eu (a - b) = eu a - eu b := by
  ext i; fin_cases i <;> rfl
theorem V3.eu_neg (a : V3 ℝ) : eu (-a) = -eu a := by
  ext i; fin_cases i <;> rfl
theorem V3.eu_smul (s : ℝ) (a : V3 ℝ) : eu (s * a) = s • eu a := by
  ext i; fin_cases i <;> rfl
theorem V3.eu_mulS (a : V3 ℝ) (s : ℝ) : eu (a * s) = s • eu a := by
  ext i; fin_cases i <;> exact mul_comm _ _
theorem V3.eu_injective {a b : V3 ℝ} : eu a = eu b ↔ a = b := eu_inj.trans coord_inj3
theorem V3.dot_eq_sum (a b : V3 ℝ) : V3.dot a b = ∑ i, coord a i * coord b i := by
  rw [Fin.sum_univ_three]; rfl
theorem V3.dot_eq_inner (a b : V3 ℝ) : V3.dot a b = inner ℝ (eu a) (eu b) := by
  rw [V3.dot_eq_sum, PiLp.inner_apply]
  exact Finset.sum_congr rfl fun i _ => mul_comm _ _
theorem V3.length_eq_norm (a : V3 ℝ) : V3.length a = ‖eu a‖ := by
  rw [EuclideanSpace.norm_eq, Fin.sum_univ_three]
  simp [V3.length, sq]
theorem V3.length_eq_sqrt_dot (a : V3 ℝ) : V3.length a = Real.sqrt (V3.dot a a) := rfl
theorem V3.eu_eq_zero {a : V3 ℝ} : eu a = 0 ↔ ∀ i, coord a i = 0 := by
  constructor
  · intro h i; rw [← eu_apply, h]; rfl
  · intro h; ext i; exact h i

theorem V4.eu_add (a b : V4 ℝ) : eu (a + b) = eu a + eu b := by
  ext i; fin_cases i <;> rfl
theorem V4.eu_sub (a b : V4 ℝ) : eu (a - b) = eu a - eu b := by
  ext i; fin_cases i <;> rfl
theorem V4.eu_neg (a : V4 ℝ) : eu (-a) = -eu a := by
  ext i; fin_cases i <;> rfl
theorem V4.eu_smul (s : ℝ) (a : V4 ℝ) : eu (s * a) = s • eu a := by
  ext i; fin_cases i <;> rfl
theorem V4.eu_mulS (a : V4 ℝ) (s : ℝ) : eu (a * s) = s • eu a := by
  ext i; fin_cases i <;> exact mul_comm _ _
theorem V4.eu_injective {a b : V4 ℝ} : eu a = eu b ↔ a = b := eu_inj.trans coord_inj4
theorem V4.dot_eq_sum (a b : V4 ℝ) : V4.dot a b = ∑ i, coord a i * coord b i := by
  rw [Fin.sum_univ_four]; rfl
theorem V4.dot_eq_inner (a b : V4 ℝ) : V4.dot a b = inner ℝ (eu a) (eu b) := by
  rw [V4.dot_eq_sum, PiLp.inner_apply]
  exact Finset.sum_congr rfl fun i _ => mul_comm _ _
theorem V4.length_eq_norm (a : V4 ℝ) : V4.length a = ‖eu a‖ := by
  rw [EuclideanSpace.norm_eq, Fin.sum_univ_four]
  simp [V4.length, sq]
theorem V4.length_eq_sqrt_dot (a : V4 ℝ) : V4.length a = Real.sqrt (V4.dot a a) := rfl
theorem V4.eu_eq_zero {a : V4 ℝ} : eu a = 0 ↔ ∀ i, coord a i = 0 := by
  constructor
  · intro h i; rw [← eu_apply, h]; rfl
  · intro h; ext i; exact h i

theorem Quat.eu_add (a b : Quat ℝ) : eu (a + b) = eu a + eu b := by
  ext i; fin_cases i <;> rfl
theorem Quat.eu_sub (a b : Quat ℝ) : eu (a - b) = eu a - eu b := by
  ext i; fin_cases i <;> rfl
theorem Quat.eu_neg (a : Quat ℝ) : eu (-a) = -eu a := by
  ext i; fin_cases i <;> rfl
theorem Quat.eu_smul (s : ℝ) (a : Quat ℝ) : eu (s * a) = s • eu a := by
  ext i; fin_cases i <;> exact mul_comm _ _
theorem Quat.eu_mulS (a : Quat ℝ) (s : ℝ) : eu (a * s) = s • eu a := by
  ext i; fin_cases i <;> exact mul_comm _ _
theorem Quat.eu_injective {a b : Quat ℝ} : eu a = eu b ↔ a = b := eu_inj.trans coord_injQ
theorem Quat.dot_eq_sum (a b : Quat ℝ) : Quat.dot a b = ∑ i, coord a i * coord b i := by
  rw [Fin.sum_univ_four]; rfl
theorem Quat.dot_eq_inner (a b : Quat ℝ) : Quat.dot a b = inner ℝ (eu a) (eu b) := by
  rw [Quat.dot_eq_sum, PiLp.inner_apply]
  exact Finset.sum_congr rfl fun i _ => mul_comm _ _
theorem Quat.length_eq_norm (a : Quat ℝ) : Quat.length a = ‖eu a‖ := by
  rw [EuclideanSpace.norm_eq, Fin.sum_univ_four]
  simp [Quat.length, sq]
theorem Quat.length_eq_sqrt_dot (a : Quat ℝ) : Quat.length a = Real.sqrt (Quat.dot a a) := rfl
theorem Quat.eu_eq_zero {a : Quat ℝ} : eu a = 0 ↔ ∀ i, coord a i = 0 := by
  constructor
  · intro h i; rw [← eu_apply, h]; rfl
  · intro h; ext i; exact h i

end Zcm
