import Verif.Lemmas.Normalize
import Mathlib.Tactic.LinearCombination

/-!
# C37: refract obeys Snell's law

Exact arithmetic.
-/

namespace Zcm

/-- C37 for `float`: the unit vectors are `±1`, there is no total reflection, and the result is the
unit vector pointing against `N`. -/
theorem C37_float (I N eta : ℝ) (hI : |I| = 1) (hN : |N| = 1) : F.refract I N eta = -N := by
  have hI : I * I = 1 := by rw [← abs_mul_abs_self, hI, one_mul]
  have hN : N * N = 1 := by rw [← abs_mul_abs_self, hN, one_mul]
  have hk : (1:ℝ) - eta * eta * (1 - N * I * (N * I)) = 1 := by
    linear_combination (eta ^ 2 * N ^ 2) * hI + eta ^ 2 * hN
  simp only [F.refract, F.dot, lit_real, F.sqrt_real]
  push_cast
  rw [hk, if_neg (by norm_num), Real.sqrt_one]
  linear_combination (-(eta * I)) * hN

/-- C37 for `vec2`.  `k` is the squared cosine of the angle of refraction. -/
theorem C37_vec2 (I N : V2 ℝ) (eta k : ℝ) (hI : V2.length I = 1) (hN : V2.length N = 1)
    (hk : k = 1 - eta ^ 2 * (1 - V2.dot N I ^ 2)) :
    (0 ≤ k →
      V2.length (V2.refract I N eta) = 1 ∧
      (∃ p q : ℝ, V2.refract I N eta = p * I + q * N) ∧
      V2.dot (V2.refract I N eta) N = -Real.sqrt k ∧
      V2.refract I N eta - V2.dot (V2.refract I N eta) N * N = eta * (I - V2.dot I N * N)) ∧
    (k < 0 → ∀ i, coord (V2.refract I N eta) i = 0) := by
  have hI := V2.dot_self_of_length hI
  have hN := V2.dot_self_of_length hN
  have hk' : (lit 1 : ℝ) - eta * eta * (lit 1 - V2.dot N I * V2.dot N I) = k := by
    rw [hk]; simp only [lit_real]; push_cast; ring
  constructor
  · intro h0
    have e : V2.refract I N eta = eta * I - (eta * V2.dot N I + Real.sqrt k) * N := by
      simp only [V2.refract, hk', F.sqrt_real]
      rw [if_neg (by simpa using h0)]
    have hs := Real.sq_sqrt h0
    rw [e]
    generalize Real.sqrt k = r at hs ⊢
    simp only [V2.dot] at hI hN hk
    have h3 : V2.dot (eta * I - (eta * V2.dot N I + r) * N) N = -r := by
      simp [V2.dot]
      linear_combination (-(eta * (N.x*I.x+N.y*I.y) + r)) * hN
    refine ⟨?_, ⟨eta, -(eta * V2.dot N I + r), ?_⟩, h3, ?_⟩
    · apply V2.length_of_dot_self
      simp [V2.dot]
      linear_combination (eta ^ 2) * hI + ((eta * (N.x*I.x+N.y*I.y) + r) ^ 2) * hN + hs + hk
    · ext <;> simp <;> ring
    · rw [h3]; ext <;> simp [V2.dot] <;> ring
  · intro h0 i
    simp only [V2.refract, hk']
    rw [if_pos (by simpa using h0)]
    fin_cases i <;> simp

/-- C37 for `vec3`.  `k` is the squared cosine of the angle of refraction. -/
theorem C37_vec3 (I N : V3 ℝ) (eta k : ℝ) (hI : V3.length I = 1) (hN : V3.length N = 1)
    (hk : k = 1 - eta ^ 2 * (1 - V3.dot N I ^ 2)) :
    (0 ≤ k →
      V3.length (V3.refract I N eta) = 1 ∧
      (∃ p q : ℝ, V3.refract I N eta = p * I + q * N) ∧
      V3.dot (V3.refract I N eta) N = -Real.sqrt k ∧
      V3.refract I N eta - V3.dot (V3.refract I N eta) N * N = eta * (I - V3.dot I N * N)) ∧
    (k < 0 → ∀ i, coord (V3.refract I N eta) i = 0) := by
  have hI := V3.dot_self_of_length hI
  have hN := V3.dot_self_of_length hN
  have hk' : (lit 1 : ℝ) - eta * eta * (lit 1 - V3.dot N I * V3.dot N I) = k := by
    rw [hk]; simp only [lit_real]; push_cast; ring
  constructor
  · intro h0
    have e : V3.refract I N eta = eta * I - (eta * V3.dot N I + Real.sqrt k) * N := by
      simp only [V3.refract, hk', F.sqrt_real]
      rw [if_neg (by simpa using h0)]
    have hs := Real.sq_sqrt h0
    rw [e]
    generalize Real.sqrt k = r at hs ⊢
    simp only [V3.dot] at hI hN hk
    have h3 : V3.dot (eta * I - (eta * V3.dot N I + r) * N) N = -r := by
      simp [V3.dot]
      linear_combination (-(eta * (N.x*I.x+N.y*I.y+N.z*I.z) + r)) * hN
    refine ⟨?_, ⟨eta, -(eta * V3.dot N I + r), ?_⟩, h3, ?_⟩
    · apply V3.length_of_dot_self
      simp [V3.dot]
      linear_combination (eta ^ 2) * hI + ((eta * (N.x*I.x+N.y*I.y+N.z*I.z) + r) ^ 2) * hN + hs + hk
    · ext <;> simp <;> ring
    · rw [h3]; ext <;> simp [V3.dot] <;> ring
  · intro h0 i
    simp only [V3.refract, hk']
    rw [if_pos (by simpa using h0)]
    fin_cases i <;> simp

/-- C37 for `vec4`.  `k` is the squared cosine of the angle of refraction. -/
theorem C37_vec4 (I N : V4 ℝ) (eta k : ℝ) (hI : V4.length I = 1) (hN : V4.length N = 1)
    (hk : k = 1 - eta ^ 2 * (1 - V4.dot N I ^ 2)) :
    (0 ≤ k →
      V4.length (V4.refract I N eta) = 1 ∧
      (∃ p q : ℝ, V4.refract I N eta = p * I + q * N) ∧
      V4.dot (V4.refract I N eta) N = -Real.sqrt k ∧
      V4.refract I N eta - V4.dot (V4.refract I N eta) N * N = eta * (I - V4.dot I N * N)) ∧
    (k < 0 → ∀ i, coord (V4.refract I N eta) i = 0) := by
  have hI := V4.dot_self_of_length hI
  have hN := V4.dot_self_of_length hN
  have hk' : (lit 1 : ℝ) - eta * eta * (lit 1 - V4.dot N I * V4.dot N I) = k := by
    rw [hk]; simp only [lit_real]; push_cast; ring
  constructor
  · intro h0
    have e : V4.refract I N eta = eta * I - (eta * V4.dot N I + Real.sqrt k) * N := by
      simp only [V4.refract, hk', F.sqrt_real]
      rw [if_neg (by simpa using h0)]
    have hs := Real.sq_sqrt h0
    rw [e]
    generalize Real.sqrt k = r at hs ⊢
    simp only [V4.dot] at hI hN hk
    have h3 : V4.dot (eta * I - (eta * V4.dot N I + r) * N) N = -r := by
      simp [V4.dot]
      linear_combination (-(eta * (N.x*I.x+N.y*I.y+N.z*I.z+N.w*I.w) + r)) * hN
    refine ⟨?_, ⟨eta, -(eta * V4.dot N I + r), ?_⟩, h3, ?_⟩
    · apply V4.length_of_dot_self
      simp [V4.dot]
      linear_combination (eta ^ 2) * hI + ((eta * (N.x*I.x+N.y*I.y+N.z*I.z+N.w*I.w) + r) ^ 2) * hN + hs + hk
    · ext <;> simp <;> ring
    · rw [h3]; ext <;> simp [V4.dot] <;> ring
  · intro h0 i
    simp only [V4.refract, hk']
    rw [if_pos (by simpa using h0)]
    fin_cases i <;> simp

/-- Non-vacuity: refraction and total reflection both occur. -/
example : V2.length (⟨3/5, -4/5⟩ : V2 ℝ) = 1 ∧ V2.length (⟨0, 1⟩ : V2 ℝ) = 1 ∧
    (0:ℝ) ≤ 1 - (1/2) ^ 2 * (1 - V2.dot (⟨0, 1⟩ : V2 ℝ) ⟨3/5, -4/5⟩ ^ 2) ∧
    1 - 2 ^ 2 * (1 - V2.dot (⟨0, 1⟩ : V2 ℝ) ⟨3/5, -4/5⟩ ^ 2) < 0 := by
  refine ⟨V2.length_of_dot_self ?_, V2.length_of_dot_self ?_, ?_, ?_⟩ <;> simp [V2.dot] <;> norm_num

end Zcm
