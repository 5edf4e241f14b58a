import Verif.Lemmas.F32Inverse
import Verif.Props.C90

/-!
# C107  Undoing rotations in IEEE arithmetic

`inverse(q)` and `v * q` in binary32, compared with the exact inverse and with the exact rotation back `q⁻¹ v q`.
-/

namespace Zcm

open Quaternion F32

/-- C107: `conjugate` makes no rounding error. -/
theorem C107_conjugate (q : Quat F32) : exactQ (Quat.conjugate q) = star (exactQ q) := conjugate_exact q

/-- C107: `inverse(q)` is finite and within `5.1 * 2^-24` (relative to its norm) of the exact inverse, for every finite `q` of
norm between `2^-50` and `2^50`. -/
theorem C107_inverse (q : Quat F32) (hq : q.Finite) (h1 : 1 / 2 ^ 50 ≤ ‖exactQ q‖) (h2 : ‖exactQ q‖ ≤ 2 ^ 50) :
    (Quat.inverse q).Finite ∧ ‖exactQ (Quat.inverse q) - (exactQ q)⁻¹‖ ≤ 5.1 / 2 ^ 24 * ‖(exactQ q)⁻¹‖ :=
  inverse_near q hq h1 h2

/-- C107: the computed products `q * inverse(q)` and `inverse(q) * q` are within `2^-15` of 1. -/
theorem C107_cancel (q : Quat F32) (hq : q.Finite) (h1 : 1 / 2 ^ 50 ≤ ‖exactQ q‖) (h2 : ‖exactQ q‖ ≤ 2 ^ 50) :
    ((q * Quat.inverse q).Finite ∧ ‖exactQ (q * Quat.inverse q) - 1‖ ≤ 1 / 2 ^ 15) ∧
    (Quat.inverse q * q).Finite ∧ ‖exactQ (Quat.inverse q * q) - 1‖ ≤ 1 / 2 ^ 15 := by
  obtain ⟨f, e⟩ := inverse_near q hq h1 h2
  have n0 : 0 < ‖exactQ q‖ := lt_of_lt_of_le (by norm_num) h1
  have q0 : exactQ q ≠ 0 := norm_pos_iff.1 n0
  have ni : ‖(exactQ q)⁻¹‖ = ‖exactQ q‖⁻¹ := norm_inv _
  have k : ‖exactQ q‖ * ‖exactQ q‖⁻¹ = 1 := mul_inv_cancel₀ n0.ne'
  have i0 : 0 < ‖exactQ q‖⁻¹ := inv_pos.2 n0
  have hi : ‖exactQ q‖⁻¹ ≤ 2 ^ 50 := by
    rw [inv_le_comm₀ n0 (by norm_num), ← one_div]; exact h1
  rw [ni] at e
  have t := abs_le.1 ((abs_norm_sub_norm_le (exactQ (Quat.inverse q)) (exactQ q)⁻¹).trans e)
  rw [ni] at t
  have up : ‖exactQ (Quat.inverse q)‖ ≤ 1.1 * ‖exactQ q‖⁻¹ := by linarith
  have dn : 0.9 * ‖exactQ q‖⁻¹ ≤ ‖exactQ (Quat.inverse q)‖ := by linarith
  have pu : ‖exactQ q‖ * ‖exactQ (Quat.inverse q)‖ ≤ 1.1 := by
    calc ‖exactQ q‖ * ‖exactQ (Quat.inverse q)‖ ≤ ‖exactQ q‖ * (1.1 * ‖exactQ q‖⁻¹) := by gcongr
      _ = 1.1 * (‖exactQ q‖ * ‖exactQ q‖⁻¹) := by ring
      _ = _ := by rw [k, mul_one]
  have pl : 0.9 ≤ ‖exactQ q‖ * ‖exactQ (Quat.inverse q)‖ := by
    calc 0.9 = 0.9 * (‖exactQ q‖ * ‖exactQ q‖⁻¹) := by rw [k, mul_one]
      _ = ‖exactQ q‖ * (0.9 * ‖exactQ q‖⁻¹) := by ring
      _ ≤ _ := by gcongr
  have s : ‖exactQ q‖ * ‖exactQ (Quat.inverse q) - (exactQ q)⁻¹‖ ≤ 5.1 / 2 ^ 24 := by
    calc _ ≤ ‖exactQ q‖ * (5.1 / 2 ^ 24 * ‖exactQ q‖⁻¹) := by gcongr
      _ = 5.1 / 2 ^ 24 * (‖exactQ q‖ * ‖exactQ q‖⁻¹) := by ring
      _ = _ := by rw [k, mul_one]
  constructor
  · obtain ⟨g, m⟩ := Quat.mul_norm q (Quat.inverse q) hq f (h2.trans (by norm_num)) (up.trans (by linarith)) (le_trans (by norm_num) pl)
    refine ⟨g, (norm_sub_le_norm_sub_add_norm_sub _ (exactQ q * exactQ (Quat.inverse q)) _).trans ?_⟩
    have : exactQ q * exactQ (Quat.inverse q) - 1 = exactQ q * (exactQ (Quat.inverse q) - (exactQ q)⁻¹) := by
      rw [mul_sub, mul_inv_cancel₀ q0]
    rw [this, norm_mul]
    linarith
  · obtain ⟨g, m⟩ := Quat.mul_norm (Quat.inverse q) q f hq (up.trans (by linarith)) (h2.trans (by norm_num))
      (by rw [mul_comm]; exact le_trans (by norm_num) pl)
    rw [mul_comm ‖exactQ (Quat.inverse q)‖] at m
    refine ⟨g, (norm_sub_le_norm_sub_add_norm_sub _ (exactQ (Quat.inverse q) * exactQ q) _).trans ?_⟩
    have : exactQ (Quat.inverse q) * exactQ q - 1 = (exactQ (Quat.inverse q) - (exactQ q)⁻¹) * exactQ q := by
      rw [sub_mul, inv_mul_cancel₀ q0]
    rw [this, norm_mul, mul_comm ‖exactQ (Quat.inverse q) - (exactQ q)⁻¹‖]
    linarith

/-- conjugation by two nearby quaternions -/
theorem conj_close_of {a b x : ℍ[ℝ]} (ha : a ≠ 0) (hb : b ≠ 0) : ‖a * x * a⁻¹ - b * x * b⁻¹‖ ≤ 2 * ‖a - b‖ / ‖a‖ * ‖x‖ := by
  have e : a⁻¹ - b⁻¹ = a⁻¹ * (b - a) * b⁻¹ := by
    rw [mul_sub, sub_mul, inv_mul_cancel₀ ha, one_mul, mul_assoc, mul_inv_cancel₀ hb, mul_one]
  have h : a * x * a⁻¹ - b * x * b⁻¹ = (a - b) * x * a⁻¹ + b * x * (a⁻¹ - b⁻¹) := by
    rw [sub_mul, sub_mul, mul_sub]; abel
  have a0 : 0 < ‖a‖ := norm_pos_iff.2 ha
  have b0 : 0 < ‖b‖ := norm_pos_iff.2 hb
  rw [h, e]
  refine (norm_add_le _ _).trans (le_of_eq ?_)
  rw [norm_mul, norm_mul, norm_mul, norm_mul, norm_mul, norm_mul, norm_inv, norm_inv, norm_sub_rev b a]
  field_simp
  ring

/-- C107: `v * q`, for `q` as `normalize` returns it, is finite and within `2^-15 |v|` of the vector exactly rotated back. -/
theorem C107_back (q : Quat F32) (v : V3 F32) (hq : q.Finite) (hv : v.Finite) (hu : |‖exactQ q‖ - 1| ≤ 1 / 2 ^ 20)
    (h1 : 1 / 2 ^ 100 ≤ ‖exactV v‖) (h2 : ‖exactV v‖ ≤ 2 ^ 120) :
    V3.Finite (v * q) ∧ ‖exactV (v * q) - (exactQ q)⁻¹ * exactV v * exactQ q‖ ≤ 1 / 2 ^ 15 * ‖exactV v‖ := by
  have hu' := abs_le.1 hu
  obtain ⟨f, -⟩ := inverse_near q hq (by linarith) (by linarith)
  obtain ⟨u, e⟩ := inverse_unit hq hu
  have u' := abs_le.1 u
  have q0 : exactQ q ≠ 0 := norm_pos_iff.1 (by linarith)
  have p0 : exactQ (Quat.inverse q) ≠ 0 := norm_pos_iff.1 (by linarith)
  obtain ⟨g, r⟩ := rotate_near (Quat.inverse q) v f hv u (by norm_num) h1 h2
  have c := conj_close_of (x := exactV v) p0 (inv_ne_zero q0)
  rw [inv_inv] at c
  refine ⟨g, (norm_sub_le_norm_sub_add_norm_sub _ _ _).trans ((add_le_add r c).trans ?_)⟩
  rw [← add_mul]
  gcongr
  have : 2 * ‖exactQ (Quat.inverse q) - (exactQ q)⁻¹‖ / ‖exactQ (Quat.inverse q)‖ ≤ 10.5 / 2 ^ 24 := by
    rw [div_le_iff₀ (norm_pos_iff.2 p0)]
    linarith
  linarith

/-- C107: rotating forth and back, in either order, returns the vector to within `2^-14` of its length. -/
theorem C107_undo (q : Quat F32) (v : V3 F32) (hq : q.Finite) (hv : v.Finite) (hu : |‖exactQ q‖ - 1| ≤ 1 / 2 ^ 20)
    (h1 : 1 / 2 ^ 99 ≤ ‖exactV v‖) (h2 : ‖exactV v‖ ≤ 2 ^ 119) :
    (V3.Finite ((q * v) * q) ∧ ‖exactV ((q * v) * q) - exactV v‖ ≤ 1 / 2 ^ 14 * ‖exactV v‖) ∧
    V3.Finite (q * (v * q)) ∧ ‖exactV (q * (v * q)) - exactV v‖ ≤ 1 / 2 ^ 14 * ‖exactV v‖ := by
  have hu' := abs_le.1 hu
  have q0 : exactQ q ≠ 0 := norm_pos_iff.1 (by linarith)
  have n0 : ‖exactQ q‖ ≠ 0 := norm_ne_zero_iff.2 q0
  have v0 := norm_nonneg (exactV v)
  have back : ∀ x : ℍ[ℝ], ‖(exactQ q)⁻¹ * x * exactQ q‖ = ‖x‖ := by
    intro x
    rw [norm_mul, norm_mul, norm_inv]
    field_simp
  have i1 : (exactQ q)⁻¹ * (exactQ q * exactV v * (exactQ q)⁻¹) * exactQ q = exactV v := by
    rw [← mul_assoc, ← mul_assoc, inv_mul_cancel₀ q0, one_mul, mul_assoc, inv_mul_cancel₀ q0, mul_one]
  have i2 : exactQ q * ((exactQ q)⁻¹ * exactV v * exactQ q) * (exactQ q)⁻¹ = exactV v := by
    rw [← mul_assoc, ← mul_assoc, mul_inv_cancel₀ q0, one_mul, mul_assoc, mul_inv_cancel₀ q0, mul_one]
  constructor
  · obtain ⟨f, e⟩ := C90_rotate q v hq hv hu (le_trans (by norm_num) h1) (h2.trans (by norm_num))
    have t := abs_le.1 (C90_length q v hq hv hu (le_trans (by norm_num) h1) (h2.trans (by norm_num)))
    generalize q * v = w at *
    obtain ⟨g, d⟩ := C107_back q w hq f hu (by linarith) (by linarith)
    refine ⟨g, (norm_sub_le_norm_sub_add_norm_sub _ ((exactQ q)⁻¹ * exactV w * exactQ q) _).trans ?_⟩
    nth_rw 1 [← i1]
    rw [← sub_mul, ← mul_sub, back]
    linarith
  · obtain ⟨f, e⟩ := C107_back q v hq hv hu (le_trans (by norm_num) h1) (h2.trans (by norm_num))
    have t := abs_le.1 ((abs_norm_sub_norm_le _ _).trans e)
    rw [back] at t
    generalize v * q = w at *
    obtain ⟨g, d⟩ := C90_rotate q w hq f hu (by linarith) (by linarith)
    refine ⟨g, (norm_sub_le_norm_sub_add_norm_sub _ (exactQ q * exactV w * (exactQ q)⁻¹) _).trans ?_⟩
    nth_rw 1 [← i2]
    rw [← sub_mul, ← mul_sub, conj_norm _ _ hu]
    linarith

/-- Non-vacuity: 120 degrees about (1, 1, 1), and the unnormalised `3 + 4 j`. -/
example : third.Finite ∧ |‖exactQ third‖ - 1| ≤ 1 / 2 ^ 20 := ⟨third_norm.1, by rw [third_norm.2]; norm_num⟩

example : ‖exactQ (Quat.inverse ⟨lit 0, lit 4, lit 0, lit 3⟩) - (exactQ ⟨lit 0, lit 4, lit 0, lit 3⟩)⁻¹‖ ≤ 1.02 / 2 ^ 24 := by
  have e0 : (lit 0 : F32).val = 0 := by decide +kernel
  have e3 : (lit 3 : F32).val = 3 := by decide +kernel
  have e4 : (lit 4 : F32).val = 4 := by decide +kernel
  have n1 : ‖exactQ ⟨lit 0, lit 4, lit 0, lit 3⟩‖ = 5 := by
    rw [← sq_eq_sq₀ (norm_nonneg _) (by norm_num), norm_sq_quat]
    simp only [exactQ, e0, e3, e4]
    norm_num
  have := (C107_inverse ⟨lit 0, lit 4, lit 0, lit 3⟩ (fun i => by fin_cases i <;> decide +kernel) (by rw [n1]; norm_num)
    (by rw [n1]; norm_num)).2
  rw [norm_inv, n1] at this
  refine this.trans ?_
  norm_num

/-- the vector (3, 4, 12) meets the conditions on `v` -/
example : V3.Finite ⟨lit 3, lit 4, lit 12⟩ ∧ ‖exactV ⟨lit 3, lit 4, lit 12⟩‖ = 13 := by
  have e3 : (lit 3 : F32).val = 3 := by decide +kernel
  have e4 : (lit 4 : F32).val = 4 := by decide +kernel
  have e12 : (lit 12 : F32).val = 12 := by decide +kernel
  refine ⟨fun i => by fin_cases i <;> decide +kernel, ?_⟩
  rw [← sq_eq_sq₀ (norm_nonneg _) (by norm_num), norm_sq_quat]
  simp only [exactV, e3, e4, e12]
  norm_num

end Zcm
