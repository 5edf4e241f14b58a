import Verif.Lemmas.F32LookAt
import Verif.Props.C91

/-!
# C106  Converting rotation matrices to quaternions is accurate in IEEE arithmetic

`quat_cast` of a `mat3` or `mat4` and `quatLookAtRH` / `quatLookAtLH`, in binary32. A rotation is a unit quaternion `Q`; its matrix
has the columns `Q * axis * Q⁻¹`. A quaternion and its negative are the same rotation, so every bound is up to the sign.
-/

namespace Zcm

open Quaternion F32 InnerProductGeometry NormedSpace
open scoped RealInnerProductSpace

/-- C106: for a matrix whose columns are within `δ ≤ 1/64` of those of the rotation by the unit quaternion `Q`, `quat_cast`
is finite and within `6 δ + 30/2^24` of `Q` or of `-Q`. -/
theorem C106_quat_cast (m : M3 F32) (Q : ℍ[ℝ]) (δ : ℝ) (hQ : ‖Q‖ = 1) (hf : ∀ c r, (entry m c r).IsFin = true)
    (hm : ∀ c, ‖exactColumn m c - Q * axisQ c * Q⁻¹‖ ≤ δ) (hd : δ ≤ 1 / 64) :
    (M3.quat_cast m).Finite ∧
    (‖exactQ (M3.quat_cast m) - Q‖ ≤ 6 * δ + 30 / 2 ^ 24 ∨ ‖exactQ (M3.quat_cast m) - -Q‖ ≤ 6 * δ + 30 / 2 ^ 24) := by
  have := quat_cast_near hQ hf hm hd
  rw [show 2 * (3 * δ + 15 / 2 ^ 24) = 6 * δ + 30 / 2 ^ 24 by ring] at this
  rwa [sub_neg_eq_add]

/-- C106: the same for a `mat4` and its upper left 3x3 block, whatever the other entries are. -/
theorem C106_quat_cast_mat4 (m : M4 F32) (Q : ℍ[ℝ]) (δ : ℝ) (hQ : ‖Q‖ = 1)
    (hf : ∀ c r : Fin 3, (entry m c.castSucc r.castSucc).IsFin = true)
    (hm : ∀ c : Fin 3, ‖vecQ (fun r => ((entry m c.castSucc r.castSucc).val : ℝ)) - Q * axisQ c * Q⁻¹‖ ≤ δ) (hd : δ ≤ 1 / 64) :
    (M4.quat_cast m).Finite ∧
    (‖exactQ (M4.quat_cast m) - Q‖ ≤ 6 * δ + 30 / 2 ^ 24 ∨ ‖exactQ (M4.quat_cast m) - -Q‖ ≤ 6 * δ + 30 / 2 ^ 24) := by
  refine C106_quat_cast (M4.toMat3 m) Q δ hQ (fun c r => ?_) (fun c => ?_) hd
  · have := hf c r
    fin_cases c <;> fin_cases r <;> exact this
  · have := hm c
    fin_cases c <;> exact this

/-- a quaternion of norm about 1 and the unit quaternion with the same direction -/
theorem unit_direction (q : ℍ[ℝ]) (hu : |‖q‖ - 1| ≤ 1 / 2 ^ 20) :
    ∃ Q : ℍ[ℝ], ‖Q‖ = 1 ∧ ‖q - Q‖ ≤ 1 / 2 ^ 20 ∧ ∀ v, Q * v * Q⁻¹ = q * v * q⁻¹ := by
  have n0 : 0 < ‖q‖ := by have := (abs_le.1 hu).1; linarith
  refine ⟨(‖q‖⁻¹ : ℝ) • q, ?_, ?_, fun v => ?_⟩
  · rw [norm_smul, Real.norm_of_nonneg (by positivity), inv_mul_cancel₀ n0.ne']
  · have : q - (‖q‖⁻¹ : ℝ) • q = (1 - ‖q‖⁻¹ : ℝ) • q := by rw [sub_smul, one_smul]
    rw [this, norm_smul, Real.norm_eq_abs]
    nth_rw 2 [← abs_of_pos n0]
    rw [← abs_mul, show (1 - ‖q‖⁻¹) * ‖q‖ = ‖q‖ - 1 by field_simp]
    exact hu
  · rw [smul_inv₀, inv_inv, smul_mul_assoc, smul_mul_assoc, mul_smul_comm, smul_smul, inv_mul_cancel₀ n0.ne', one_smul]

/-- C106: quaternion to matrix and back gives the same rotation: for `q` as `normalize` returns it, `quat_cast(mat3_cast(q))`
and `quat_cast(mat4_cast(q))` are finite and within `2^-14` of `q` or of `-q`. -/
theorem C106_roundtrip (q : Quat F32) (hq : q.Finite) (hu : |‖exactQ q‖ - 1| ≤ 1 / 2 ^ 20) :
    ((M3.quat_cast (Quat.mat3_cast q)).Finite ∧
      (‖exactQ (M3.quat_cast (Quat.mat3_cast q)) - exactQ q‖ ≤ 1 / 2 ^ 14 ∨
        ‖exactQ (M3.quat_cast (Quat.mat3_cast q)) - -exactQ q‖ ≤ 1 / 2 ^ 14)) ∧
    (M4.quat_cast (Quat.mat4_cast q)).Finite ∧
      (‖exactQ (M4.quat_cast (Quat.mat4_cast q)) - exactQ q‖ ≤ 1 / 2 ^ 14 ∨
        ‖exactQ (M4.quat_cast (Quat.mat4_cast q)) - -exactQ q‖ ≤ 1 / 2 ^ 14) := by
  have e : M4.quat_cast (Quat.mat4_cast q) = M3.quat_cast (Quat.mat3_cast q) := rfl
  rw [e, and_self]
  obtain ⟨Q, nQ, dQ, cQ⟩ := unit_direction (exactQ q) hu
  obtain ⟨f, h⟩ := C106_quat_cast (Quat.mat3_cast q) Q (1 / 2 ^ 17) nQ (fun c r => (C91_mat3 q hq hu c).1 r)
    (fun c => by rw [cQ]; exact (C91_mat3 q hq hu c).2) (by norm_num)
  refine ⟨f, h.imp (fun h => ?_) (fun h => ?_)⟩
  · have t := norm_sub_le_norm_sub_add_norm_sub (exactQ (M3.quat_cast (Quat.mat3_cast q))) Q (exactQ q)
    rw [norm_sub_rev Q] at t
    refine t.trans ((add_le_add h dQ).trans ?_)
    norm_num
  · have t := norm_sub_le_norm_sub_add_norm_sub (exactQ (M3.quat_cast (Quat.mat3_cast q))) (-Q) (-exactQ q)
    rw [show -Q - -exactQ q = exactQ q - Q by abel] at t
    refine t.trans ((add_le_add h dQ).trans ?_)
    norm_num

/-- C106: matrix to quaternion and back: for a matrix within `δ ≤ 1/64` of a rotation, every entry of
`mat3_cast(quat_cast(m))` is within `27 δ + 150/2^24` of the entry of `m`. -/
theorem C106_back (m : M3 F32) (Q : ℍ[ℝ]) (δ : ℝ) (hQ : ‖Q‖ = 1) (hf : ∀ c r, (entry m c r).IsFin = true)
    (hm : ∀ c, ‖exactColumn m c - Q * axisQ c * Q⁻¹‖ ≤ δ) (hd : δ ≤ 1 / 64) (c r : Fin 3) :
    Near (entry (Quat.mat3_cast (M3.quat_cast m)) c r) (entry m c r).val (27 * δ + 150 / 2 ^ 24) := by
  obtain ⟨f, h⟩ := C106_quat_cast m Q δ hQ hf hm hd
  have small : 6 * δ + 30 / 2 ^ 24 ≤ 0.1 := by linarith
  have key : Near (entry (Quat.mat3_cast (M3.quat_cast m)) c 0) (Q * axisQ c * Q⁻¹).imI (4.2 * (6 * δ + 30 / 2 ^ 24) + 21 / 2 ^ 24) ∧
      Near (entry (Quat.mat3_cast (M3.quat_cast m)) c 1) (Q * axisQ c * Q⁻¹).imJ (4.2 * (6 * δ + 30 / 2 ^ 24) + 21 / 2 ^ 24) ∧
      Near (entry (Quat.mat3_cast (M3.quat_cast m)) c 2) (Q * axisQ c * Q⁻¹).imK (4.2 * (6 * δ + 30 / 2 ^ 24) + 21 / 2 ^ 24) := by
    rcases h with h | h
    · exact mat3_cast_near f hQ h small c
    · have := mat3_cast_near f (by rw [norm_neg]; exact hQ) h small c
      rwa [inv_neg, neg_mul, neg_mul_neg] at this
  have d0 : 0 ≤ δ := (norm_nonneg _).trans (hm 0)
  obtain ⟨-, l1, l2, l3⟩ := abs_part_le (exactColumn m c - Q * axisQ c * Q⁻¹)
  have k := hm c
  rw [imI_sub] at l1
  rw [imJ_sub] at l2
  rw [imK_sub] at l3
  have fin : ∀ {x y : F32} {v : ℝ}, Near x v (4.2 * (6 * δ + 30 / 2 ^ 24) + 21 / 2 ^ 24) →
      |(y.val : ℝ) - v| ≤ ‖exactColumn m c - Q * axisQ c * Q⁻¹‖ → Near x y.val (27 * δ + 150 / 2 ^ 24) := by
    intro x y v h1 h2
    refine ⟨h1.1, ?_⟩
    have := abs_sub_le (x.val : ℝ) v y.val
    rw [abs_sub_comm v] at this
    have := h1.2
    linarith
  fin_cases r
  · exact fin key.1 l1
  · exact fin key.2.1 l2
  · exact fin key.2.2 l3

/-- an almost unit direction -/
theorem near_direction {d : V3 F32} (hd : ∀ i, (coord d i).IsFin = true) (h : |‖exactly d‖ - 1| ≤ 1 / 2 ^ 20) :
    exactly d ≠ 0 ∧ NearV d (normalize (exactly d)) (1 / 2 ^ 20) := by
  have n0 : 0 < ‖exactly d‖ := by have := (abs_le.1 h).1; linarith
  refine ⟨norm_pos_iff.1 n0, hd, ?_⟩
  have e : exactly d - normalize (exactly d) = (1 - ‖exactly d‖⁻¹ : ℝ) • exactly d := by
    unfold NormedSpace.normalize
    rw [sub_smul, one_smul]
  rw [e, norm_smul, Real.norm_eq_abs]
  nth_rw 2 [← abs_of_pos n0]
  rw [← abs_mul, show (1 - ‖exactly d‖⁻¹) * ‖exactly d‖ = ‖exactly d‖ - 1 by field_simp]
  exact h

theorem cross3_neg_right (a b : Space) : cross3 a (-b) = cross3 b a := by
  rw [cross3_swap a b]
  have := cross3_sub_right a 0 b
  rw [zero_sub] at this
  have z : cross3 a 0 = 0 := norm_eq_zero.1 (le_antisymm ((norm_cross3_le a 0).trans (by simp)) (norm_nonneg _))
  rw [← this, z, zero_sub]

theorem sine_direction {d up : Space} (h : d ≠ 0) :
    Real.sin (angle up (normalize d)) = viewSine 0 d up ∧ Real.sin (angle up (-normalize d)) = viewSine 0 d up := by
  unfold viewSine NormedSpace.normalize
  rw [sub_zero, angle_neg_right, Real.sin_pi_sub, and_self, angle_smul_right_of_pos _ _ (inv_pos.2 (norm_pos_iff.2 h)), angle_comm]

/-- C106: `quatLookAtLH(d, up)` for an almost unit direction `d` and an `up` that is not too nearly parallel to it (sine of the
angle at least `2^-11`): finite and within `440/2^24` over that sine of the rotation which sends the x axis to minus the side
direction, the y axis to the upward direction and the z axis to the direction of view. -/
theorem C106_quatLookAtLH (d up : V3 F32) (hd : ∀ i, (coord d i).IsFin = true) (h1 : |‖exactly d‖ - 1| ≤ 1 / 2 ^ 20)
    (hu : ∀ i, (coord up i).IsFin = true) (u1 : 1 / 2 ^ 30 ≤ ‖exactly up‖) (u2 : ‖exactly up‖ ≤ 2 ^ 60)
    (hs : 1 / 2 ^ 11 ≤ viewSine 0 (exactly d) (exactly up)) :
    (Quat.lookAtLH d up).Finite ∧ ∃ Q : ℍ[ℝ], ‖Q‖ = 1 ∧
      Q * axisQ 0 * Q⁻¹ = vecQ (-viewSide 0 (exactly d) (exactly up) : Space) ∧
      Q * axisQ 1 * Q⁻¹ = vecQ (viewUp 0 (exactly d) (exactly up)) ∧
      Q * axisQ 2 * Q⁻¹ = vecQ (viewDir 0 (exactly d)) ∧
      (‖exactQ (Quat.lookAtLH d up) - Q‖ ≤ 440 / 2 ^ 24 / viewSine 0 (exactly d) (exactly up) ∨
        ‖exactQ (Quat.lookAtLH d up) - -Q‖ ≤ 440 / 2 ^ 24 / viewSine 0 (exactly d) (exactly up)) := by
  obtain ⟨d0, N⟩ := near_direction hd h1
  have s := (sine_direction (up := exactly up) d0).1
  have c := lookAt_core (norm_normalize d0) N hu u1 u2 (by rw [s]; exact hs)
  obtain ⟨f, Q, nQ, q0, q1, q2, b⟩ := c
  have v : viewDir 0 (exactly d) = normalize (exactly d) := by unfold viewDir; rw [sub_zero]
  have e : normalize (cross3 (exactly up) (normalize (exactly d))) = -viewSide 0 (exactly d) (exactly up) := by
    unfold viewSide
    rw [v, cross3_swap, normalize_neg]
  refine ⟨f, Q, nQ, ?_, ?_, ?_, ?_⟩
  · rw [q0, e]
  · rw [q1, e, cross3_neg_right]
    unfold viewUp
    rw [v]
  · rw [q2, v]
  · rw [s] at b
    rw [sub_neg_eq_add]
    exact b

/-- C106: `quatLookAtRH(d, up)` under the same conditions: x axis to the side direction, y axis to the upward direction and
z axis to minus the direction of view. -/
theorem C106_quatLookAtRH (d up : V3 F32) (hd : ∀ i, (coord d i).IsFin = true) (h1 : |‖exactly d‖ - 1| ≤ 1 / 2 ^ 20)
    (hu : ∀ i, (coord up i).IsFin = true) (u1 : 1 / 2 ^ 30 ≤ ‖exactly up‖) (u2 : ‖exactly up‖ ≤ 2 ^ 60)
    (hs : 1 / 2 ^ 11 ≤ viewSine 0 (exactly d) (exactly up)) :
    (Quat.lookAtRH d up).Finite ∧ ∃ Q : ℍ[ℝ], ‖Q‖ = 1 ∧
      Q * axisQ 0 * Q⁻¹ = vecQ (viewSide 0 (exactly d) (exactly up)) ∧
      Q * axisQ 1 * Q⁻¹ = vecQ (viewUp 0 (exactly d) (exactly up)) ∧
      Q * axisQ 2 * Q⁻¹ = vecQ (-viewDir 0 (exactly d) : Space) ∧
      (‖exactQ (Quat.lookAtRH d up) - Q‖ ≤ 440 / 2 ^ 24 / viewSine 0 (exactly d) (exactly up) ∨
        ‖exactQ (Quat.lookAtRH d up) - -Q‖ ≤ 440 / 2 ^ 24 / viewSine 0 (exactly d) (exactly up)) := by
  obtain ⟨d0, N⟩ := near_direction hd h1
  have s := (sine_direction (up := exactly up) d0).2
  have c := lookAt_core (by rw [norm_neg]; exact norm_normalize d0) N.neg hu u1 u2 (by rw [s]; exact hs)
  obtain ⟨f, Q, nQ, q0, q1, q2, b⟩ := c
  have v : viewDir 0 (exactly d) = normalize (exactly d) := by unfold viewDir; rw [sub_zero]
  have e : normalize (cross3 (exactly up) (-normalize (exactly d))) = viewSide 0 (exactly d) (exactly up) := by
    unfold viewSide
    rw [v, cross3_neg_right]
  refine ⟨f, Q, nQ, ?_, ?_, ?_, ?_⟩
  · rw [q0, e]
  · rw [q1, e]
    unfold viewUp
    rw [v, cross3_swap, cross3_neg_right, cross3_swap, neg_neg]
  · rw [q2, v]
  · rw [s] at b
    rw [sub_neg_eq_add]
    exact b

/-! ### Non-vacuity -/

/-- a third of a turn about (1, 1, 1) survives the trip to a matrix and back, -/
example := C106_roundtrip third third_norm.1 (by rw [third_norm.2]; norm_num)

/-- and its computed matrix meets the conditions of the first three theorems -/
example : ∃ Q : ℍ[ℝ], ‖Q‖ = 1 ∧ (∀ c r, (entry (Quat.mat3_cast third) c r).IsFin = true) ∧
    ∀ c, ‖exactColumn (Quat.mat3_cast third) c - Q * axisQ c * Q⁻¹‖ ≤ 1 / 2 ^ 17 := by
  have u : |‖exactQ third‖ - 1| ≤ 1 / 2 ^ 20 := by rw [third_norm.2]; norm_num
  exact ⟨exactQ third, third_norm.2, fun c r => (C91_mat3 third third_norm.1 u c).1 r, fun c => (C91_mat3 third third_norm.1 u c).2⟩

/-- looking down the negative z axis with up = (0, 3, 4) -/
example : ∃ d up : V3 F32, (∀ i, (coord d i).IsFin = true) ∧ |‖exactly d‖ - 1| ≤ 1 / 2 ^ 20 ∧ (∀ i, (coord up i).IsFin = true) ∧
    1 / 2 ^ 30 ≤ ‖exactly up‖ ∧ ‖exactly up‖ ≤ 2 ^ 60 ∧ viewSine 0 (exactly d) (exactly up) = 3 / 5 := by
  obtain ⟨⟨v0, v1, v3, v4⟩, f0, f1, f3, f4⟩ : ((lit 0 : F32).val = 0 ∧ (lit (-1) : F32).val = -1 ∧ (lit 3 : F32).val = 3 ∧
      (lit 4 : F32).val = 4) ∧ (lit 0 : F32).IsFin = true ∧ (lit (-1) : F32).IsFin = true ∧ (lit 3 : F32).IsFin = true ∧
      (lit 4 : F32).IsFin = true := by decide +kernel
  have e1 : exactly ⟨lit 0, lit 0, lit (-1)⟩ = !₂[0, 0, -1] := by
    ext i
    fin_cases i
    · show ((lit 0 : F32).val : ℝ) = 0; rw [v0]; norm_num
    · show ((lit 0 : F32).val : ℝ) = 0; rw [v0]; norm_num
    · show ((lit (-1) : F32).val : ℝ) = -1; rw [v1]; norm_num
  have e2 : exactly ⟨lit 0, lit 3, lit 4⟩ = !₂[0, 3, 4] := by
    ext i
    fin_cases i
    · show ((lit 0 : F32).val : ℝ) = 0; rw [v0]; norm_num
    · show ((lit 3 : F32).val : ℝ) = 3; rw [v3]; norm_num
    · show ((lit 4 : F32).val : ℝ) = 4; rw [v4]; norm_num
  have n1 : ‖(!₂[0, 0, -1] : Space)‖ = 1 := by
    rw [EuclideanSpace.norm_eq, Fin.sum_univ_three, Real.sqrt_eq_iff_mul_self_eq_of_pos (by norm_num)]
    norm_num [show (![0, 0, -1] : Fin 3 → ℝ) 2 = -1 from rfl]
  have n2 : ‖(!₂[0, 3, 4] : Space)‖ = 5 := by
    rw [EuclideanSpace.norm_eq, Fin.sum_univ_three, Real.sqrt_eq_iff_mul_self_eq_of_pos (by norm_num)]
    norm_num [show (![0, 3, 4] : Fin 3 → ℝ) 2 = 4 from rfl]
  have x : cross3 (!₂[0, 0, -1] : Space) !₂[0, 3, 4] = !₂[3, 0, 0] := by
    obtain ⟨a, b, c⟩ := cross3_apply (!₂[0, 0, -1] : Space) !₂[0, 3, 4]
    ext i
    fin_cases i
    · refine a.trans ?_
      norm_num [show (![0, 0, -1] : Fin 3 → ℝ) 2 = -1 from rfl, show (![0, 3, 4] : Fin 3 → ℝ) 2 = 4 from rfl]
    · refine b.trans ?_
      norm_num [show (![0, 0, -1] : Fin 3 → ℝ) 2 = -1 from rfl, show (![0, 3, 4] : Fin 3 → ℝ) 2 = 4 from rfl]
    · refine c.trans ?_
      norm_num [show (![3, 0, 0] : Fin 3 → ℝ) 2 = 0 from rfl]
  have n3 : ‖(!₂[3, 0, 0] : Space)‖ = 3 := by
    rw [EuclideanSpace.norm_eq, Fin.sum_univ_three, Real.sqrt_eq_iff_mul_self_eq_of_pos (by norm_num)]
    norm_num [show (![3, 0, 0] : Fin 3 → ℝ) 2 = 0 from rfl]
  have c := norm_cross3 (!₂[0, 0, -1] : Space) !₂[0, 3, 4]
  rw [n1, n2, x, n3] at c
  refine ⟨⟨lit 0, lit 0, lit (-1)⟩, ⟨lit 0, lit 3, lit 4⟩, ?_, ?_, ?_, ?_, ?_, ?_⟩
  · intro i; fin_cases i <;> assumption
  · rw [e1, n1]; norm_num
  · intro i; fin_cases i <;> assumption
  · rw [e2, n2]; norm_num
  · rw [e2, n2]; norm_num
  · unfold viewSine
    rw [e1, e2, sub_zero]
    linarith

end Zcm
