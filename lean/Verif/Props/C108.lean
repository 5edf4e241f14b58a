import Verif.Lemmas.F32Between
import Verif.Props.C107

/-!
# C108  The rotation from one direction to another, `quat(u, v)`, is accurate in IEEE arithmetic

`directionQ v` is the exact direction of `v`, `halfCos u v` the cosine of half the angle between the vectors and `ShortestArc u v Q`
says that `Q` is the rotation through the smallest angle that turns `u` to the direction of `v` (Spec/Between.lean). The vectors need
not have the same length.
-/

namespace Zcm

open Quaternion F32 InnerProductGeometry NormedSpace
open scoped RealInnerProductSpace

set_option exponentiation.threshold 300

/-- C108: up to about 0.11 degrees from opposite, `quat(u, v)` is finite and within `27 * 2^-24 / cos(angle/2)` of the exact rotation
through the smallest angle that turns `u` to the direction of `v`. -/
theorem C108_direct (u v : V3 F32) (hu : Moderate u) (hv : Moderate v) (h : 1 / 2 ^ 10 ≤ halfCos u v) :
    (Quat.ofUV u v).Finite ∧ ∃ Q : ℍ[ℝ], ShortestArc u v Q ∧ ‖exactQ (Quat.ofUV u v) - Q‖ ≤ 27 / 2 ^ 24 / halfCos u v := by
  by_cases ht : F.sqrt (V3.dot u u * V3.dot v v) + V3.dot u v < lit 0.000001 * F.sqrt (V3.dot u u * V3.dot v v)
  · have := (between_test hu hv _ _ rfl rfl).1 ht
    have : (1 / 2 ^ 10 : ℝ) ^ 2 ≤ halfCos u v ^ 2 := by gcongr
    norm_num at *
    linarith
  · obtain ⟨f, -, e⟩ := between_direct hu hv _ _ rfl rfl ht
    exact ⟨f, e⟩

/-- C108: `quat(u, v)` is finite and of norm 1 up to `2^-20`, opposite directions included. -/
theorem C108_unit (u v : V3 F32) (hu : Moderate u) (hv : Moderate v) : NearUnit (Quat.ofUV u v) := by
  by_cases ht : F.sqrt (V3.dot u u * V3.dot v v) + V3.dot u v < lit 0.000001 * F.sqrt (V3.dot u u * V3.dot v v)
  · obtain ⟨f, e, -⟩ := between_opposite hu _ _ rfl rfl ht
    exact ⟨f, e⟩
  · obtain ⟨f, e, -⟩ := between_direct hu hv _ _ rfl rfl ht
    exact ⟨f, e⟩

theorem norm_vecQ (a : Space) : ‖vecQ a‖ = ‖a‖ := by
  have := norm_vecQ_sub a 0
  rwa [sub_zero, show vecQ (0 : Space) = 0 from rfl, sub_zero] at this

/-- a quaternion near a half turn about an axis perpendicular to `u` reverses `u` -/
theorem near_half_turn {q : ℍ[ℝ]} {u : V3 F32} {n : Space} (hu : Moderate u) (hq : |‖q‖ - 1| ≤ 1 / 2 ^ 20) (hn : ‖n‖ = 1)
    (ho : ⟪n, exactly u⟫ = 0) (h : ‖q - vecQ n‖ ≤ 1 / 2 ^ 20) : ‖q * directionQ u * q⁻¹ - -directionQ u‖ ≤ 1 / 2 ^ 18 := by
  have u0 : exactly u ≠ 0 := norm_pos_iff.1 (lt_of_lt_of_le (by norm_num) hu.ge)
  have hq' := abs_le.1 hq
  have q0 : q ≠ 0 := norm_pos_iff.1 (by linarith)
  have n0 : vecQ n ≠ 0 := norm_pos_iff.1 (by rw [norm_vecQ, hn]; norm_num)
  have o : ⟪n, (normalize (exactly u) : Space)⟫ = 0 := by
    unfold NormedSpace.normalize
    rw [real_inner_smul_right, ho, mul_zero]
  rw [inner_eq_dot] at o
  have t := half_turn (P := vecQ n) (x := directionQ u) rfl rfl n0 o
  have c := conj_close_of (x := directionQ u) q0 n0
  rw [t] at c
  refine c.trans ?_
  have nd : ‖directionQ u‖ = 1 := by
    unfold directionQ
    rw [norm_vecQ, norm_normalize u0]
  rw [nd, mul_one, div_le_iff₀ (norm_pos_iff.2 q0)]
  linarith

/-- C108: within 0.027 degrees of opposite, `quat(u, v)` is a half turn about an axis perpendicular to `u` (up to `2^-20`), which
turns `u` to the opposite direction (up to `2^-18`). -/
theorem C108_opposite (u v : V3 F32) (hu : Moderate u) (hv : Moderate v) (h : halfCos u v ≤ 1 / 2 ^ 12) :
    (∃ n : Space, ‖n‖ = 1 ∧ ⟪n, exactly u⟫ = 0 ∧ ‖exactQ (Quat.ofUV u v) - vecQ n‖ ≤ 1 / 2 ^ 20) ∧
    ‖exactQ (Quat.ofUV u v) * directionQ u * (exactQ (Quat.ofUV u v))⁻¹ - -directionQ u‖ ≤ 1 / 2 ^ 18 := by
  have h0 := (half_facts hu hv).1
  by_cases ht : F.sqrt (V3.dot u u * V3.dot v v) + V3.dot u v < lit 0.000001 * F.sqrt (V3.dot u u * V3.dot v v)
  · obtain ⟨-, e, n, n1, no, nd⟩ := between_opposite hu _ _ rfl rfl ht
    exact ⟨⟨n, n1, no, nd⟩, near_half_turn hu e n1 no nd⟩
  · have := (between_test hu hv _ _ rfl rfl).2 ht
    have : halfCos u v ^ 2 ≤ (1 / 2 ^ 12) ^ 2 := by gcongr
    norm_num at *
    linarith

/-- the directions of two vectors and the half angle -/
theorem norm_directions {u v : V3 F32} (hu : Moderate u) (hv : Moderate v) : ‖-directionQ u - directionQ v‖ = 2 * halfCos u v := by
  have u0 : exactly u ≠ 0 := norm_pos_iff.1 (lt_of_lt_of_le (by norm_num) hu.ge)
  have v0 : exactly v ≠ 0 := norm_pos_iff.1 (lt_of_lt_of_le (by norm_num) hv.ge)
  obtain ⟨h0, -, h2, -⟩ := half_facts hu hv
  have e : -directionQ u - directionQ v = -(vecQ (normalize (exactly u) + normalize (exactly v) : Space)) := by
    unfold directionQ
    ext
    · change -(0 : ℝ) - 0 = -0; norm_num
    · change -(normalize (exactly u) : Space) 0 - (normalize (exactly v) : Space) 0 = -((normalize (exactly u) : Space) 0 + (normalize (exactly v) : Space) 0)
      ring
    · change -(normalize (exactly u) : Space) 1 - (normalize (exactly v) : Space) 1 = -((normalize (exactly u) : Space) 1 + (normalize (exactly v) : Space) 1)
      ring
    · change -(normalize (exactly u) : Space) 2 - (normalize (exactly v) : Space) 2 = -((normalize (exactly u) : Space) 2 + (normalize (exactly v) : Space) 2)
      ring
  rw [e, norm_neg, norm_vecQ, ← sq_eq_sq₀ (norm_nonneg _) (by positivity), norm_add_sq_real, norm_normalize u0, norm_normalize v0]
  linear_combination (-2) * h2

theorem norm_directionQ {u : V3 F32} (hu : Moderate u) : ‖directionQ u‖ = 1 := by
  unfold directionQ
  rw [norm_vecQ, norm_normalize (norm_pos_iff.1 (lt_of_lt_of_le (by norm_num) hu.ge))]

/-- C108: for all directions, parallel, opposite and anything between, the rotation by `quat(u, v)` turns the direction of `u` to
within `2^-7` of the direction of `v`. -/
theorem C108_turns (u v : V3 F32) (hu : Moderate u) (hv : Moderate v) :
    ‖exactQ (Quat.ofUV u v) * directionQ u * (exactQ (Quat.ofUV u v))⁻¹ - directionQ v‖ ≤ 1 / 2 ^ 7 := by
  obtain ⟨h0, h1, -, -⟩ := half_facts hu hv
  by_cases ht : F.sqrt (V3.dot u u * V3.dot v v) + V3.dot u v < lit 0.000001 * F.sqrt (V3.dot u u * V3.dot v v)
  · obtain ⟨-, e, n, n1, no, nd⟩ := between_opposite hu _ _ rfl rfl ht
    have hb := (between_test hu hv _ _ rfl rfl).1 ht
    have hb' : halfCos u v ≤ 1 / 1000 := le_of_sq_le_sq (hb.trans (by norm_num)) (by norm_num)
    have d := norm_directions hu hv
    refine (norm_sub_le_norm_sub_add_norm_sub _ (-directionQ u) _).trans ((add_le_add (near_half_turn hu e n1 no nd) d.le).trans ?_)
    linarith
  · obtain ⟨f, e, Q, arc, d⟩ := between_direct hu hv _ _ rfl rfl ht
    have hb := (between_test hu hv _ _ rfl rfl).2 ht
    have hb' : 4.4 / 10 ^ 4 ≤ halfCos u v := le_of_sq_le_sq (le_trans (by norm_num) hb) h0
    have e' := abs_le.1 e
    have q0 : exactQ (Quat.ofUV u v) ≠ 0 := norm_pos_iff.1 (by linarith)
    have Q0 : Q ≠ 0 := norm_pos_iff.1 (by rw [arc.unit]; norm_num)
    have c := conj_close_of (x := directionQ u) q0 Q0
    rw [arc.turns, norm_directionQ hu, mul_one] at c
    refine c.trans ?_
    have d' : ‖exactQ (Quat.ofUV u v) - Q‖ ≤ 27 / 2 ^ 24 / (4.4 / 10 ^ 4) := d.trans (by gcongr)
    rw [div_le_iff₀ (by linarith)]
    norm_num at *
    linarith

/-- C108: the vector `quat(u, v) * u`, computed in floats, is within `273 * 2^-24 / cos(angle/2) * |u|` of the vector of length `|u|`
in the direction of `v`. -/
theorem C108_rotate (u v : V3 F32) (hu : Moderate u) (hv : Moderate v) (h : 1 / 2 ^ 10 ≤ halfCos u v) :
    V3.Finite (Quat.ofUV u v * u) ∧
    ‖exactV (Quat.ofUV u v * u) - ‖exactly u‖ • directionQ v‖ ≤ 273 / 2 ^ 24 / halfCos u v * ‖exactly u‖ := by
  obtain ⟨-, h1, -, -⟩ := half_facts hu hv
  obtain ⟨f, Q, arc, d⟩ := C108_direct u v hu hv h
  obtain ⟨-, n⟩ := C108_unit u v hu hv
  generalize Quat.ofUV u v = q at *
  have hl := hu.ge
  have hh := hu.le
  have eV : exactV u = ‖exactly u‖ • directionQ u := by
    have : exactly u = ‖exactly u‖ • (normalize (exactly u) : Space) := (NormedSpace.norm_smul_normalize _).symm
    have k : ∀ i, exactly u i = ‖exactly u‖ * (normalize (exactly u) : Space) i := fun i => congrArg (fun w : Space => w i) this
    ext
    · rw [re_smul]; exact (mul_zero _).symm
    · rw [imI_smul]; exact k 0
    · rw [imJ_smul]; exact k 1
    · rw [imK_smul]; exact k 2
  have nV : ‖exactV u‖ = ‖exactly u‖ := by rw [eV, norm_smul, norm_norm, norm_directionQ hu, mul_one]
  obtain ⟨g, r⟩ := rotate_near q u f hu.fin n (by norm_num) (by rw [nV]; linarith) (by rw [nV]; linarith)
  refine ⟨g, ?_⟩
  have n' := abs_le.1 n
  have q0 : exactQ q ≠ 0 := norm_pos_iff.1 (by linarith)
  have Q0 : Q ≠ 0 := norm_pos_iff.1 (by rw [arc.unit]; norm_num)
  have c := conj_close_of (x := exactV u) q0 Q0
  have t : Q * exactV u * Q⁻¹ = ‖exactly u‖ • directionQ v := by
    rw [eV, mul_smul_comm, smul_mul_assoc, arc.turns]
  rw [t] at c
  refine (norm_sub_le_norm_sub_add_norm_sub _ _ _).trans ((add_le_add r c).trans ?_)
  rw [nV, ← add_mul]
  gcongr
  have hp : 0 < halfCos u v := lt_of_lt_of_le (by norm_num) h
  have k1 : 2 * ‖exactQ q - Q‖ / ‖exactQ q‖ ≤ 55 / 2 ^ 24 / halfCos u v := by
    rw [div_le_iff₀ (by linarith)]
    calc 2 * ‖exactQ q - Q‖ ≤ 2 * (27 / 2 ^ 24 / halfCos u v) := by gcongr
      _ = 55 / 2 ^ 24 / halfCos u v * (54 / 55) := by ring
      _ ≤ _ := by gcongr; linarith
  have k2 : 152 / 2 ^ 24 + 4.1 * (1 / 2 ^ 20) ≤ 218 / 2 ^ 24 / halfCos u v := by
    rw [le_div_iff₀ hp]
    linarith
  refine (add_le_add k2 k1).trans (le_of_eq ?_)
  ring

/-- Non-vacuity: a right angle between (0, 3, 4) and (3, 0, 0), and the opposite directions (0, 3, 4) and (0, -3, -4). -/
example : ∃ u v w : V3 F32, Moderate u ∧ Moderate v ∧ Moderate w ∧ 1 / 2 ^ 10 ≤ halfCos u v ∧ halfCos u w = 0 := by
  obtain ⟨⟨v0, v3, v4⟩, f0, f3, f4⟩ : ((lit 0 : F32).val = 0 ∧ (lit 3 : F32).val = 3 ∧
      (lit 4 : F32).val = 4) ∧ (lit 0 : F32).IsFin = true ∧ (lit 3 : F32).IsFin = true ∧ (lit 4 : F32).IsFin = true := by decide +kernel
  have e1 : exactly ⟨lit 0, lit 3, lit 4⟩ = !₂[0, 3, 4] := by
    ext i
    fin_cases i
    · show ((lit 0 : F32).val : ℝ) = 0; rw [v0]; norm_num
    · show ((lit 3 : F32).val : ℝ) = 3; rw [v3]; norm_num
    · show ((lit 4 : F32).val : ℝ) = 4; rw [v4]; norm_num
  have e2 : exactly ⟨lit 3, lit 0, lit 0⟩ = !₂[3, 0, 0] := by
    ext i
    fin_cases i
    · show ((lit 3 : F32).val : ℝ) = 3; rw [v3]; norm_num
    · show ((lit 0 : F32).val : ℝ) = 0; rw [v0]; norm_num
    · show ((lit 0 : F32).val : ℝ) = 0; rw [v0]; norm_num
  have e3 : exactly ⟨lit 0, -lit 3, -lit 4⟩ = -!₂[0, 3, 4] := by
    ext i
    fin_cases i
    · show ((lit 0 : F32).val : ℝ) = -0; rw [v0]; norm_num
    · show ((-lit 3 : F32).val : ℝ) = -3; rw [val_neg, v3]; norm_num
    · show ((-lit 4 : F32).val : ℝ) = -4; rw [val_neg, v4]; norm_num
  have n1 : ‖(!₂[0, 3, 4] : Space)‖ = 5 := by
    rw [EuclideanSpace.norm_eq, Fin.sum_univ_three, Real.sqrt_eq_iff_mul_self_eq_of_pos (by norm_num)]
    norm_num [show (![0, 3, 4] : Fin 3 → ℝ) 2 = 4 from rfl]
  have n2 : ‖(!₂[3, 0, 0] : Space)‖ = 3 := by
    rw [EuclideanSpace.norm_eq, Fin.sum_univ_three, Real.sqrt_eq_iff_mul_self_eq_of_pos (by norm_num)]
    norm_num [show (![3, 0, 0] : Fin 3 → ℝ) 2 = 0 from rfl]
  refine ⟨⟨lit 0, lit 3, lit 4⟩, ⟨lit 3, lit 0, lit 0⟩, ⟨lit 0, -lit 3, -lit 4⟩, ⟨?_, ?_, ?_⟩, ⟨?_, ?_, ?_⟩, ⟨?_, ?_, ?_⟩, ?_, ?_⟩
  · intro i; fin_cases i <;> assumption
  · rw [e1, n1]; norm_num
  · rw [e1, n1]; norm_num
  · intro i; fin_cases i <;> assumption
  · rw [e2, n2]; norm_num
  · rw [e2, n2]; norm_num
  · intro i; fin_cases i
    exacts [f0, (isFin_neg _).trans f3, (isFin_neg _).trans f4]
  · rw [e3, norm_neg, n1]; norm_num
  · rw [e3, norm_neg, n1]; norm_num
  · unfold halfCos
    rw [e1, e2, (inner_eq_zero_iff_angle_eq_pi_div_two _ _).1 (by rw [inner_eq_dot]; simp), div_div, show (2 : ℝ) * 2 = 4 by norm_num,
      Real.cos_pi_div_four]
    have : 1 ≤ Real.sqrt 2 := by rw [Real.one_le_sqrt]; norm_num
    linarith
  · unfold halfCos
    rw [e1, e3, angle_self_neg_of_nonzero (norm_pos_iff.1 (by rw [n1]; norm_num)), Real.cos_pi_div_two]

end Zcm
