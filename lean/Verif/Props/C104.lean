import Verif.Lemmas.F32Lerp
import Verif.Props.C103

/-!
# C104: interpolating rotations in IEEE arithmetic

`NearUnit q`: the float quaternion is finite and of length 1 up to `2^-20`.  `NearQ q Q e`: it is finite and within `e` of
the exact quaternion `Q`.  `exactQ q` is the quaternion of real numbers `q` stands for; `chordPoint`, `arcPoint`, `nearer`
are the exact straight and spherical interpolation and the choice of sign (Spec/Sphere.lean).
-/

set_option exponentiation.threshold 300

namespace Zcm

open Quaternion InnerProductGeometry F32
open scoped RealInnerProductSpace

/-- What the specification means by the point of the great arc: it is a unit quaternion, the fraction `t` of the whole
angle away from the one end and the rest away from the other. -/
theorem C104_arc (X Y : ℍ[ℝ]) (hX : ‖X‖ = 1) (hY : ‖Y‖ = 1) (h : angle X Y < Real.pi) (t : ℝ) (t0 : 0 ≤ t) (t1 : t ≤ 1) :
    ‖arcPoint X Y t‖ = 1 ∧ angle X (arcPoint X Y t) = t * angle X Y ∧ angle (arcPoint X Y t) Y = (1 - t) * angle X Y := by
  obtain ⟨n, i1, i2⟩ := arc_facts hX hY h t
  have a0 := angle_nonneg X Y
  refine ⟨n, ?_, ?_⟩
  · rw [angle, i1, hX, n, mul_one, div_one, Real.arccos_cos (mul_nonneg t0 a0) ((mul_le_of_le_one_left a0 t1).trans h.le)]
  · rw [angle, i2, hY, n, mul_one, div_one, Real.arccos_cos (mul_nonneg (by linarith) a0)
      ((mul_le_of_le_one_left a0 (by linarith)).trans h.le)]

/-- C104, `lerp(quat, quat, t)` for `t` between 0 and 1: no assertion fails, in either build, and the result is within
three roundings of the exact point of the segment, component by component and in norm. -/
theorem C104_lerp (b : Build) (x y : Quat F32) (t : F32) (fx : x.Finite) (fy : y.Finite) (hx : ‖exactQ x‖ ≤ 2 ^ 120)
    (hy : ‖exactQ y‖ ≤ 2 ^ 120) (ht : Fraction t) :
    ∃ r, Quat.lerp b x y t = .ok r ∧
      (∀ i, Near (coord r i) ((1 - t.val) * (coord x i).val + t.val * (coord y i).val)
        (3.001 / 2 ^ 24 * ((1 - t.val) * |((coord x i).val : ℝ)| + t.val * |((coord y i).val : ℝ)|) + 1 / 2 ^ 148)) ∧
      NearQ r (chordPoint (exactQ x) (exactQ y) t.val)
        (3.001 / 2 ^ 24 * ((1 - t.val) * ‖exactQ x‖ + t.val * ‖exactQ y‖) + 1 / 2 ^ 147) := by
  obtain ⟨c0, c1, c2, c3⟩ := comp_le (exactQ x)
  obtain ⟨d0, d1, d2, d3⟩ := comp_le (exactQ y)
  refine ⟨_, lerp_ok b x y ht.1 ht.2.1 ht.2.2, fun i => ?_, lerpQ_near fx fy ht.1 hx hy ht.2.1 ht.2.2⟩
  fin_cases i
  · exact lerp_component (fx 0) (fy 0) ht.1 (c1.trans hx) (d1.trans hy) ht.2.1 ht.2.2
  · exact lerp_component (fx 1) (fy 1) ht.1 (c2.trans hx) (d2.trans hy) ht.2.1 ht.2.2
  · exact lerp_component (fx 2) (fy 2) ht.1 (c3.trans hx) (d3.trans hy) ht.2.1 ht.2.2
  · exact lerp_component (fx 3) (fy 3) ht.1 (c0.trans hx) (d0.trans hy) ht.2.1 ht.2.2

/-- C104, `nlerp` of two unit quaternions: the result again has length 1 up to `2^-20`, and is within a few roundings of
the normalized exact point, as long as the segment does not pass through (almost) zero there. -/
theorem C104_nlerp (b : Build) (x y : Quat F32) (t : F32) (hx : NearUnit x) (hy : NearUnit y) (ht : Fraction t)
    (hc : 1 / 2 ^ 20 ≤ ‖chordPoint (exactQ x) (exactQ y) t.val‖) :
    ∃ r, Quat.nlerp b x y t = .ok r ∧ NearUnit r ∧
      NearQ r (NormedSpace.normalize (chordPoint (exactQ x) (exactQ y) t.val))
        (1 / 2 ^ 20 + 6.1 / 2 ^ 24 / ‖chordPoint (exactQ x) (exactQ y) t.val‖) := by
  refine ⟨Quat.normalize (lerpQ x y t), ?_, nlerp_near hx hy ht.1 ht.2.1 ht.2.2 hc⟩
  unfold Quat.nlerp
  rw [lerp_ok b x y ht.1 ht.2.1 ht.2.2]
  rfl

/-- C104, `nlerp` between unit quaternions at most a right angle apart: always within `2^-19`. -/
theorem C104_nlerp_hemisphere (b : Build) (x y : Quat F32) (t : F32) (hx : NearUnit x) (hy : NearUnit y) (ht : Fraction t)
    (h : 0 ≤ ⟪exactQ x, exactQ y⟫) :
    ∃ r, Quat.nlerp b x y t = .ok r ∧ NearUnit r ∧
      NearQ r (NormedSpace.normalize (chordPoint (exactQ x) (exactQ y) t.val)) (1 / 2 ^ 19) := by
  have c := chord_long ht.2.1 ht.2.2 (by linarith [(unit_bounds hx).2]) (by linarith [(unit_bounds hy).2]) h
  obtain ⟨r, e, u, n⟩ := C104_nlerp b x y t hx hy ht (by linarith)
  refine ⟨r, e, u, n.1, n.2.trans ?_⟩
  have p : 0 < ‖chordPoint (exactQ x) (exactQ y) t.val‖ := by linarith
  have : 6.1 / 2 ^ 24 / ‖chordPoint (exactQ x) (exactQ y) t.val‖ ≤ 9 / 2 ^ 24 := by
    rw [div_le_iff₀ p]; linarith
  linarith

/-- C104, `slerp` of unit quaternions, with a C library whose `sinf` and `acosf` have a small relative error: the result
has length 1 up to `2^-17` and is within `2^-17` of the exact point of the great arc from the first to the second
quaternion or its negative.  It is the one that makes the arc the shorter one, unless the two arcs are of the same length
up to `2^-21`. -/
theorem C104_slerp [Libm F32] (hl : GoodArc) (x y : Quat F32) (t : F32) (hx : NearUnit x) (hy : NearUnit y) (ht : Fraction t) :
    let X := NormedSpace.normalize (exactQ x)
    let Y := NormedSpace.normalize (exactQ y)
    (NearQ (Quat.slerp x y t) (arcPoint X Y t.val) (1 / 2 ^ 17) ∨ NearQ (Quat.slerp x y t) (arcPoint X (-Y) t.val) (1 / 2 ^ 17)) ∧
    |‖exactQ (Quat.slerp x y t)‖ - 1| ≤ 1 / 2 ^ 17 ∧
    (1 / 2 ^ 21 ≤ |⟪X, Y⟫| → NearQ (Quat.slerp x y t) (arcPoint X (nearer X Y) t.val) (1 / 2 ^ 17)) := by
  intro X Y
  obtain ⟨Z, hZ, hn, f, e⟩ := slerp_near hl hx hy ht.1 ht.2.1 ht.2.2
  have e' : ‖exactQ (Quat.slerp x y t) - arcPoint X Z t.val‖ ≤ 1 / 2 ^ 17 := e.trans (by norm_num)
  refine ⟨?_, ?_, fun h => ?_⟩
  · rcases hZ with rfl | rfl
    · exact Or.inl ⟨f, e'⟩
    · exact Or.inr ⟨f, e'⟩
  · have xp : exactQ x ≠ 0 := norm_pos_iff.1 (lt_of_lt_of_le (by norm_num) (unit_bounds hx).2)
    have yp : exactQ y ≠ 0 := norm_pos_iff.1 (lt_of_lt_of_le (by norm_num) (unit_bounds hy).2)
    have nX : ‖X‖ = 1 := NormedSpace.norm_normalize xp
    have nY : ‖Y‖ = 1 := NormedSpace.norm_normalize yp
    have nZ : ‖Z‖ = 1 := by rcases hZ with h | h <;> rw [h] <;> simp [NormedSpace.norm_normalize yp]
    have ip : -1 < ⟪X, Z⟫ := by
      rcases le_or_gt (1 / 2 ^ 21) |⟪X, Y⟫| with h | h
      · rw [hn h]
        unfold nearer
        split_ifs with h
        · rw [inner_neg_right]; linarith
        · linarith [not_lt.1 h]
      · have := abs_lt.1 h
        norm_num at this
        rcases hZ with rfl | rfl
        · linarith [this.1]
        · rw [inner_neg_right]; linarith [this.2]
    have ha : angle X Z < Real.pi := by
      rw [angle, nX, nZ, mul_one, div_one]
      refine lt_of_le_of_ne (Real.arccos_le_pi _) fun h => ?_
      exact absurd (Real.arccos_eq_pi.1 h) (not_le.2 ip)
    have n := (arc_facts nX nZ ha t.val).1
    have := (abs_norm_sub_norm_le _ _).trans e'
    rwa [n] at this
  · rw [hn h] at e'
    exact ⟨f, e'⟩

/-! ### The hypotheses are met -/

/-- no rotation, and a third of a turn about the diagonal -/
def noTurn : Quat F32 := ⟨lit 0, lit 0, lit 0, lit 1⟩
def thirdTurn : Quat F32 := ⟨lit (1 / 2), lit (1 / 2), lit (1 / 2), lit (1 / 2)⟩

private theorem val_half : ((lit (1 / 2) : F32).val : ℝ) = 1 / 2 := by
  rw [show (lit (1 / 2) : F32).val = 1 / 2 by decide +kernel]; norm_num

private theorem exact_noTurn : exactQ noTurn = 1 := by
  have h0 : ((lit 0 : F32).val : ℝ) = 0 := by rw [val_lit_zero]; norm_num
  have h1 : ((lit 1 : F32).val : ℝ) = 1 := by rw [val_lit_one]; norm_num
  apply Quaternion.ext
  · exact h1
  · exact h0
  · exact h0
  · exact h0

private theorem norm_thirdTurn : ‖exactQ thirdTurn‖ = 1 := by
  have : ‖exactQ thirdTurn‖ ^ 2 = 1 := by
    rw [norm_sq_quat]
    change ((lit (1 / 2) : F32).val : ℝ) ^ 2 + ((lit (1 / 2) : F32).val : ℝ) ^ 2 + ((lit (1 / 2) : F32).val : ℝ) ^ 2 +
      ((lit (1 / 2) : F32).val : ℝ) ^ 2 = 1
    rw [val_half]
    norm_num
  exact (sq_eq_sq₀ (norm_nonneg _) zero_le_one).1 (by rw [this]; norm_num)

private theorem inner_turns : ⟪exactQ noTurn, exactQ thirdTurn⟫ = 1 / 2 := by
  rw [exact_noTurn, inner_quat]
  simp only [re_one, imI_one, imJ_one, imK_one, zero_mul, add_zero, one_mul]
  exact val_half

private theorem noTurn_unit : NearUnit noTurn :=
  ⟨fun i => by fin_cases i <;> decide +kernel, by rw [exact_noTurn]; norm_num⟩

private theorem thirdTurn_unit : NearUnit thirdTurn :=
  ⟨fun i => by fin_cases i <;> decide +kernel, by rw [norm_thirdTurn]; norm_num⟩

private theorem fraction_half : Fraction (lit (1 / 2)) :=
  ⟨by decide +kernel, by rw [val_half]; norm_num, by rw [val_half]; norm_num⟩

example (b : Build) : ∃ r, Quat.nlerp b noTurn thirdTurn (lit (1 / 2)) = .ok r ∧ NearUnit r ∧
    NearQ r (NormedSpace.normalize (chordPoint (exactQ noTurn) (exactQ thirdTurn) (lit (1 / 2) : F32).val)) (1 / 2 ^ 19) :=
  C104_nlerp_hemisphere b noTurn thirdTurn (lit (1 / 2)) noTurn_unit thirdTurn_unit fraction_half
    (by rw [inner_turns]; norm_num)

example (b : Build) := C104_lerp b noTurn thirdTurn (lit (1 / 2)) noTurn_unit.1 thirdTurn_unit.1
  (by rw [exact_noTurn]; norm_num) (by rw [norm_thirdTurn]; norm_num) fraction_half

/-- a C library meeting the assumption of `C104_slerp` -/
example : @GoodArc arcLibm := arcLibm_good

/-- the two quaternions meet the assumptions of `C104_slerp`, also the one about the two arcs -/
example : letI := arcLibm
    let X := NormedSpace.normalize (exactQ noTurn)
    let Y := NormedSpace.normalize (exactQ thirdTurn)
    |‖exactQ (Quat.slerp noTurn thirdTurn (lit (1 / 2)))‖ - 1| ≤ 1 / 2 ^ 17 ∧
      NearQ (Quat.slerp noTurn thirdTurn (lit (1 / 2))) (arcPoint X (nearer X Y) (lit (1 / 2) : F32).val) (1 / 2 ^ 17) := by
  have h := (@C104_slerp arcLibm arcLibm_good noTurn thirdTurn (lit (1 / 2)) noTurn_unit thirdTurn_unit fraction_half).2
  refine ⟨h.1, h.2 ?_⟩
  unfold NormedSpace.normalize
  rw [real_inner_smul_left, real_inner_smul_right, inner_turns, norm_thirdTurn, exact_noTurn]
  norm_num

end Zcm
