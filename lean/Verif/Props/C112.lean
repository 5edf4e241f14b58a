import Verif.Lemmas.F32Euler
import Verif.Lemmas.F32AngleLib
import Verif.Lemmas.F32QuatCast

/-!
# C112  Euler angles in IEEE arithmetic

`eulerAngles(q)` and `quat(eulerAngles)` in binary32, for every C library whose `sinf`, `cosf`, `asinf` and `atan2f` are
accurate (`GoodTrig`, `GoodAsin`, `GoodAtan2`).

Away from gimbal lock the two are inverse to each other up to an error that grows like `1 / cos(yaw)`.  At gimbal lock the
claim fails: `pitch` has a special case for it, which asks whether two computed numbers are exactly 0.  In float arithmetic
they are often not, and then pitch and roll are the directions of rounding errors.
-/

set_option exponentiation.threshold 300

namespace Zcm

open Quaternion F32

/-! ## What the specification means -/

/-- `sinYaw` and `cosYaw` are the sine and cosine of the yaw of a rotation given by Euler angles. -/
theorem C112_yaw (pitch yaw roll : ℝ) (h : |yaw| ≤ Real.pi / 2) :
    sinYaw (turnQ roll ![0, 0, 1] * turnQ yaw ![0, 1, 0] * turnQ pitch ![1, 0, 0]) = Real.sin yaw ∧
    cosYaw (turnQ roll ![0, 0, 1] * turnQ yaw ![0, 1, 0] * turnQ pitch ![1, 0, 0]) = Real.cos yaw := by
  have nT : ‖turnQ roll ![0, 0, 1] * turnQ yaw ![0, 1, 0] * turnQ pitch ![1, 0, 0]‖ = 1 := by
    rw [norm_mul, norm_mul, turnQ_norm (by simp [Fin.sum_univ_three]), turnQ_norm (by simp [Fin.sum_univ_three]),
      turnQ_norm (by simp [Fin.sum_univ_three])]
    norm_num
  have s : sinYaw (turnQ roll ![0, 0, 1] * turnQ yaw ![0, 1, 0] * turnQ pitch ![1, 0, 0]) = Real.sin yaw := by
    rw [sinYaw_eq, nT, (euler_parts_turn pitch yaw roll).2.2.2.2]
    norm_num
  obtain ⟨h0, h1⟩ := _root_.abs_le.1 h
  exact ⟨s, by rw [cosYaw, s, ← Real.cos_eq_sqrt_one_sub_sin_sq h0 h1]⟩

/-- `chord` is what its description says: small exactly when the angles agree up to whole turns. -/
theorem C112_chord (a b : ℝ) : (∀ k : ℤ, chord a b ≤ |a - b - k * (2 * Real.pi)|) ∧
    ∃ k : ℤ, |a - b - k * (2 * Real.pi)| ≤ Real.pi / 2 * chord a b := by
  have per : ∀ k : ℤ, chord a b = chord (a - k * (2 * Real.pi)) b := by
    intro k
    unfold chord
    rw [Real.cos_sub_int_mul_two_pi, Real.sin_sub_int_mul_two_pi]
  refine ⟨fun k => ?_, ?_⟩
  · rw [per k, show a - b - k * (2 * Real.pi) = a - k * (2 * Real.pi) - b by ring]
    exact chord_le _ _
  · refine ⟨_root_.round ((a - b) / (2 * Real.pi)), ?_⟩
    set k := _root_.round ((a - b) / (2 * Real.pi)) with hk
    have tp : 0 < 2 * Real.pi := by positivity
    have hr : |a - b - k * (2 * Real.pi)| ≤ Real.pi := by
      have := abs_sub_round ((a - b) / (2 * Real.pi))
      rw [← hk] at this
      have e : a - b - k * (2 * Real.pi) = ((a - b) / (2 * Real.pi) - k) * (2 * Real.pi) := by field_simp
      rw [e, abs_mul, abs_of_pos tp]
      nlinarith
    have e : chord a b ^ 2 = (2 * Real.sin (|a - b - k * (2 * Real.pi)| / 2)) ^ 2 := by
      rw [per k, chord_sq', show a - k * (2 * Real.pi) - b = a - b - k * (2 * Real.pi) by ring, ← Real.cos_abs]
      generalize |a - b - k * (2 * Real.pi)| = x
      rw [show Real.cos x = Real.cos (2 * (x / 2)) by ring_nf, Real.cos_two_mul]
      linear_combination -4 * Real.sin_sq_add_cos_sq (x / 2)
    have x0 := abs_nonneg (a - b - k * (2 * Real.pi))
    generalize |a - b - k * (2 * Real.pi)| = x at *
    have s0 := Real.sin_nonneg_of_nonneg_of_le_pi (x := x / 2) (by linarith) (by linarith)
    have e' : chord a b = 2 * Real.sin (x / 2) :=
      (sq_eq_sq₀ (chord_nonneg _ _) (by linarith)).1 e
    have j := Real.mul_le_sin (x := x / 2) (by linarith) (by linarith)
    rw [e']
    have : 2 / Real.pi * (x / 2) = x / Real.pi := by ring
    rw [this, div_le_iff₀ Real.pi_pos] at j
    nlinarith

variable [Libm F32]

/-! ## No NaN -/

/-- C112: the Euler angles of a quaternion are finite numbers, never NaN, also at gimbal lock and also for quaternions that
are not normalised; the yaw is in `[-π/2, π/2]`, the roll in `[-π, π]`, the pitch in `[-2π, 2π]`, up to the accuracy of the
C library. -/
theorem C112_finite (hs : GoodAsin) (ha : GoodAtan2) (q : Quat F32) (hf : q.Finite) (hb : ∀ i, |((coord q i).val : ℝ)| ≤ 2 ^ 40) :
    (Quat.eulerAngles q).Finite ∧ |((Quat.yaw q).val : ℝ)| ≤ Real.pi / 2 + 1 / 2 ^ 22 ∧
      |((Quat.roll q).val : ℝ)| ≤ Real.pi + 1 / 2 ^ 21 ∧ |((Quat.pitch q).val : ℝ)| ≤ 2 * Real.pi + 1 / 2 ^ 20 := by
  have c : ∀ i j, Close (coord q i * coord q j) ((coord q i).val * (coord q j).val) (2 ^ 40 * 2 ^ 40) 1 (2 / 2 ^ 24) := by
    intro i j
    exact ((Close.exact (hf i) (hb i)).mul (Close.exact (hf j) (hb j)) (by norm_num) (by norm_num) le_rfl zero_le_one zero_le_one
      le_rfl (by norm_num) (by norm_num) (by norm_num)).weaken (by norm_num) (by norm_num) (by norm_num)
  have cx := c 0 0
  have cy := c 1 1
  have cz := c 2 2
  have cw := c 3 3
  have two : ∀ {x : F32} {r M E : ℝ}, Close x r (2 ^ 40 * 2 ^ 40) M E → M + E ≤ 4 → (lit 2 * x).IsFin = true := by
    intro x r M E h hb
    have a := h.abs_le
    have b : |x.val| ≤ 2 ^ 120 := by
      have : |(x.val : ℝ)| ≤ 2 ^ 120 := by
        refine a.trans ?_
        calc (M + E) * (2 ^ 40 * 2 ^ 40) ≤ 4 * (2 ^ 40 * 2 ^ 40) := by gcongr
          _ ≤ _ := by norm_num
      exact_mod_cast this
    exact (two_mul_exact h.fin b).1
  have py : (lit 2 * (q.y * q.z + q.w * q.x)).IsFin = true :=
    two ((c 1 2).add (c 3 0) (by norm_num) (by norm_num) (by norm_num)) (by norm_num)
  have ry : (lit 2 * (q.x * q.y + q.w * q.z)).IsFin = true :=
    two ((c 0 1).add (c 3 2) (by norm_num) (by norm_num) (by norm_num)) (by norm_num)
  have sy : (-(lit 2) * (q.x * q.z - q.w * q.y)).IsFin = true := by
    rw [neg_mul', isFin_neg]
    exact two ((c 0 2).sub (c 3 1) (by norm_num) (by norm_num) (by norm_num)) (by norm_num)
  have px : (q.w * q.w - q.x * q.x - q.y * q.y + q.z * q.z).IsFin = true :=
    (((cw.sub cx (by norm_num) (by norm_num) (by norm_num)).sub cy (by norm_num) (by norm_num) (by norm_num)).add cz
      (by norm_num) (by norm_num) (by norm_num)).fin
  have rx : (q.w * q.w + q.x * q.x - q.y * q.y - q.z * q.z).IsFin = true :=
    (((cw.add cx (by norm_num) (by norm_num) (by norm_num)).sub cy (by norm_num) (by norm_num) (by norm_num)).sub cz
      (by norm_num) (by norm_num) (by norm_num)).fin
  have at2 : ∀ {y x : F32}, y.IsFin = true → x.IsFin = true →
      (Libm.atan2f y x).IsFin = true ∧ |((Libm.atan2f y x).val : ℝ)| ≤ Real.pi + 1 / 2 ^ 21 := by
    intro y x fy fx
    obtain ⟨θ, hθ, -, -, f, e⟩ := ha y x fy fx
    refine ⟨f, ?_⟩
    have := abs_sub_abs_le_abs_sub ((Libm.atan2f y x).val : ℝ) θ
    linarith
  have roll : (Quat.roll q).IsFin = true ∧ |((Quat.roll q).val : ℝ)| ≤ Real.pi + 1 / 2 ^ 21 := at2 ry rx
  have yaw : (Quat.yaw q).IsFin = true ∧ |((Quat.yaw q).val : ℝ)| ≤ Real.pi / 2 + 1 / 2 ^ 22 := by
    obtain ⟨fc, vc⟩ := val_clamp11 sy
    have := (clamp_close (a := ((-(lit 2) * (q.x * q.z - q.w * q.y) : F32).val : ℝ)) (b := 0) (by norm_num) le_rfl).2
    rw [← vc] at this
    obtain ⟨f, e⟩ := hs _ fc this
    refine ⟨f, ?_⟩
    have l := abs_sub_abs_le_abs_sub ((Quat.yaw q).val : ℝ) (Real.arcsin (F.clamp (-(lit 2) * (q.x * q.z - q.w * q.y)) (-(lit 1)) (lit 1) : F32).val)
    have b : |Real.arcsin (F.clamp (-(lit 2) * (q.x * q.z - q.w * q.y)) (-(lit 1)) (lit 1) : F32).val| ≤ Real.pi / 2 := by
      rw [_root_.abs_le]
      exact ⟨Real.neg_pi_div_two_le_arcsin _, Real.arcsin_le_pi_div_two _⟩
    exact (sub_le_iff_le_add'.1 l).trans (add_le_add b e)
  have pitch : (Quat.pitch q).IsFin = true ∧ |((Quat.pitch q).val : ℝ)| ≤ 2 * Real.pi + 1 / 2 ^ 20 := by
    unfold Quat.pitch
    simp only
    split_ifs with h
    · obtain ⟨f, b⟩ := at2 (hf 0) (hf 3)
      change (F.atan2 q.x q.w).IsFin = true at f
      change |((F.atan2 q.x q.w).val : ℝ)| ≤ _ at b
      have b' : |(F.atan2 q.x q.w).val| ≤ 2 ^ 120 := by
        have : |((F.atan2 q.x q.w).val : ℝ)| ≤ 2 ^ 120 := by
          refine b.trans ?_
          have := Real.pi_le_four
          norm_num
          linarith
        exact_mod_cast this
      obtain ⟨g, v⟩ := two_mul_exact f b'
      refine ⟨g, ?_⟩
      rw [v]
      push_cast
      rw [abs_mul, abs_two]
      norm_num at b ⊢
      linarith
    · obtain ⟨f, b⟩ := at2 py px
      refine ⟨f, b.trans ?_⟩
      have := Real.pi_pos
      norm_num
      linarith
  exact ⟨fun i => by fin_cases i <;> [exact pitch.1; exact yaw.1; exact roll.1], yaw.2, roll.2, pitch.2⟩

/-! ## Inverse to each other, away from gimbal lock -/

/-- C112: for every quaternion of norm 1 up to `2^-20` whose rotation does not take the x-axis too close to the vertical
(`cosYaw ≥ 2^-12`), `quat(eulerAngles(q))` is `q` or `-q` to within `2^-16 / cosYaw`.

Missing, and false (`C112_lock_false`): the same near gimbal lock. -/
theorem C112_roundtrip_partial (ht : GoodTrig) (hs : GoodAsin) (ha : GoodAtan2) (q : Quat F32) (hf : q.Finite)
    (hn : |‖exactQ q‖ - 1| ≤ 1 / 2 ^ 20) (hc : 1 / 2 ^ 12 ≤ cosYaw (exactQ q)) :
    (Quat.eulerAngles q).Finite ∧ ∃ s : ℝ, (s = 1 ∨ s = -1) ∧
      ‖exactQ (Quat.ofEuler (Quat.eulerAngles q)) - s • exactQ q‖ ≤ 1 / 2 ^ 16 / cosYaw (exactQ q) :=
  euler_roundtrip_close ht hs ha hf hn hc

/-- C112, the other way round: for finite angles with `|yaw| ≤ π/2` and `cos(yaw) ≥ 2^-10`, each of the angles that
`eulerAngles(quat(pitch, yaw, roll))` returns agrees with the one given, up to whole turns, to within
`2^-15 / cos(yaw)`. -/
theorem C112_extract (ht : GoodTrig) (hs : GoodAsin) (ha : GoodAtan2) (e : V3 F32) (he : e.Finite)
    (hy : |(e.y.val : ℝ)| ≤ Real.pi / 2) (hc : 1 / 2 ^ 10 ≤ Real.cos e.y.val) :
    (Quat.eulerAngles (Quat.ofEuler e)).Finite ∧
    ∀ i, chord (coord (Quat.eulerAngles (Quat.ofEuler e)) i).val (coord e i).val ≤ 1 / 2 ^ 15 / Real.cos e.y.val := by
  obtain ⟨f, d⟩ := euler_close ht he
  obtain ⟨g, p, y, r⟩ := angles_close hs ha f d hy hc
  exact ⟨g, fun i => by fin_cases i <;> [exact p; exact y; exact r]⟩

/-! ## Gimbal lock -/

omit [Libm F32] in
/-- the rotation that takes the x-axis to the vertical, after a turn of about 16 degrees about the x-axis -/
def lockQ : Quat F32 := ⟨lit (1 / 10), lit (7 / 10), lit (-1 / 10), lit (7 / 10)⟩

theorem lock_direction (ha : GoodAtan2) {y x : F32} (fy : y.IsFin = true) (fx : x.IsFin = true) (hy : y.val = 0) :
    ∃ θ : ℝ, Near (Libm.atan2f y x) θ (1 / 2 ^ 21) ∧
      ((0 < x.val → Real.sin (θ / 2) = 0) ∧ (x.val < 0 → Real.cos (θ / 2) = 0)) := by
  obtain ⟨θ, -, hc, -, n⟩ := ha y x fy fx
  have hy' : (y.val : ℝ) = 0 := by exact_mod_cast hy
  rw [hy', zero_pow two_ne_zero, add_zero, Real.sqrt_sq_eq_abs] at hc
  have half : Real.cos θ = 2 * Real.cos (θ / 2) ^ 2 - 1 := by
    rw [← Real.cos_two_mul]; ring_nf
  refine ⟨θ, n, fun h => ?_, fun h => ?_⟩
  · have hx' : 0 < (x.val : ℝ) := by exact_mod_cast h
    rw [abs_of_pos hx'] at hc
    have : Real.cos θ = 1 := mul_left_cancel₀ hx'.ne' (by rw [hc, mul_one])
    have : Real.sin (θ / 2) ^ 2 = 0 := by linarith [Real.sin_sq_add_cos_sq (θ / 2)]
    exact pow_eq_zero_iff two_ne_zero |>.1 this
  · have hx' : (x.val : ℝ) < 0 := by exact_mod_cast h
    rw [abs_of_neg hx'] at hc
    have : Real.cos θ = -1 := mul_left_cancel₀ hx'.ne (by linarith)
    have : Real.cos (θ / 2) ^ 2 = 0 := by linarith
    exact pow_eq_zero_iff two_ne_zero |>.1 this

omit [Libm F32] in
/-- C112 fails at gimbal lock: for `q = quat(0.7, 0.1, 0.7, -0.1)`, which is finite and of norm 1 up to `2^-20`, with every
accurate C library `quat(eulerAngles(q))` is a completely different rotation: more than 1/2 away from `q` and from `-q`. -/
theorem C112_lock_false : ∃ q : Quat F32, q.Finite ∧ |‖exactQ q‖ - 1| ≤ 1 / 2 ^ 20 ∧
    ∀ [Libm F32], GoodTrig → GoodAsin → GoodAtan2 → ∀ s : ℝ, s = 1 ∨ s = -1 →
      1 / 2 < ‖exactQ (Quat.ofEuler (Quat.eulerAngles q)) - s • exactQ q‖ := by
  have fq : lockQ.Finite := fun i => by fin_cases i <;> decide +kernel
  refine ⟨lockQ, fq, ?_, ?_⟩
  · have e : ‖exactQ lockQ‖ ^ 2 = (lockQ.w.val : ℝ) ^ 2 + (lockQ.x.val : ℝ) ^ 2 + (lockQ.y.val : ℝ) ^ 2 + (lockQ.z.val : ℝ) ^ 2 :=
      norm_sq_quat _
    have r : |lockQ.w.val ^ 2 + lockQ.x.val ^ 2 + lockQ.y.val ^ 2 + lockQ.z.val ^ 2 - 1| ≤ 1 / 2 ^ 20 := by decide +kernel
    have r' : |(lockQ.w.val : ℝ) ^ 2 + (lockQ.x.val : ℝ) ^ 2 + (lockQ.y.val : ℝ) ^ 2 + (lockQ.z.val : ℝ) ^ 2 - 1| ≤ 1 / 2 ^ 20 := by
      have := (Rat.cast_le (K := ℝ)).2 r
      push_cast at this
      exact this
    rw [← e] at r'
    have n := norm_nonneg (exactQ lockQ)
    have f : ‖exactQ lockQ‖ ^ 2 - 1 = (‖exactQ lockQ‖ - 1) * (‖exactQ lockQ‖ + 1) := by ring
    rw [f, abs_mul, abs_of_pos (a := ‖exactQ lockQ‖ + 1) (by linarith)] at r'
    nlinarith [abs_nonneg (‖exactQ lockQ‖ - 1)]
  · intro _ ht hs ha s hs1
    have bound : ∀ i, |((coord lockQ i).val : ℝ)| ≤ 2 ^ 40 := by
      intro i
      have : |(coord lockQ i).val| ≤ 2 ^ 40 := by fin_cases i <;> decide +kernel
      exact_mod_cast this
    obtain ⟨fe, -⟩ := C112_finite hs ha lockQ fq bound
    obtain ⟨fw, ec⟩ := euler_close ht fe
    obtain ⟨p, hp, hp1, -⟩ := lock_direction ha (y := lit 2 * (lockQ.y * lockQ.z + lockQ.w * lockQ.x))
      (x := lockQ.w * lockQ.w - lockQ.x * lockQ.x - lockQ.y * lockQ.y + lockQ.z * lockQ.z)
      (by decide +kernel) (by decide +kernel) (by decide +kernel)
    have sp := hp1 (by decide +kernel)
    obtain ⟨r, hr, -, hr1⟩ := lock_direction ha (y := lit 2 * (lockQ.x * lockQ.y + lockQ.w * lockQ.z))
      (x := lockQ.w * lockQ.w + lockQ.x * lockQ.x - lockQ.y * lockQ.y - lockQ.z * lockQ.z)
      (by decide +kernel) (by decide +kernel) (by decide +kernel)
    have cr := hr1 (by decide +kernel)
    have pe : Quat.pitch lockQ = Libm.atan2f (lit 2 * (lockQ.y * lockQ.z + lockQ.w * lockQ.x))
        (lockQ.w * lockQ.w - lockQ.x * lockQ.x - lockQ.y * lockQ.y + lockQ.z * lockQ.z) := by
      unfold Quat.pitch
      simp only
      rw [if_neg (by decide +kernel)]
      rfl
    rw [← pe] at hp
    change Near (Quat.roll lockQ) r _ at hr
    have w1 := (abs_part_le (exactQ (Quat.ofEuler (Quat.eulerAngles lockQ)) - turnQ (Quat.roll lockQ).val ![0, 0, 1] *
      turnQ (Quat.yaw lockQ).val ![0, 1, 0] * turnQ (Quat.pitch lockQ).val ![1, 0, 0])).1.trans ec
    rw [re_sub, turnQ_euler] at w1
    have w2 := (abs_part_le (exactQ (Quat.ofEuler (Quat.eulerAngles lockQ)) - s • exactQ lockQ)).1
    rw [re_sub, re_smul] at w2
    have hwv : ((exactQ lockQ).re : ℝ) = lockQ.w.val := rfl
    have w7 : |(lockQ.w.val : ℝ) - 0.7| ≤ 0.001 := by
      have : |lockQ.w.val - 0.7| ≤ 0.001 := by decide +kernel
      have := (Rat.cast_le (K := ℝ)).2 this
      push_cast at this
      norm_num at this ⊢
      exact this
    rw [hwv] at w2
    have h1 : |Real.sin ((Quat.pitch lockQ).val / 2)| ≤ 1 / 2 ^ 22 := by
      have := Real.abs_sin_sub_sin_le (((Quat.pitch lockQ).val : ℝ) / 2) (p / 2)
      rw [sp, sub_zero, ← sub_div, abs_div, abs_two] at this
      have := hp.2
      norm_num at *
      linarith
    have h2 : |Real.cos ((Quat.roll lockQ).val / 2)| ≤ 1 / 2 ^ 22 := by
      have := Real.abs_cos_sub_cos_le (((Quat.roll lockQ).val : ℝ) / 2) (r / 2)
      rw [cr, sub_zero, ← sub_div, abs_div, abs_two] at this
      have := hr.2
      norm_num at *
      linarith
    have product : ∀ {a b c e : ℝ}, |a| ≤ e → |b| ≤ 1 → |c| ≤ 1 → |a * b * c| ≤ e := by
      intro a b c e h0 h1 h2
      rw [abs_mul, abs_mul]
      exact (mul_le_of_le_one_right (by positivity) h2).trans ((mul_le_of_le_one_right (abs_nonneg a) h1).trans h0)
    have a1 := product h1 (Real.abs_sin_le_one (((Quat.yaw lockQ).val : ℝ) / 2)) (Real.abs_sin_le_one (((Quat.roll lockQ).val : ℝ) / 2))
    have a2 := product h2 (Real.abs_cos_le_one (((Quat.yaw lockQ).val : ℝ) / 2)) (Real.abs_cos_le_one (((Quat.pitch lockQ).val : ℝ) / 2))
    rw [mul_assoc, mul_comm, mul_comm (Real.cos (((Quat.yaw lockQ).val : ℝ) / 2))] at a2
    change |_ - (_ + _)| ≤ _ at w1
    generalize Real.sin (((Quat.pitch lockQ).val : ℝ) / 2) * Real.sin (((Quat.yaw lockQ).val : ℝ) / 2) *
      Real.sin (((Quat.roll lockQ).val : ℝ) / 2) = A at *
    generalize Real.cos (((Quat.pitch lockQ).val : ℝ) / 2) * Real.cos (((Quat.yaw lockQ).val : ℝ) / 2) *
      Real.cos (((Quat.roll lockQ).val : ℝ) / 2) = B at *
    generalize (exactQ (Quat.ofEuler (Quat.eulerAngles lockQ))).re = W at *
    generalize ‖exactQ (Quat.ofEuler (Quat.eulerAngles lockQ)) - s • exactQ lockQ‖ = N at *
    generalize (lockQ.w.val : ℝ) = w at *
    clear h1 h2 hp hr hwv sp cr pe ec fw fe hp1 hr1
    rw [_root_.abs_le] at w1 w7 a1 a2 w2
    norm_num at w1 w7 a1 a2
    rcases hs1 with rfl | rfl
    · rw [smul_eq_mul, one_mul] at w2
      norm_num
      linarith
    · rw [smul_eq_mul, neg_one_mul] at w2
      norm_num
      linarith

/-! ## Non-vacuity -/

omit [Libm F32] in
/-- a C library as assumed -/
example : @GoodTrig angleLibm ∧ @GoodAsin angleLibm ∧ @GoodAtan2 angleLibm := ⟨angleLibm_trig, angleLibm_asin, angleLibm_atan2⟩

/-- the hypotheses of the round trip: the third of a turn about the diagonal, whose yaw is 0 -/
def thirdQ : Quat F32 := ⟨lit (1 / 2), lit (1 / 2), lit (1 / 2), lit (1 / 2)⟩

example : thirdQ.Finite ∧ (∀ i, |((coord thirdQ i).val : ℝ)| ≤ 2 ^ 40) ∧ |‖exactQ thirdQ‖ - 1| ≤ 1 / 2 ^ 20 ∧
    1 / 2 ^ 12 ≤ cosYaw (exactQ thirdQ) := by
  have v : (lit (1 / 2) : F32).val = 1 / 2 := by decide +kernel
  have e : exactQ thirdQ = (⟨1 / 2, 1 / 2, 1 / 2, 1 / 2⟩ : ℍ[ℝ]) := by
    ext <;> simp only [exactQ, thirdQ, v] <;> norm_num
  have n : ‖exactQ thirdQ‖ = 1 := by
    have : ‖exactQ thirdQ‖ ^ 2 = 1 := by
      rw [norm_sq_quat, e]
      norm_num
    exact (pow_eq_one_iff_of_nonneg (norm_nonneg _) two_ne_zero).1 this
  refine ⟨fun i => by fin_cases i <;> decide +kernel, ?_, by rw [n]; norm_num, ?_⟩
  · intro i
    have : |(coord thirdQ i).val| ≤ 2 ^ 40 := by fin_cases i <;> decide +kernel
    exact_mod_cast this
  · rw [cosYaw, sinYaw_eq, n, e]
    norm_num

/-- the hypotheses of the extraction: pitch 100, yaw 1, roll -3 -/
example : (⟨lit 100, lit 1, lit (-3)⟩ : V3 F32).Finite ∧ |(((lit 1 : F32)).val : ℝ)| ≤ Real.pi / 2 ∧
    1 / 2 ^ 10 ≤ Real.cos ((lit 1 : F32)).val := by
  have v : (lit 1 : F32).val = 1 := by decide +kernel
  refine ⟨fun i => by fin_cases i <;> decide +kernel, ?_, ?_⟩
  · rw [v]
    norm_num
    linarith [Real.pi_gt_three]
  · rw [v]
    push_cast
    have := Real.cos_one_pos
    have := Real.one_sub_sq_div_two_le_cos (x := 1)
    norm_num at this ⊢
    linarith

end Zcm
