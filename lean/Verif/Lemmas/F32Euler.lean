import Verif.Lemmas.EulerExact
import Verif.Lemmas.F32Close
import Verif.Lemmas.F32Mix
import Verif.Lemmas.F32AngleLib

/-!
# Euler angles of float quaternions
-/

set_option exponentiation.threshold 300

namespace Zcm

open Quaternion F32

theorem F32.Close.product {x y : F32} {B : ℝ} (fx : x.IsFin = true) (fy : y.IsFin = true)
    (hB : |(x.val : ℝ) * y.val| ≤ B) (b2 : B ≤ 2) :
    Close (x * y) (x.val * y.val) 1 B (B / 2 ^ 24 + 1 / 2 ^ 150) := by
  obtain ⟨f, e⟩ := (Rel.exact fx).mul' (Rel.exact fy) (g := 1 / 2 ^ 24) (by norm_num) (by norm_num)
    (hB.trans (b2.trans (by norm_num)))
  refine ⟨f, by rwa [mul_one], ?_⟩
  rw [mul_one]
  refine e.trans ?_
  have : 1 / 2 ^ 24 * |(x.val : ℝ) * y.val| ≤ 1 / 2 ^ 24 * B := by gcongr
  linarith

theorem F32.Close.near {x : F32} {r M E : ℝ} (h : Close x r 1 M E) : |(x.val : ℝ) - r| ≤ E := by
  have := h.err
  rwa [mul_one] at this

/-- twice a float, without error -/
theorem F32.Close.double {x : F32} {r M E : ℝ} (h : Close x r 1 M E) (hb : M + E ≤ 4) : Close (lit 2 * x) (2 * r) 1 (2 * M) (2 * E) := by
  have a := h.abs_le
  rw [mul_one] at a
  have b : |x.val| ≤ 2 ^ 120 := by
    have : |(x.val : ℝ)| ≤ 2 ^ 120 := a.trans (hb.trans (by norm_num))
    exact_mod_cast this
  obtain ⟨f, v⟩ := two_mul_exact h.fin b
  have l := h.le
  have e := h.err
  rw [mul_one] at l e
  refine ⟨f, ?_, ?_⟩
  · rw [abs_mul, abs_two, mul_one]; linarith
  · rw [v]
    push_cast
    rw [← mul_sub, abs_mul, abs_two, mul_one]
    linarith

/-- components of a float quaternion of norm about 1 -/
structure EulerParts (q : Quat F32) (Q : ℍ[ℝ]) : Prop where
  px : Near (q.w * q.w - q.x * q.x - q.y * q.y + q.z * q.z)
    (Q.re * Q.re - Q.imI * Q.imI - Q.imJ * Q.imJ + Q.imK * Q.imK) (10.3 / 2 ^ 24)
  py : Near (lit 2 * (q.y * q.z + q.w * q.x)) (2 * (Q.imJ * Q.imK + Q.re * Q.imI)) (4.1 / 2 ^ 24)
  rx : Near (q.w * q.w + q.x * q.x - q.y * q.y - q.z * q.z)
    (Q.re * Q.re + Q.imI * Q.imI - Q.imJ * Q.imJ - Q.imK * Q.imK) (10.3 / 2 ^ 24)
  ry : Near (lit 2 * (q.x * q.y + q.w * q.z)) (2 * (Q.imI * Q.imJ + Q.re * Q.imK)) (4.1 / 2 ^ 24)
  s : Near (-(lit 2) * (q.x * q.z - q.w * q.y)) (2 * (Q.re * Q.imJ - Q.imI * Q.imK)) (4.1 / 2 ^ 24)

theorem two_product_le {a b : ℝ} {B : ℝ} (h : a ^ 2 + b ^ 2 ≤ 2 * B) : |a * b| ≤ B := by
  rw [abs_le]
  constructor <;> nlinarith [sq_nonneg (a + b), sq_nonneg (a - b)]

theorem euler_parts_close {q : Quat F32} (hf : q.Finite) (hn : ‖exactQ q‖ ^ 2 ≤ 1 + 1 / 2 ^ 16) : EulerParts q (exactQ q) := by
  rw [norm_sq_quat] at hn
  change (q.w.val : ℝ) ^ 2 + (q.x.val : ℝ) ^ 2 + (q.y.val : ℝ) ^ 2 + (q.z.val : ℝ) ^ 2 ≤ _ at hn
  have w0 := sq_nonneg (q.w.val : ℝ)
  have x0 := sq_nonneg (q.x.val : ℝ)
  have y0 := sq_nonneg (q.y.val : ℝ)
  have z0 := sq_nonneg (q.z.val : ℝ)
  have fx : q.x.IsFin = true := hf 0
  have fy : q.y.IsFin = true := hf 1
  have fz : q.z.IsFin = true := hf 2
  have fw : q.w.IsFin = true := hf 3
  have sq : ∀ {x : F32}, x.IsFin = true → (x.val : ℝ) ^ 2 ≤ 1.001 →
      Close (x * x) (x.val * x.val) 1 1.001 (1.002 / 2 ^ 24) := by
    intro x f h
    refine (Close.product f f (B := 1.001) (by rw [← sq, abs_of_nonneg (sq_nonneg _)]; exact h) (by norm_num)).weaken zero_le_one le_rfl
      (by norm_num)
  have pr : ∀ {x y : F32}, x.IsFin = true → y.IsFin = true → (x.val : ℝ) ^ 2 + (y.val : ℝ) ^ 2 ≤ 1.001 →
      Close (x * y) (x.val * y.val) 1 0.5005 (0.501 / 2 ^ 24) := by
    intro x y f g h
    refine (Close.product f g (B := 0.5005) (two_product_le (by linarith)) (by norm_num)).weaken zero_le_one le_rfl (by norm_num)
  norm_num at hn
  have cw := sq fw (by linarith)
  have cx := sq fx (by linarith)
  have cy := sq fy (by linarith)
  have cz := sq fz (by linarith)
  refine ⟨?_, ?_, ?_, ?_, ?_⟩
  · have a := (cw.sub cx zero_le_one (by norm_num) (by norm_num)).tighten (M' := 1.001) (by
      rw [mul_one, ← _root_.sq, ← _root_.sq, _root_.abs_le]; constructor <;> linarith)
    have b := (a.sub cy zero_le_one (by norm_num) (by norm_num)).tighten (M' := 1.001) (by
      rw [mul_one, ← _root_.sq, ← _root_.sq, ← _root_.sq, _root_.abs_le]; constructor <;> linarith)
    have c := b.add cz zero_le_one (by norm_num) (by norm_num)
    exact ⟨c.fin, c.near.trans (by norm_num)⟩
  · have c := ((pr fy fz (by linarith)).add (pr fw fx (by linarith)) zero_le_one (by norm_num) (by norm_num)).double (by norm_num)
    exact ⟨c.fin, c.near.trans (by norm_num)⟩
  · have a := (cw.add cx zero_le_one (by norm_num) (by norm_num)).tighten (M' := 1.001) (by
      rw [mul_one, ← _root_.sq, ← _root_.sq, _root_.abs_le]; constructor <;> linarith)
    have b := (a.sub cy zero_le_one (by norm_num) (by norm_num)).tighten (M' := 1.001) (by
      rw [mul_one, ← _root_.sq, ← _root_.sq, ← _root_.sq, _root_.abs_le]; constructor <;> linarith)
    have c := b.sub cz zero_le_one (by norm_num) (by norm_num)
    exact ⟨c.fin, c.near.trans (by norm_num)⟩
  · have c := ((pr fx fy (by linarith)).add (pr fw fz (by linarith)) zero_le_one (by norm_num) (by norm_num)).double (by norm_num)
    exact ⟨c.fin, c.near.trans (by norm_num)⟩
  · have c := ((pr fx fz (by linarith)).sub (pr fw fy (by linarith)) zero_le_one (by norm_num) (by norm_num)).double (by norm_num)
    have d := c.neg
    have e : -(lit 2 * (q.x * q.z - q.w * q.y)) = -(lit 2) * (q.x * q.z - q.w * q.y) := (neg_mul' _ _).symm
    rw [e] at d
    refine ⟨d.fin, ?_⟩
    have g := d.near
    have h : 2 * ((exactQ q).re * (exactQ q).imJ - (exactQ q).imI * (exactQ q).imK) =
      -(2 * ((q.x.val : ℝ) * q.z.val - q.w.val * q.y.val)) := by
      change 2 * ((q.w.val : ℝ) * q.y.val - q.x.val * q.z.val) = _
      ring
    rw [h]
    exact g.trans (by norm_num)

theorem val_clamp11 {u : F32} (fu : u.IsFin = true) :
    (F.clamp u (-(lit 1)) (lit 1)).IsFin = true ∧
    ((F.clamp u (-(lit 1)) (lit 1)).val : ℝ) = max (-1) (min 1 (u.val : ℝ)) := by
  have nu := isFin_ne_nan fu
  have fm : (-(lit 1) : F32).IsFin = true := by decide +kernel
  have z : ((-(lit 1) : F32).val : ℝ) = -1 := by rw [val_neg, val_lit_one]; norm_num
  have o : ((lit 1 : F32).val : ℝ) = 1 := by rw [val_lit_one]; norm_num
  have l0 : u < -(lit 1) ↔ (u.val : ℝ) < -1 := by
    rw [lt_iff, ← z, Rat.cast_lt]
    have := key_le_iff (a := -(lit 1)) (b := u)
    constructor
    · exact fun h => not_le.1 (fun c => not_le.2 h.2.2 (this.2 c))
    · exact fun h => ⟨nu, isFin_ne_nan fm, not_le.1 (fun c => not_le.2 h (this.1 c))⟩
  have l1 : lit 1 < u ↔ 1 < (u.val : ℝ) := by
    rw [lt_iff, ← o, Rat.cast_lt]
    have := key_le_iff (a := u) (b := lit 1)
    constructor
    · exact fun h => not_le.1 (fun c => not_le.2 h.2.2 (this.2 c))
    · exact fun h => ⟨by simp, nu, not_le.1 (fun c => not_le.2 h (this.1 c))⟩
  have l2 : ¬ (lit 1 : F32) < -(lit 1) := by decide +kernel
  unfold F.clamp F.min F.max
  by_cases h0 : u < -(lit 1)
  · rw [if_pos h0, if_neg l2]
    refine ⟨fm, ?_⟩
    rw [l0] at h0
    rw [z, max_eq_left (le_trans (min_le_right _ _) h0.le)]
  · rw [if_neg h0]
    rw [l0, not_lt] at h0
    by_cases h1 : lit 1 < u
    · rw [if_pos h1]
      rw [l1] at h1
      refine ⟨isFin_lit_one, ?_⟩
      rw [o, min_eq_left h1.le, max_eq_right (by norm_num)]
    · rw [if_neg h1]
      rw [l1, not_lt] at h1
      refine ⟨fu, ?_⟩
      rw [min_eq_right h1, max_eq_right h0]

theorem clamp_close {a b e : ℝ} (hb : |b| ≤ 1) (h : |a - b| ≤ e) : |max (-1) (min 1 a) - b| ≤ e ∧ |max (-1) (min 1 a)| ≤ 1 := by
  obtain ⟨b0, b1⟩ := _root_.abs_le.1 hb
  obtain ⟨h0, h1⟩ := _root_.abs_le.1 h
  rw [_root_.abs_le, _root_.abs_le]
  rcases le_total 1 a with c | c
  · rw [min_eq_left c, max_eq_right (by norm_num)]
    refine ⟨⟨by linarith, by linarith⟩, by norm_num, le_rfl⟩
  · rw [min_eq_right c]
    rcases le_total a (-1) with d | d
    · rw [max_eq_left d]
      refine ⟨⟨by linarith, by linarith⟩, le_rfl, by norm_num⟩
    · rw [max_eq_right d]
      exact ⟨⟨h0, h1⟩, d, c⟩

variable [Libm F32]

/-- the computed direction of a point that is off by `e` -/
theorem atan2_close (ha : GoodAtan2) {x y : F32} {X Y R p ex ey e : ℝ} (hx : Near x X ex) (hy : Near y Y ey)
    (hX : R * Real.cos p = X) (hY : R * Real.sin p = Y) (R0 : 0 < R) (e0 : 0 ≤ e) (he : ex ^ 2 + ey ^ 2 ≤ e ^ 2) :
    (Libm.atan2f y x).IsFin = true ∧ chord (Libm.atan2f y x).val p ≤ 1 / 2 ^ 21 + 2 * e / R := by
  obtain ⟨θ, -, hc, hs, f, d⟩ := ha y x hy.1 hx.1
  refine ⟨f, (chord_triangle _ θ _).trans (add_le_add ((chord_le _ _).trans d) ?_)⟩
  refine chord_polar (Real.sqrt_nonneg _) R0 e0 ?_ (r := Real.sqrt ((x.val : ℝ) ^ 2 + (y.val : ℝ) ^ 2))
  rw [hc, hs, hX, hY]
  have a := pow_le_pow_left₀ (abs_nonneg _) hx.2 2
  have b := pow_le_pow_left₀ (abs_nonneg _) hy.2 2
  rw [sq_abs] at a b
  linarith

/-- the computed yaw -/
theorem yaw_close (hs : GoodAsin) {u : F32} {U S e : ℝ} (hu : Near u U e) (hS : |S| < 1) {d : ℝ} (hd : |U - S| ≤ d) :
    (F.asin (F.clamp u (-(lit 1)) (lit 1))).IsFin = true ∧
    chord (F.asin (F.clamp u (-(lit 1)) (lit 1))).val (Real.arcsin S) ≤ 1 / 2 ^ 22 + 3 * (e + d) / Real.sqrt (1 - S ^ 2) := by
  obtain ⟨fc, vc⟩ := val_clamp11 hu.1
  obtain ⟨c1, c2⟩ := clamp_close (a := (u.val : ℝ)) hS.le ((abs_sub_le _ U _).trans (add_le_add hu.2 hd))
  rw [← vc] at c1 c2
  obtain ⟨f, b⟩ := hs _ fc c2
  refine ⟨f, (chord_triangle _ (Real.arcsin (F.clamp u (-(lit 1)) (lit 1)).val) _).trans (add_le_add ((chord_le _ _).trans b) ?_)⟩
  exact chord_arcsin c2 hS c1

theorem pitch_guard {x y : F32} {X Y R p ex ey e : ℝ} (hx : Near x X ex) (hy : Near y Y ey)
    (hX : R * Real.cos p = X) (hY : R * Real.sin p = Y) (e0 : 0 ≤ e) (he : ex ^ 2 + ey ^ 2 ≤ e ^ 2) (hR : e < R) :
    ¬ ((x == lit 0 && y == lit 0) = true) := by
  intro h
  rw [Bool.and_eq_true, beq_iff, beq_iff] at h
  have v : ∀ {x : F32}, x.key = (lit 0 : F32).key → (x.val : ℝ) = 0 := by
    intro x hk
    have : x.val = 0 := by
      unfold val
      rw [hk, key_lit_zero]
      simp
    rw [this]; norm_num
  have a := pow_le_pow_left₀ (abs_nonneg _) hx.2 2
  have b := pow_le_pow_left₀ (abs_nonneg _) hy.2 2
  rw [sq_abs, v h.1.2.2] at a
  rw [sq_abs, v h.2.2.2] at b
  have : X ^ 2 + Y ^ 2 = R ^ 2 := by
    rw [← hX, ← hY]
    linear_combination R ^ 2 * Real.sin_sq_add_cos_sq p
  nlinarith

theorem euler_roundtrip_close (ht : GoodTrig) (hs : GoodAsin) (ha : GoodAtan2) {q : Quat F32} (hf : q.Finite)
    (hn : |‖exactQ q‖ - 1| ≤ 1 / 2 ^ 20) (hc : 1 / 2 ^ 12 ≤ cosYaw (exactQ q)) :
    (Quat.eulerAngles q).Finite ∧ ∃ s : ℝ, (s = 1 ∨ s = -1) ∧
      ‖exactQ (Quat.ofEuler (Quat.eulerAngles q)) - s • exactQ q‖ ≤ 1 / 2 ^ 16 / cosYaw (exactQ q) := by
  obtain ⟨n0, n1⟩ := _root_.abs_le.1 hn
  set Q := exactQ q with hQ
  have np : 0 < ‖Q‖ := by norm_num at n0; linarith
  have n2 : |‖Q‖ ^ 2 - 1| ≤ 2.01 / 2 ^ 20 := by
    have : ‖Q‖ ^ 2 - 1 = (‖Q‖ - 1) * (‖Q‖ + 1) := by ring
    rw [this, abs_mul, abs_of_pos (a := ‖Q‖ + 1) (by linarith)]
    calc |‖Q‖ - 1| * (‖Q‖ + 1) ≤ 1 / 2 ^ 20 * 2.01 := by
          gcongr
          norm_num at n1
          norm_num
          linarith
      _ = _ := by norm_num
  obtain ⟨m0, m1⟩ := _root_.abs_le.1 n2
  obtain ⟨px, py, rx, ry, sy⟩ := euler_parts_close hf (by rw [← hQ]; norm_num at m1 ⊢; linarith)
  rw [← hQ] at px py rx ry sy
  have cp : 0 < cosYaw Q := lt_of_lt_of_le (by norm_num) hc
  have c1 : cosYaw Q ≤ 1 := Real.sqrt_le_one.2 (by linarith [sq_nonneg (sinYaw Q)])
  obtain ⟨p, r, s, hs1, ep1, ep2, er1, er2, eT⟩ := euler_exact (norm_pos_iff.1 np) cp
  have S1 : |sinYaw Q| < 1 := by
    have := Real.sqrt_pos.1 (show 0 < Real.sqrt (1 - sinYaw Q ^ 2) from cp)
    rw [← sq_lt_one_iff_abs_lt_one]
    linarith
  have dS : |2 * (Q.re * Q.imJ - Q.imI * Q.imK) - sinYaw Q| ≤ 2.01 / 2 ^ 20 := by
    have : 2 * (Q.re * Q.imJ - Q.imI * Q.imK) = ‖Q‖ ^ 2 * sinYaw Q := by
      rw [sinYaw_eq]
      field_simp
    rw [this, show ‖Q‖ ^ 2 * sinYaw Q - sinYaw Q = (‖Q‖ ^ 2 - 1) * sinYaw Q by ring, abs_mul]
    exact (mul_le_mul n2 S1.le (abs_nonneg _) (by norm_num)).trans (by norm_num)
  have Rp : 0 < ‖Q‖ ^ 2 * cosYaw Q := by positivity
  have Rl : 0.999 * cosYaw Q ≤ ‖Q‖ ^ 2 * cosYaw Q := by
    gcongr
    norm_num at m0
    norm_num
    linarith
  have he : (10.3 / 2 ^ 24 : ℝ) ^ 2 + (4.1 / 2 ^ 24) ^ 2 ≤ (11.1 / 2 ^ 24) ^ 2 := by norm_num
  have g := pitch_guard px py ep1 ep2 (by norm_num) he (by norm_num at hc ⊢; linarith)
  obtain ⟨fp, kp⟩ := atan2_close ha px py ep1 ep2 Rp (by norm_num) he
  obtain ⟨fr, kr⟩ := atan2_close ha rx ry er1 er2 Rp (by norm_num) he
  obtain ⟨fy, ky⟩ := yaw_close hs sy S1 dS
  change _ ≤ _ + _ / cosYaw Q at ky
  have pe : Quat.pitch q = Libm.atan2f (lit 2 * (q.y * q.z + q.w * q.x)) (q.w * q.w - q.x * q.x - q.y * q.y + q.z * q.z) := by
    unfold Quat.pitch
    simp only
    rw [if_neg g]
    rfl
  rw [← pe] at fp kp
  change (Quat.roll q).IsFin = true at fr
  change (Quat.yaw q).IsFin = true at fy
  change chord (Quat.roll q).val _ ≤ _ at kr
  change chord (Quat.yaw q).val _ ≤ _ at ky
  have fe : (Quat.eulerAngles q).Finite := fun i => by fin_cases i <;> assumption
  refine ⟨fe, ?_⟩
  obtain ⟨-, ec⟩ := euler_close ht fe
  change ‖_ - turnQ (Quat.roll q).val _ * turnQ (Quat.yaw q).val _ * turnQ (Quat.pitch q).val _‖ ≤ _ at ec
  obtain ⟨t, ht1, et⟩ := euler_chords p (Real.arcsin (sinYaw Q)) r (Quat.pitch q).val (Quat.yaw q).val (Quat.roll q).val
  generalize turnQ (Quat.roll q).val ![0, 0, 1] * turnQ (Quat.yaw q).val ![0, 1, 0] * turnQ (Quat.pitch q).val ![1, 0, 0] = T' at *
  generalize turnQ r ![0, 0, 1] * turnQ (Real.arcsin (sinYaw Q)) ![0, 1, 0] * turnQ p ![1, 0, 0] = T at *
  refine ⟨t * s, smul_sign_mul ht1 hs1, ?_⟩
  have scale : ‖t • T - (t * s) • Q‖ ≤ 1 / 2 ^ 20 := by
    rw [mul_smul, ← eT, ← smul_sub, norm_sign_smul ht1]
    have nT : ‖T‖ = 1 := by
      have := congrArg norm eT
      rw [norm_smul, norm_norm, norm_sign_smul hs1] at this
      exact mul_left_cancel₀ np.ne' (by rw [this, mul_one])
    have : T - ‖Q‖ • T = (1 - ‖Q‖) • T := by rw [sub_smul, one_smul]
    rw [this, norm_smul, nT, mul_one, Real.norm_eq_abs, abs_sub_comm]
    exact hn
  have tri := (norm_sub_le_norm_sub_add_norm_sub (exactQ (Quat.ofEuler (Quat.eulerAngles q))) T' ((t * s) • Q)).trans
    (add_le_add ec ((norm_sub_le_norm_sub_add_norm_sub T' (t • T) ((t * s) • Q)).trans (add_le_add et scale)))
  refine tri.trans ?_
  have big : ∀ {k : ℝ}, 0 ≤ k → k / (‖Q‖ ^ 2 * cosYaw Q) ≤ 1.002 * (k / cosYaw Q) := by
    intro k k0
    rw [div_le_iff₀ Rp, show 1.002 * (k / cosYaw Q) * (‖Q‖ ^ 2 * cosYaw Q) = 1.002 * k * ‖Q‖ ^ 2 by field_simp]
    have : (0.999 : ℝ) ≤ ‖Q‖ ^ 2 := by norm_num at m0; norm_num; linarith
    nlinarith
  have kp' := kp.trans (add_le_add_right (big (by norm_num)) _)
  have kr' := kr.trans (add_le_add_right (big (by norm_num)) _)
  have one : 1 ≤ 1 / cosYaw Q := by rw [le_div_iff₀ cp, one_mul]; exact c1
  have dv : ∀ k : ℝ, k / cosYaw Q = k * (1 / cosYaw Q) := fun k => by ring
  rw [dv] at kp' kr' ky ⊢
  clear kp kr big tri scale et ec
  generalize 1 / cosYaw Q = η at *
  generalize chord (Quat.pitch q).val p = a at *
  generalize chord (Quat.yaw q).val (Real.arcsin (sinYaw Q)) = b at *
  generalize chord (Quat.roll q).val r = c at *
  norm_num at kp' kr' ky ⊢
  linarith

omit [Libm F32] in
theorem cs4 {a0 a1 a2 a3 b0 b1 b2 b3 A B : ℝ} (hA : 0 ≤ A) (hB : 0 ≤ B) (ha : a0 ^ 2 + a1 ^ 2 + a2 ^ 2 + a3 ^ 2 ≤ A ^ 2)
    (hb : b0 ^ 2 + b1 ^ 2 + b2 ^ 2 + b3 ^ 2 ≤ B ^ 2) : |a0 * b0 + a1 * b1 + a2 * b2 + a3 * b3| ≤ A * B := by
  refine abs_le_of_sq_le_sq ?_ (by positivity)
  have h : (a0 * b0 + a1 * b1 + a2 * b2 + a3 * b3) ^ 2 ≤
      (a0 ^ 2 + a1 ^ 2 + a2 ^ 2 + a3 ^ 2) * (b0 ^ 2 + b1 ^ 2 + b2 ^ 2 + b3 ^ 2) := by
    nlinarith [sq_nonneg (a0 * b1 - a1 * b0), sq_nonneg (a0 * b2 - a2 * b0), sq_nonneg (a0 * b3 - a3 * b0),
      sq_nonneg (a1 * b2 - a2 * b1), sq_nonneg (a1 * b3 - a3 * b1), sq_nonneg (a2 * b3 - a3 * b2)]
  refine h.trans ?_
  rw [mul_pow]
  exact mul_le_mul ha hb (by positivity) (by positivity)

omit [Libm F32] in
/-- the five numbers, for two quaternions that are close -/
theorem euler_parts_lipschitz (P Q : ℍ[ℝ]) :
    |(P.re * P.re - P.imI * P.imI - P.imJ * P.imJ + P.imK * P.imK) -
      (Q.re * Q.re - Q.imI * Q.imI - Q.imJ * Q.imJ + Q.imK * Q.imK)| ≤ ‖P - Q‖ * ‖P + Q‖ ∧
    |2 * (P.imJ * P.imK + P.re * P.imI) - 2 * (Q.imJ * Q.imK + Q.re * Q.imI)| ≤ ‖P - Q‖ * ‖P + Q‖ ∧
    |(P.re * P.re + P.imI * P.imI - P.imJ * P.imJ - P.imK * P.imK) -
      (Q.re * Q.re + Q.imI * Q.imI - Q.imJ * Q.imJ - Q.imK * Q.imK)| ≤ ‖P - Q‖ * ‖P + Q‖ ∧
    |2 * (P.imI * P.imJ + P.re * P.imK) - 2 * (Q.imI * Q.imJ + Q.re * Q.imK)| ≤ ‖P - Q‖ * ‖P + Q‖ ∧
    |2 * (P.re * P.imJ - P.imI * P.imK) - 2 * (Q.re * Q.imJ - Q.imI * Q.imK)| ≤ ‖P - Q‖ * ‖P + Q‖ := by
  have d := (norm_sq_quat (P - Q)).ge
  have a := (norm_sq_quat (P + Q)).ge
  rw [re_sub, imI_sub, imJ_sub, imK_sub] at d
  rw [re_add, imI_add, imJ_add, imK_add] at a
  have n0 := norm_nonneg (P - Q)
  have n1 := norm_nonneg (P + Q)
  refine ⟨?_, ?_, ?_, ?_, ?_⟩
  · refine le_trans (le_of_eq ?_) (cs4 n0 n1 (a0 := P.re - Q.re) (a1 := -(P.imI - Q.imI)) (a2 := -(P.imJ - Q.imJ)) (a3 := P.imK - Q.imK)
      (le_trans (le_of_eq (by ring)) d) a)
    congr 1; ring
  · refine le_trans (le_of_eq ?_) (cs4 n0 n1 (a0 := P.imI - Q.imI) (a1 := P.re - Q.re) (a2 := P.imK - Q.imK) (a3 := P.imJ - Q.imJ)
      (le_trans (le_of_eq (by ring)) d) a)
    congr 1; ring
  · refine le_trans (le_of_eq ?_) (cs4 n0 n1 (a0 := P.re - Q.re) (a1 := P.imI - Q.imI) (a2 := -(P.imJ - Q.imJ)) (a3 := -(P.imK - Q.imK))
      (le_trans (le_of_eq (by ring)) d) a)
    congr 1; ring
  · refine le_trans (le_of_eq ?_) (cs4 n0 n1 (a0 := P.imK - Q.imK) (a1 := P.imJ - Q.imJ) (a2 := P.imI - Q.imI) (a3 := P.re - Q.re)
      (le_trans (le_of_eq (by ring)) d) a)
    congr 1; ring
  · refine le_trans (le_of_eq ?_) (cs4 n0 n1 (a0 := P.imJ - Q.imJ) (a1 := -(P.imK - Q.imK)) (a2 := P.re - Q.re) (a3 := -(P.imI - Q.imI))
      (le_trans (le_of_eq (by ring)) d) a)
    congr 1; ring

omit [Libm F32] in
/-- the five numbers of the product of three turns -/
theorem euler_parts_turn (p y r : ℝ) :
    let Q := turnQ r ![0, 0, 1] * turnQ y ![0, 1, 0] * turnQ p ![1, 0, 0]
    Real.cos y * Real.cos p = Q.re * Q.re - Q.imI * Q.imI - Q.imJ * Q.imJ + Q.imK * Q.imK ∧
    Real.cos y * Real.sin p = 2 * (Q.imJ * Q.imK + Q.re * Q.imI) ∧
    Real.cos y * Real.cos r = Q.re * Q.re + Q.imI * Q.imI - Q.imJ * Q.imJ - Q.imK * Q.imK ∧
    Real.cos y * Real.sin r = 2 * (Q.imI * Q.imJ + Q.re * Q.imK) ∧
    Real.sin y = 2 * (Q.re * Q.imJ - Q.imI * Q.imK) := by
  intro Q
  obtain ⟨h1, h2, h3, h4, h5⟩ := euler_parts p y r
  have T : Q = ham (Quat.ofEuler ⟨p, y, r⟩) := by
    show turnQ r _ * turnQ y _ * turnQ p _ = _
    rw [turnQ_euler, Quat.ofEuler_eq]
    rfl
  rw [T]
  refine ⟨h2.symm, h1.symm, h5.symm, h4.symm, h3.symm.trans ?_⟩
  simp only [ham]
  ring

/-- the angles read off a float quaternion that is close to a product of three turns -/
theorem angles_close (hs : GoodAsin) (ha : GoodAtan2) {q : Quat F32} (hf : q.Finite) {p y r : ℝ}
    (hq : ‖exactQ q - turnQ r ![0, 0, 1] * turnQ y ![0, 1, 0] * turnQ p ![1, 0, 0]‖ ≤ 1 / 2 ^ 18)
    (hy : |y| ≤ Real.pi / 2) (hc : 1 / 2 ^ 10 ≤ Real.cos y) :
    (Quat.eulerAngles q).Finite ∧ chord (Quat.pitch q).val p ≤ 1 / 2 ^ 15 / Real.cos y ∧
      chord (Quat.yaw q).val y ≤ 1 / 2 ^ 15 / Real.cos y ∧ chord (Quat.roll q).val r ≤ 1 / 2 ^ 15 / Real.cos y := by
  obtain ⟨e1, e2, e3, e4, e5⟩ := euler_parts_turn p y r
  have nT : ‖turnQ r ![0, 0, 1] * turnQ y ![0, 1, 0] * turnQ p ![1, 0, 0]‖ = 1 := by
    rw [norm_mul, norm_mul, turnQ_norm (by simp [Fin.sum_univ_three]), turnQ_norm (by simp [Fin.sum_univ_three]),
      turnQ_norm (by simp [Fin.sum_univ_three])]
    norm_num
  generalize turnQ r ![0, 0, 1] * turnQ y ![0, 1, 0] * turnQ p ![1, 0, 0] = T at *
  have nq : ‖exactQ q‖ ≤ 1 + 1 / 2 ^ 18 := by
    have := norm_sub_norm_le (exactQ q) T
    linarith
  have n2 : ‖exactQ q‖ ^ 2 ≤ 1 + 1 / 2 ^ 16 :=
    (pow_le_pow_left₀ (norm_nonneg _) nq 2).trans (by norm_num)
  obtain ⟨px, py, rx, ry, sy⟩ := euler_parts_close hf n2
  obtain ⟨l1, l2, l3, l4, l5⟩ := euler_parts_lipschitz (exactQ q) T
  have nl : ‖exactQ q - T‖ * ‖exactQ q + T‖ ≤ 2.01 / 2 ^ 18 := by
    have : ‖exactQ q + T‖ ≤ 2.01 := by
      refine (norm_add_le _ _).trans ?_
      rw [nT]
      norm_num at nq ⊢
      linarith
    exact (mul_le_mul hq this (norm_nonneg _) (by norm_num)).trans (by norm_num)
  have cp : 0 < Real.cos y := lt_of_lt_of_le (by norm_num) hc
  have c1 := Real.cos_le_one y
  have mv : ∀ {x : F32} {X X' : ℝ} {e : ℝ}, Near x X e → |X - X'| ≤ ‖exactQ q - T‖ * ‖exactQ q + T‖ →
      Near x X' (e + 2.01 / 2 ^ 18) := fun h g =>
    ⟨h.1, (abs_sub_le _ _ _).trans (add_le_add h.2 (g.trans nl))⟩
  have px' := mv px l1
  have py' := mv py l2
  have rx' := mv rx l3
  have ry' := mv ry l4
  have he : (10.3 / 2 ^ 24 + 2.01 / 2 ^ 18 : ℝ) ^ 2 + (4.1 / 2 ^ 24 + 2.01 / 2 ^ 18) ^ 2 ≤ (193 / 2 ^ 24) ^ 2 := by norm_num
  have g := pitch_guard px' py' e1 e2 (by norm_num) he (by norm_num at hc ⊢; linarith)
  obtain ⟨fp, kp⟩ := atan2_close ha px' py' e1 e2 cp (by norm_num) he
  obtain ⟨fr, kr⟩ := atan2_close ha rx' ry' e3 e4 cp (by norm_num) he
  have S1 : |Real.sin y| < 1 := by
    rw [← sq_lt_one_iff_abs_lt_one]
    nlinarith [Real.sin_sq_add_cos_sq y]
  rw [← e5] at l5
  obtain ⟨fy, ky⟩ := yaw_close hs sy S1 (l5.trans nl)
  obtain ⟨y0, y1⟩ := _root_.abs_le.1 hy
  rw [Real.arcsin_sin y0 y1, ← Real.cos_eq_sqrt_one_sub_sin_sq y0 y1] at ky
  have pe : Quat.pitch q = Libm.atan2f (lit 2 * (q.y * q.z + q.w * q.x)) (q.w * q.w - q.x * q.x - q.y * q.y + q.z * q.z) := by
    unfold Quat.pitch
    simp only
    rw [if_neg g]
    rfl
  rw [← pe] at fp kp
  change (Quat.roll q).IsFin = true at fr
  change (Quat.yaw q).IsFin = true at fy
  change chord (Quat.roll q).val _ ≤ _ at kr
  change chord (Quat.yaw q).val _ ≤ _ at ky
  have one : 1 ≤ 1 / Real.cos y := by rw [le_div_iff₀ cp, one_mul]; exact c1
  have dv : ∀ k : ℝ, k / Real.cos y = k * (1 / Real.cos y) := fun k => by ring
  rw [dv] at kp kr ky
  rw [dv]
  refine ⟨fun i => by fin_cases i <;> assumption, kp.trans ?_, ky.trans ?_, kr.trans ?_⟩ <;>
    generalize 1 / Real.cos y = η at one ⊢ <;> norm_num <;> linarith

end Zcm
