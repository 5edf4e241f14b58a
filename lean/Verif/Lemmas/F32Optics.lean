import Verif.Lemmas.F32Length
import Verif.Lemmas.F32Rel
import Verif.Spec.Accuracy
import Verif.Spec.Clip
import Verif.Spec.Optics

/-!
# Lemmas: vectors of any dimension up to 4 in float arithmetic
-/

set_option exponentiation.threshold 300

namespace Zcm

open F32 WithLp
open scoped RealInnerProductSpace

/-! ### Absolute errors -/

theorem mul_abs_err {x y : F32} {r s E F B : ℝ} (fx : x.IsFin = true) (fy : y.IsFin = true) (hx : |(x.val : ℝ) - r| ≤ E)
    (hy : |(y.val : ℝ) - s| ≤ F) (hb : (|r| + E) * (|s| + F) ≤ B) (hB : B ≤ 2 ^ 127) :
    (x * y).IsFin = true ∧ |((x * y).val : ℝ) - r * s| ≤ |r| * F + |s| * E + E * F + B / 2 ^ 24 + 1 / 2 ^ 150 := by
  have e0 : 0 ≤ E := (abs_nonneg _).trans hx
  have f0 : 0 ≤ F := (abs_nonneg _).trans hy
  have ax : |(x.val : ℝ)| ≤ |r| + E := by
    have := abs_sub_abs_le_abs_sub (x.val : ℝ) r
    linarith
  have ay : |(y.val : ℝ)| ≤ |s| + F := by
    have := abs_sub_abs_le_abs_sub (y.val : ℝ) s
    linarith
  have p : |(x.val : ℝ) * y.val| ≤ B := by
    rw [abs_mul]
    exact (mul_le_mul ax ay (abs_nonneg _) (by positivity)).trans hb
  have f : (x * y).IsFin = true := by
    rw [mul_fin fx fy]
    apply isFin_round
    have : ((|x.val * y.val| : ℚ) : ℝ) ≤ (((2 ^ 24 - 1) * 2 ^ 104 : ℚ) : ℝ) := by
      push_cast
      exact (p.trans hB).trans (by norm_num)
    exact_mod_cast this
  refine ⟨f, ?_⟩
  have e := round_error_real (s := x.sgn ^^ y.sgn) (q := x.val * y.val) (by rw [← mul_fin fx fy]; exact f)
  rw [← mul_fin fx fy] at e
  push_cast at e
  have d : |(x.val : ℝ) * y.val - r * s| ≤ |r| * F + |s| * E + E * F := by
    have : (x.val : ℝ) * y.val - r * s = r * (y.val - s) + s * (x.val - r) + (x.val - r) * (y.val - s) := by ring
    rw [this]
    refine (abs_add_le _ _).trans (add_le_add ((abs_add_le _ _).trans (add_le_add ?_ ?_)) ?_)
    · rw [abs_mul]; gcongr
    · rw [abs_mul]; gcongr
    · rw [abs_mul]; gcongr
  have := abs_sub_le ((x * y).val : ℝ) (x.val * y.val) (r * s)
  have : |(x.val : ℝ) * y.val| / 2 ^ 24 ≤ B / 2 ^ 24 := by gcongr
  linarith

theorem add_abs_err {x y : F32} {r s E F B : ℝ} (fx : x.IsFin = true) (fy : y.IsFin = true) (hx : |(x.val : ℝ) - r| ≤ E)
    (hy : |(y.val : ℝ) - s| ≤ F) (hb : |r| + |s| + (E + F) ≤ B) (hB : B ≤ 2 ^ 127) :
    (x + y).IsFin = true ∧ |((x + y).val : ℝ) - (r + s)| ≤ E + F + B / 2 ^ 24 := by
  obtain ⟨f, e⟩ := add_close fx fy hx hy (hb.trans hB)
  refine ⟨f, e.trans ?_⟩
  gcongr

theorem sub_abs_err {x y : F32} {r s E F B : ℝ} (fx : x.IsFin = true) (fy : y.IsFin = true) (hx : |(x.val : ℝ) - r| ≤ E)
    (hy : |(y.val : ℝ) - s| ≤ F) (hb : |r| + |s| + (E + F) ≤ B) (hB : B ≤ 2 ^ 127) :
    (x - y).IsFin = true ∧ |((x - y).val : ℝ) - (r - s)| ≤ E + F + B / 2 ^ 24 := by
  have hy' : |((-y).val : ℝ) - -s| ≤ F := by
    rw [val_neg]; push_cast; rw [neg_sub_neg, abs_sub_comm]; exact hy
  rw [F32.sub_eq, sub_eq_add_neg r]
  exact add_abs_err fx (by rw [isFin_neg]; exact fy) hx hy' (by rw [abs_neg]; exact hb) hB

/-! ### Euclidean vectors -/

theorem exactE_apply {n : ℕ} (v : Fin n → F32) (i : Fin n) : exactE v i = ((v i).val : ℝ) := rfl

theorem abs_applyE_le {n : ℕ} (x : EuclideanSpace ℝ (Fin n)) (i : Fin n) : |x i| ≤ ‖x‖ := by
  rw [← Real.norm_eq_abs]; exact PiLp.norm_apply_le x i

theorem norm_exactE {n : ℕ} (v : Fin n → F32) : ‖exactE v‖ = exactLength v := by
  rw [EuclideanSpace.norm_eq]
  unfold exactLength
  congr 1
  refine Finset.sum_congr rfl fun i _ => ?_
  rw [Real.norm_eq_abs, sq_abs, exactE_apply]

theorem norm_absE {n : ℕ} (x : EuclideanSpace ℝ (Fin n)) : ‖(toLp 2 fun i => |x i| : EuclideanSpace ℝ (Fin n))‖ = ‖x‖ := by
  rw [EuclideanSpace.norm_eq, EuclideanSpace.norm_eq]
  congr 1
  refine Finset.sum_congr rfl fun i _ => ?_
  show ‖|x i|‖ ^ 2 = _
  rw [Real.norm_eq_abs, abs_abs, Real.norm_eq_abs]

theorem sum_abs_le_norms {n : ℕ} (a b : EuclideanSpace ℝ (Fin n)) : ∑ i, |a i * b i| ≤ ‖a‖ * ‖b‖ := by
  have h := real_inner_le_norm (toLp 2 fun i => |a i| : EuclideanSpace ℝ (Fin n)) (toLp 2 fun i => |b i|)
  rw [norm_absE, norm_absE, PiLp.inner_apply] at h
  refine le_trans (le_of_eq (Finset.sum_congr rfl fun i _ => ?_)) h
  show _ = inner ℝ |a i| |b i|
  rw [RCLike.inner_apply, conj_trivial, abs_mul, mul_comm]

/-- componentwise bounds, by multiples of two vectors, give a bound of the norm -/
theorem normE_le {n : ℕ} (hn : n ≤ 4) {x y z : EuclideanSpace ℝ (Fin n)} {c d t : ℝ} (hc : 0 ≤ c) (hd : 0 ≤ d) (ht : 0 ≤ t)
    (h : ∀ i, |x i| ≤ c * |y i| + d * |z i| + t) : ‖x‖ ≤ c * ‖y‖ + d * ‖z‖ + 2 * t := by
  have e : ‖x‖ ≤ ‖(c • toLp 2 fun i => |y i| : EuclideanSpace ℝ (Fin n)) + (d • toLp 2 fun i => |z i|) + toLp 2 fun _ => t‖ := by
    rw [EuclideanSpace.norm_eq, EuclideanSpace.norm_eq]
    refine Real.sqrt_le_sqrt (Finset.sum_le_sum fun i _ => ?_)
    rw [Real.norm_eq_abs, Real.norm_eq_abs]
    refine pow_le_pow_left₀ (abs_nonneg _) ((h i).trans (le_of_eq ?_)) 2
    exact (abs_of_nonneg (show 0 ≤ c * |y i| + d * |z i| + t by positivity)).symm
  refine e.trans ((norm_add_le _ _).trans (add_le_add ((norm_add_le _ _).trans (add_le_add (le_of_eq ?_) (le_of_eq ?_))) ?_))
  · rw [norm_smul, norm_absE, Real.norm_of_nonneg hc]
  · rw [norm_smul, norm_absE, Real.norm_of_nonneg hd]
  · rw [EuclideanSpace.norm_eq]
    show Real.sqrt (∑ _i : Fin n, ‖t‖ ^ 2) ≤ _
    rw [Finset.sum_const, Finset.card_univ, Fintype.card_fin, Real.sqrt_le_iff, Real.norm_eq_abs, sq_abs, nsmul_eq_mul]
    have : (n : ℝ) ≤ 4 := by exact_mod_cast hn
    exact ⟨by positivity, by nlinarith [sq_nonneg t]⟩

theorem innerE_eq {n : ℕ} (a b : Fin n → F32) : ⟪exactE a, exactE b⟫ = ∑ i, ((a i).val : ℝ) * (b i).val := by
  rw [PiLp.inner_apply]
  refine Finset.sum_congr rfl fun i _ => ?_
  rw [RCLike.inner_apply, conj_trivial, mul_comm]; rfl

/-- an accurate sum of products is near the inner product -/
theorem near_inner {n : ℕ} (hn : n ≤ 4) {d : F32} {a b : Fin n → F32} (h : AccurateSum d a b) (fa : ∀ i, (a i).IsFin = true)
    (fb : ∀ i, (b i).IsFin = true) (hs : ‖exactE a‖ * ‖exactE b‖ ≤ 2 ^ 120) :
    d.IsFin = true ∧ |(d.val : ℝ) - ⟪exactE a, exactE b⟫| ≤ 4.001 / 2 ^ 24 * (‖exactE a‖ * ‖exactE b‖) + 1 / 2 ^ 147 := by
  have cs := sum_abs_le_norms (exactE a) (exactE b)
  have f : d.IsFin = true := by
    refine h.1 (fun i => ⟨fa i, fb i⟩) ?_
    have : ((∑ i, |(a i).val * (b i).val| : ℚ) : ℝ) ≤ ((2 ^ 126 : ℚ) : ℝ) := by
      push_cast
      exact cs.trans (hs.trans (by norm_num))
    exact Rat.cast_le.1 this
  refine ⟨f, ?_⟩
  have q := (Rat.cast_le (K := ℝ)).2 (h.2 f)
  push_cast at q
  rw [innerE_eq]
  refine q.trans (add_le_add ?_ ?_)
  · have p : ((1 : ℝ) + 1 / 2 ^ 24) ^ n - 1 ≤ 4.001 / 2 ^ 24 := by
      have := pow_le_pow_right₀ (show (1 : ℝ) ≤ 1 + 1 / 2 ^ 24 by norm_num) hn
      have : (1 + 1 / 2 ^ 24 : ℝ) ^ 4 ≤ 1 + 4.001 / 2 ^ 24 := by norm_num
      linarith
    exact mul_le_mul p cs (Finset.sum_nonneg fun i _ => abs_nonneg _) (by norm_num)
  · have : (n : ℝ) ≤ 4 := by exact_mod_cast hn
    rw [div_le_div_iff₀ (by positivity) (by positivity)]
    linarith

theorem aboutUnit_bounds {n : ℕ} {v : Fin n → F32} (h : AboutUnit v) : ‖exactE v‖ ≤ 1 + 16 / 2 ^ 24 ∧ 1 - 16 / 2 ^ 24 ≤ ‖exactE v‖ := by
  have := abs_le.1 h.2
  constructor <;> linarith

/-! ### Reflection -/

/-- one component of `reflect` -/
theorem reflect_component {p x y : F32} {D Ep : ℝ} (fp : p.IsFin = true) (fx : x.IsFin = true) (fy : y.IsFin = true)
    (hp : |(p.val : ℝ) - D| ≤ Ep) (hb : (|D| + Ep) * |(y.val : ℝ)| ≤ 2 ^ 80) (hx : |(x.val : ℝ)| ≤ 2 ^ 80) :
    (x - p * y).IsFin = true ∧ |((x - p * y).val : ℝ) - (x.val - D * y.val)| ≤
      (Ep + 2.001 / 2 ^ 24 * (|D| + Ep)) * |(y.val : ℝ)| + 1 / 2 ^ 24 * |(x.val : ℝ)| + 1 / 2 ^ 149 := by
  have e0 : 0 ≤ Ep := (abs_nonneg _).trans hp
  obtain ⟨f1, e1⟩ := mul_abs_err (B := (|D| + Ep) * |(y.val : ℝ)|) fp fy hp (show |(y.val : ℝ) - y.val| ≤ 0 by simp)
    (by rw [add_zero]) (hb.trans (by norm_num))
  have yn := abs_nonneg (y.val : ℝ)
  have dn := abs_nonneg D
  have q1 := mul_nonneg e0 yn
  have q2 := mul_nonneg dn yn
  have le : |D| * 0 + |(y.val : ℝ)| * Ep + Ep * 0 + (|D| + Ep) * |(y.val : ℝ)| / 2 ^ 24 + 1 / 2 ^ 150 =
      Ep * |(y.val : ℝ)| + (|D| + Ep) * |(y.val : ℝ)| / 2 ^ 24 + 1 / 2 ^ 150 := by ring
  rw [le] at e1
  obtain ⟨f2, e2⟩ := sub_abs_err (B := |(x.val : ℝ)| + (1 + 1 / 2 ^ 24) * ((|D| + Ep) * |(y.val : ℝ)|) + 1 / 2 ^ 150) fx f1
    (show |(x.val : ℝ) - x.val| ≤ 0 by simp) e1 (by rw [abs_mul]; linarith) (by linarith)
  refine ⟨f2, e2.trans ?_⟩
  linarith

/-- the vector `reflect` computes, for a vector `N` of length about 1 -/
theorem reflect_near {n : ℕ} (hn : n ≤ 4) {d : F32} {I N r : Fin n → F32} (hd : AccurateSum d N I) (fI : ∀ i, (I i).IsFin = true)
    (hN : AboutUnit N) (hI : ‖exactE I‖ ≤ 2 ^ 60) (hr : ∀ i, r i = I i - lit 2 * d * N i) :
    NearE r (exactE I - (2 * ⟪exactE N, exactE I⟫) • exactE N) (16 / 2 ^ 24 * ‖exactE I‖ + 1 / 2 ^ 143) := by
  obtain ⟨u1, u2⟩ := aboutUnit_bounds hN
  have nI := norm_nonneg (exactE I)
  have nN := norm_nonneg (exactE N)
  have nm : ‖exactE N‖ * ‖exactE I‖ ≤ (1 + 16 / 2 ^ 24) * ‖exactE I‖ := by gcongr
  obtain ⟨fd, ed⟩ := near_inner hn hd hN.1 fI (by linarith)
  have aD := abs_real_inner_le_norm (exactE N) (exactE I)
  set D := ⟪exactE N, exactE I⟫ with hD
  have two : ((lit 2 : F32).val : ℝ) = 2 := by
    rw [show (lit 2 : F32).val = 2 by decide +kernel]; norm_num
  have ed' : |(d.val : ℝ) - D| ≤ 4.0011 / 2 ^ 24 * ‖exactE I‖ + 1 / 2 ^ 147 := by linarith
  obtain ⟨fp, ep⟩ := mul_abs_err (x := lit 2) (r := 2) (E := 0) (B := 2.0001 * ‖exactE I‖ + 1 / 2 ^ 145) (by decide +kernel) fd
    (by rw [two]; simp) ed' (by rw [abs_of_pos (by norm_num : (0 : ℝ) < 2)]; linarith) (by linarith)
  rw [abs_of_pos (by norm_num : (0 : ℝ) < 2)] at ep
  set Ep := 10.01 / 2 ^ 24 * ‖exactE I‖ + 1 / 2 ^ 145 with hEp
  have ep' : |((lit 2 * d).val : ℝ) - 2 * D| ≤ Ep := by
    refine ep.trans ?_
    rw [hEp]
    linarith
  have aP : |2 * D| + Ep ≤ 2.0001 * ‖exactE I‖ + 1 / 2 ^ 144 := by
    rw [abs_mul, abs_of_pos (by norm_num : (0 : ℝ) < 2), hEp]
    linarith
  have key : ∀ i, (r i).IsFin = true ∧ |((r i).val : ℝ) - ((I i).val - 2 * D * (N i).val)| ≤
      (14.02 / 2 ^ 24 * ‖exactE I‖ + 1.01 / 2 ^ 145) * |((N i).val : ℝ)| + 1 / 2 ^ 24 * |((I i).val : ℝ)| + 1 / 2 ^ 149 := by
    intro i
    rw [hr]
    have yi := (abs_applyE_le (exactE N) i).trans u1
    have xi := (abs_applyE_le (exactE I) i).trans hI
    rw [exactE_apply] at xi yi
    have yn := abs_nonneg ((N i).val : ℝ)
    have pn : 0 ≤ |2 * D| + Ep := add_nonneg (abs_nonneg _) ((abs_nonneg _).trans ep')
    obtain ⟨f, e⟩ := reflect_component fp (fI i) (hN.1 i) ep' (by
      have := mul_le_mul aP yi yn (by positivity)
      refine this.trans ?_
      nlinarith) (xi.trans (by norm_num))
    refine ⟨f, e.trans ?_⟩
    have : Ep + 2.001 / 2 ^ 24 * (|2 * D| + Ep) ≤ 14.02 / 2 ^ 24 * ‖exactE I‖ + 1.01 / 2 ^ 145 := by
      rw [hEp] at aP ⊢
      linarith
    have := mul_le_mul_of_nonneg_right this yn
    linarith
  refine ⟨fun i => (key i).1, ?_⟩
  have nb := normE_le hn (x := exactE r - (exactE I - (2 * D) • exactE N)) (y := exactE N) (z := exactE I)
    (c := 14.02 / 2 ^ 24 * ‖exactE I‖ + 1.01 / 2 ^ 145) (d := 1 / 2 ^ 24) (t := 1 / 2 ^ 149) (by positivity) (by norm_num)
    (by norm_num) fun i => (key i).2
  refine nb.trans ?_
  have := mul_le_mul_of_nonneg_left u1 (show 0 ≤ 14.02 / 2 ^ 24 * ‖exactE I‖ + 1.01 / 2 ^ 145 by positivity)
  linarith

/-- the exact reflection formula for a vector of length about 1 -/
theorem mirror_near {n : ℕ} {N I : EuclideanSpace ℝ (Fin n)} (h1 : ‖N‖ ≤ 1 + 16 / 2 ^ 24) (h2 : 1 - 16 / 2 ^ 24 ≤ ‖N‖) :
    ‖I - (2 * ⟪N, I⟫) • N - mirror N I‖ ≤ 65 / 2 ^ 24 * ‖I‖ := by
  have p : 0 < ‖N‖ := by linarith
  have e : I - (2 * ⟪N, I⟫) • N - mirror N I = (2 * ⟪N, I⟫ * ((1 - ‖N‖ ^ 2) / ‖N‖ ^ 2)) • N := by
    unfold mirror
    rw [Submodule.reflection_orthogonal_apply, Submodule.reflection_singleton_apply]
    have : (2 * ⟪N, I⟫ * ((1 - ‖N‖ ^ 2) / ‖N‖ ^ 2)) = 2 * (⟪N, I⟫ / ‖N‖ ^ 2) - 2 * ⟪N, I⟫ := by field_simp
    rw [this]
    simp only [RCLike.ofReal_real_eq_id, id]
    module
  rw [e, norm_smul, Real.norm_eq_abs, abs_mul, abs_mul, abs_of_pos (by norm_num : (0 : ℝ) < 2), abs_div,
    abs_of_pos (pow_pos p 2)]
  have i := abs_real_inner_le_norm N I
  have a : |1 - ‖N‖ ^ 2| ≤ 32.001 / 2 ^ 24 := by
    rw [abs_le]; constructor <;> nlinarith
  have : 2 * |⟪N, I⟫| * (|1 - ‖N‖ ^ 2| / ‖N‖ ^ 2) * ‖N‖ ≤ 2 * (‖N‖ * ‖I‖) * (32.001 / 2 ^ 24 / ‖N‖ ^ 2) * ‖N‖ := by gcongr
  refine this.trans (le_of_eq_of_le (b := 2 * (32.001 / 2 ^ 24) * ‖I‖) (by field_simp) ?_)
  have := norm_nonneg I
  linarith

theorem norm_mirror {n : ℕ} (N I : EuclideanSpace ℝ (Fin n)) : ‖mirror N I‖ = ‖I‖ := LinearIsometryEquiv.norm_map _ _

/-! ### Refraction -/

theorem snell_facts {n : ℕ} {I N T : EuclideanSpace ℝ (Fin n)} {η : ℝ} (hI : ‖I‖ = 1) (hN : ‖N‖ = 1) (h : Snell I N η T) :
    0 ≤ -⟪T, N⟫ ∧ -⟪T, N⟫ ≤ 1 ∧ (-⟪T, N⟫) ^ 2 = 1 - η ^ 2 * (1 - ⟪N, I⟫ ^ 2) ∧ T = η • I - (η * ⟪N, I⟫ + -⟪T, N⟫) • N := by
  obtain ⟨h1, h2, h3⟩ := h
  have b := abs_real_inner_le_norm T N
  rw [h1, hN, mul_one] at b
  refine ⟨by linarith, by linarith [(abs_le.1 b).1], ?_, ?_⟩
  · have e := congrArg (fun v => ‖v‖ ^ 2) h3
    simp only [norm_sub_sq_real, norm_smul, inner_smul_right, h1, hI, hN, mul_pow, Real.norm_eq_abs, sq_abs] at e
    rw [real_inner_comm I N]
    linear_combination -e
  · rw [real_inner_comm I N]
    have : T = (T - ⟪T, N⟫ • N) + ⟪T, N⟫ • N := by module
    conv_lhs => rw [this, h3]
    module

/-- there is such a vector unless the reflection is total -/
theorem snell_exists {n : ℕ} {I N : EuclideanSpace ℝ (Fin n)} {η : ℝ} (hI : ‖I‖ = 1) (hN : ‖N‖ = 1)
    (h : η ^ 2 * (1 - ⟪N, I⟫ ^ 2) ≤ 1) :
    Snell I N η (η • I - (η * ⟪N, I⟫ + Real.sqrt (1 - η ^ 2 * (1 - ⟪N, I⟫ ^ 2))) • N) := by
  have q := Real.sq_sqrt (show 0 ≤ 1 - η ^ 2 * (1 - ⟪N, I⟫ ^ 2) by linarith)
  have s0 := Real.sqrt_nonneg (1 - η ^ 2 * (1 - ⟪N, I⟫ ^ 2))
  generalize Real.sqrt (1 - η ^ 2 * (1 - ⟪N, I⟫ ^ 2)) = s at q s0 ⊢
  have nn : ⟪N, N⟫ = 1 := by rw [real_inner_self_eq_norm_sq, hN]; norm_num
  have i : ⟪η • I - (η * ⟪N, I⟫ + s) • N, N⟫ = -s := by
    rw [inner_sub_left, real_inner_smul_left, real_inner_smul_left, nn, real_inner_comm I N]
    ring
  refine ⟨?_, by rw [i]; linarith, ?_⟩
  · have : ‖η • I - (η * ⟪N, I⟫ + s) • N‖ ^ 2 = 1 := by
      rw [norm_sub_sq_real, norm_smul, norm_smul, real_inner_smul_left, real_inner_smul_right, hI, hN, mul_one, mul_one,
        Real.norm_eq_abs, Real.norm_eq_abs, sq_abs, sq_abs, real_inner_comm I N]
      rw [real_inner_comm I N] at q
      linear_combination q
    exact (sq_eq_sq₀ (norm_nonneg _) zero_le_one).1 (by rw [this]; norm_num)
  · rw [i, real_inner_comm I N]
    module

end Zcm
