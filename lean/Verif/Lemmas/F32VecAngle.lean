import Mathlib.Geometry.Euclidean.Angle.Unoriented.Basic
import Mathlib.Analysis.SpecialFunctions.Trigonometric.Bounds
import Mathlib.Analysis.Real.Pi.Bounds
import Verif.Lemmas.F32Optics
import Verif.Spec.Angles
import Verif.Model.Trig

/-!
# Lemmas: angles, Cauchy-Schwarz and the triangle inequality for vectors of any dimension up to 4 in float arithmetic
-/

set_option exponentiation.threshold 300

namespace Zcm

open F32 WithLp InnerProductGeometry NormedSpace
open scoped RealInnerProductSpace

/-! ### Real angles -/

/-- Two angles in `[0, π]` with close cosines are close: the worst case, a square root. -/
theorem angle_sq_le {x y d : ℝ} (hx0 : 0 ≤ x) (hx : x ≤ Real.pi) (hy0 : 0 ≤ y) (hy : y ≤ Real.pi)
    (h : |Real.cos x - Real.cos y| ≤ d) : (x - y) ^ 2 ≤ 5 * d := by
  wlog hxy : y ≤ x generalizing x y
  · have := this hy0 hy hx0 hx (by rw [abs_sub_comm]; exact h) (le_of_not_ge hxy)
    nlinarith
  have pp := Real.pi_pos
  have d0 : 0 ≤ (x - y) / 2 := by linarith
  have d1 : (x - y) / 2 ≤ Real.pi / 2 := by linarith
  have s0 : 2 / Real.pi * ((x - y) / 2) ≤ Real.sin ((x - y) / 2) := Real.mul_le_sin d0 d1
  have s1 : Real.sin ((x - y) / 2) ≤ Real.sin ((x + y) / 2) := by
    rcases le_total ((x + y) / 2) (Real.pi / 2) with g | g
    · exact Real.sin_le_sin_of_le_of_le_pi_div_two (by linarith) g (by linarith)
    · rw [← Real.sin_pi_sub ((x + y) / 2)]
      exact Real.sin_le_sin_of_le_of_le_pi_div_two (by linarith) (by linarith) (by linarith)
  have c := Real.cos_sub_cos y x
  rw [show (y - x) / 2 = -((x - y) / 2) by ring, Real.sin_neg, add_comm y x] at c
  have h' := (abs_le.1 h).1
  have t0 : 0 ≤ 2 / Real.pi * ((x - y) / 2) := by positivity
  have q : (2 / Real.pi * ((x - y) / 2)) ^ 2 ≤ Real.sin ((x - y) / 2) * Real.sin ((x + y) / 2) := by
    rw [sq]; exact mul_le_mul s0 (s0.trans s1) t0 (t0.trans s0)
  have e : (2 / Real.pi * ((x - y) / 2)) ^ 2 = (x - y) ^ 2 / Real.pi ^ 2 := by field_simp
  rw [e, div_le_iff₀ (by positivity)] at q
  have p2 : Real.pi ^ 2 ≤ 10 := by nlinarith [Real.pi_lt_d2]
  have w0 : 0 ≤ Real.sin ((x - y) / 2) * Real.sin ((x + y) / 2) :=
    mul_nonneg (t0.trans s0) (t0.trans (s0.trans s1))
  nlinarith

/-- ... and away from 0 and π they are close in proportion. -/
theorem angle_abs_le {x y d : ℝ} (hx0 : 0 ≤ x) (hx : x ≤ Real.pi) (hy0 : 0 ≤ y) (hy : y ≤ Real.pi)
    (h : |Real.cos x - Real.cos y| ≤ d) (hd : d ≤ 17 / 2 ^ 24) (hs : 1 / 2 ^ 6 ≤ Real.sin y) :
    |x - y| ≤ 1.1 * d / Real.sin y := by
  have sq := angle_sq_le hx0 hx hy0 hy h
  have p0 : 0 < Real.sin y := lt_of_lt_of_le (by norm_num) hs
  have small : |x - y| ≤ 1 / 2 ^ 8 * (5 / 8) := by
    refine abs_le_of_sq_le_sq (sq.trans ?_) (by norm_num)
    norm_num at hd ⊢; linarith
  have c := Real.cos_sub_cos x y
  set e := (x - y) / 2 with he
  have ae : |e| ≤ 1 / 2 ^ 8 * (5 / 16) := by
    rw [he, abs_div, abs_of_pos (by norm_num : (0 : ℝ) < 2)]; norm_num at small ⊢; linarith
  have m : (x + y) / 2 = y + e := by rw [he]; ring
  rw [m, Real.sin_add] at c
  have ce : 0.999 ≤ Real.cos e := by
    have := Real.one_sub_sq_div_two_le_cos (x := e)
    have : e ^ 2 ≤ (1 / 2 ^ 8 * (5 / 16)) ^ 2 := by rw [← sq_abs]; gcongr
    norm_num at this ⊢; linarith
  have se : 0.999 * |e| ≤ |Real.sin e| := by
    rcases le_total 0 e with g | g
    · rw [abs_of_nonneg g] at ae ⊢
      have h1 := Real.sin_ge_sub_cube g
      have : e ^ 3 ≤ (1 / 2 ^ 8 * (5 / 16)) ^ 2 * e := by
        rw [pow_succ]; gcongr
      refine le_trans ?_ (le_abs_self _)
      norm_num at this ⊢; linarith
    · have g' : 0 ≤ -e := by linarith
      rw [abs_of_nonpos g] at ae ⊢
      have h1 := Real.sin_ge_sub_cube g'
      have : (-e) ^ 3 ≤ (1 / 2 ^ 8 * (5 / 16)) ^ 2 * (-e) := by
        rw [pow_succ]; gcongr
      rw [← abs_neg, ← Real.sin_neg]
      refine le_trans ?_ (le_abs_self _)
      generalize Real.sin (-e) = z at *
      norm_num at this ⊢; linarith
  have sle : |Real.sin e| ≤ 1 / 2 ^ 8 * (5 / 16) := (Real.abs_sin_le_abs).trans ae
  have big : 0.918 * Real.sin y ≤ |Real.sin y * Real.cos e + Real.cos y * Real.sin e| := by
    refine le_trans ?_ (le_abs_self _)
    have a1 : -(1 / 2 ^ 8 * (5 / 16)) ≤ Real.cos y * Real.sin e := by
      have : |Real.cos y * Real.sin e| ≤ 1 * (1 / 2 ^ 8 * (5 / 16)) := by
        rw [abs_mul]
        exact mul_le_mul (Real.abs_cos_le_one y) sle (abs_nonneg _) (by norm_num)
      have := (abs_le.1 this).1
      linarith
    have a2 : 0.999 * Real.sin y ≤ Real.sin y * Real.cos e := by nlinarith
    norm_num at *
    linarith
  have k : |Real.cos x - Real.cos y| =
      2 * (|Real.sin y * Real.cos e + Real.cos y * Real.sin e| * |Real.sin e|) := by
    rw [c, abs_mul, abs_mul, abs_neg, abs_of_pos (by norm_num : (0 : ℝ) < 2)]; ring
  rw [k] at h
  have l : 0.918 * Real.sin y * (0.999 * |e|) ≤
      |Real.sin y * Real.cos e + Real.cos y * Real.sin e| * |Real.sin e| :=
    mul_le_mul big se (by positivity) (abs_nonneg _)
  have xe : |x - y| = 2 * |e| := by
    rw [he, abs_div, abs_of_pos (by norm_num : (0 : ℝ) < 2)]; ring
  rw [le_div_iff₀ p0, xe]
  have z : 0 ≤ |e| * Real.sin y := by positivity
  nlinarith

/-! ### Normalised vectors -/

theorem F32.AlmostUnit.nearE {n : ℕ} (hn : n ≤ 4) {v m : Fin n → F32} (hm : Medium v) (a : AlmostUnit v m) :
    NearE m (NormedSpace.normalize (exactE v)) (6.001 / 2 ^ 24) := by
  have n0 : 0 < ‖exactE v‖ := by rw [norm_exactE]; exact hm.pos
  refine ⟨fun i => (a i).1, ?_⟩
  have ne : ∀ i, NormedSpace.normalize (exactE v) i = (v i).val / exactLength v := fun i => by
    unfold NormedSpace.normalize
    rw [PiLp.smul_apply, smul_eq_mul, exactE_apply, norm_exactE, inv_mul_eq_div]
  have := normE_le hn (x := exactE m - NormedSpace.normalize (exactE v)) (y := NormedSpace.normalize (exactE v))
    (z := NormedSpace.normalize (exactE v)) (c := 6 / 2 ^ 24) (d := 0) (t := 1 / 2 ^ 150) (by norm_num) le_rfl (by norm_num)
    (fun i => by
      have := (a i).2
      rw [PiLp.sub_apply, exactE_apply, ne, abs_div, abs_of_pos hm.pos]
      linarith)
  rw [norm_normalize (norm_pos_iff.1 n0)] at this
  refine this.trans (by norm_num)

theorem inner_normalize {n : ℕ} (A B : EuclideanSpace ℝ (Fin n)) :
    ⟪NormedSpace.normalize A, NormedSpace.normalize B⟫ = Real.cos (angle A B) := by
  rw [cos_angle]
  unfold NormedSpace.normalize
  rw [real_inner_smul_left, real_inner_smul_right]
  field_simp

theorem near_cos {n : ℕ} (hn : n ≤ 4) {a b ma mb : Fin n → F32} {d : F32} (ha : Medium a) (hb : Medium b)
    (ua : AlmostUnit a ma) (ub : AlmostUnit b mb) (hd : AccurateSum d ma mb) :
    Near d (Real.cos (angle (exactE a) (exactE b))) (17 / 2 ^ 24) := by
  obtain ⟨fa, ea⟩ := ua.nearE hn ha
  obtain ⟨fb, eb⟩ := ub.nearE hn hb
  have na : ‖NormedSpace.normalize (exactE a)‖ = 1 :=
    norm_normalize (norm_pos_iff.1 (by rw [norm_exactE]; exact ha.pos))
  have nb : ‖NormedSpace.normalize (exactE b)‖ = 1 :=
    norm_normalize (norm_pos_iff.1 (by rw [norm_exactE]; exact hb.pos))
  have la : ‖exactE ma‖ ≤ 1 + 6.001 / 2 ^ 24 := by
    have := norm_le_norm_add_norm_sub (NormedSpace.normalize (exactE a)) (exactE ma)
    rw [norm_sub_rev] at this; linarith
  have lb : ‖exactE mb‖ ≤ 1 + 6.001 / 2 ^ 24 := by
    have := norm_le_norm_add_norm_sub (NormedSpace.normalize (exactE b)) (exactE mb)
    rw [norm_sub_rev] at this; linarith
  have lab : ‖exactE ma‖ * ‖exactE mb‖ ≤ (1 + 6.001 / 2 ^ 24) * (1 + 6.001 / 2 ^ 24) :=
    mul_le_mul la lb (norm_nonneg _) (by norm_num)
  obtain ⟨f, e⟩ := near_inner hn hd fa fb (lab.trans (by norm_num))
  refine ⟨f, ?_⟩
  rw [← inner_normalize]
  set A := NormedSpace.normalize (exactE a)
  set B := NormedSpace.normalize (exactE b)
  have s : ⟪exactE ma, exactE mb⟫ - ⟪A, B⟫ = ⟪exactE ma - A, exactE mb⟫ + ⟪A, exactE mb - B⟫ := by
    rw [inner_sub_left, inner_sub_right]; ring
  have g : |⟪exactE ma, exactE mb⟫ - ⟪A, B⟫| ≤ 6.001 / 2 ^ 24 * (1 + 6.001 / 2 ^ 24) + 1 * (6.001 / 2 ^ 24) := by
    rw [s]
    refine (abs_add_le _ _).trans (add_le_add ?_ ?_)
    · exact (abs_real_inner_le_norm _ _).trans (mul_le_mul ea lb (norm_nonneg _) (by norm_num))
    · exact (abs_real_inner_le_norm _ _).trans (mul_le_mul na.le eb (norm_nonneg _) (by norm_num))
  have t := abs_sub_le (d.val : ℝ) ⟪exactE ma, exactE mb⟫ ⟪A, B⟫
  refine t.trans ((add_le_add e g).trans ?_)
  generalize ‖exactE ma‖ * ‖exactE mb‖ = P at lab
  norm_num at lab ⊢
  linarith

/-! ### Clamping to `[-1, 1]` and the arc cosine -/

theorem near_clamp {x : F32} {c e : ℝ} (h : Near x c e) (c1 : -1 ≤ c) (c2 : c ≤ 1) :
    Near (F.clamp x (lit (-1)) (lit 1)) c e ∧ |((F.clamp x (lit (-1)) (lit 1)).val : ℝ)| ≤ 1 := by
  obtain ⟨f, g⟩ := h
  have f1 : (lit 1 : F32).IsFin = true := by decide +kernel
  have fm : (lit (-1) : F32).IsFin = true := by decide +kernel
  have v1 : (lit 1 : F32).val = 1 := by decide +kernel
  have vm : (lit (-1) : F32).val = -1 := by decide +kernel
  have key : F.clamp x (lit (-1)) (lit 1) = if x.val < -1 then lit (-1) else if 1 < x.val then lit 1 else x := by
    unfold F.clamp F.min F.max
    have L : ∀ a b : F32, a.IsFin = true → b.IsFin = true → (a < b ↔ a.val < b.val) := fun a b ha hb =>
      ⟨fun h => key_lt_iff.1 h.2.2, fun h => ⟨isFin_ne_nan ha, isFin_ne_nan hb, key_lt_iff.2 h⟩⟩
    by_cases h1 : x.val < -1
    · rw [if_pos h1, if_pos ((L _ _ f fm).2 (by rw [vm]; exact h1)), if_neg (fun h => by
        have := (L _ _ f1 fm).1 h; rw [v1, vm] at this; norm_num at this)]
    · rw [if_neg h1, if_neg (c := x < lit (-1)) (fun h => h1 (by have := (L _ _ f fm).1 h; rwa [vm] at this))]
      by_cases h2 : 1 < x.val
      · rw [if_pos h2, if_pos ((L _ _ f1 f).2 (by rw [v1]; exact h2))]
      · rw [if_neg h2, if_neg (fun h => h2 (by have := (L _ _ f1 f).1 h; rwa [v1] at this))]
  rw [key]
  rw [abs_le] at g
  split_ifs with h1 h2
  · have : (x.val : ℝ) < -1 := by exact_mod_cast h1
    refine ⟨⟨fm, ?_⟩, by rw [vm]; norm_num⟩
    rw [vm, abs_le]; push_cast
    constructor <;> linarith
  · have : 1 < (x.val : ℝ) := by exact_mod_cast h2
    refine ⟨⟨f1, ?_⟩, by rw [v1]; norm_num⟩
    rw [v1, abs_le]; push_cast
    constructor <;> linarith
  · refine ⟨⟨f, abs_le.2 g⟩, ?_⟩
    have h1' : -1 ≤ (x.val : ℝ) := by exact_mod_cast (not_lt.1 h1)
    have h2' : (x.val : ℝ) ≤ 1 := by exact_mod_cast (not_lt.1 h2)
    exact abs_le.2 ⟨h1', h2'⟩

theorem near_acos [Libm F32] (hl : GoodAcos) {n : ℕ} {A B : EuclideanSpace ℝ (Fin n)} {x : F32}
    (h : Near x (Real.cos (angle A B)) (17 / 2 ^ 24)) :
    Near (F.acos (F.clamp x (lit (-1)) (lit 1))) (angle A B) (1 / 2 ^ 8) ∧
    (1 / 2 ^ 6 ≤ Real.sin (angle A B) →
      Near (F.acos (F.clamp x (lit (-1)) (lit 1))) (angle A B) (27 / 2 ^ 24 / Real.sin (angle A B))) := by
  obtain ⟨⟨f, g⟩, b⟩ := near_clamp h (Real.neg_one_le_cos _) (Real.cos_le_one _)
  obtain ⟨f', g'⟩ := hl _ f b
  set y := F.clamp x (lit (-1)) (lit 1)
  have cy : Real.cos (Real.arccos y.val) = y.val := Real.cos_arccos (abs_le.1 b).1 (abs_le.1 b).2
  rw [← cy] at g
  have s := angle_sq_le (Real.arccos_nonneg _) (Real.arccos_le_pi _) (angle_nonneg A B) (angle_le_pi A B) g
  have t := abs_sub_le ((Libm.acosf y).val : ℝ) (Real.arccos y.val) (angle A B)
  refine ⟨⟨f', t.trans ?_⟩, fun hs => ⟨f', t.trans ?_⟩⟩
  · have : |Real.arccos y.val - angle A B| ≤ 1 / 2 ^ 8 - 1 / 2 ^ 21 := by
      refine abs_le_of_sq_le_sq (s.trans ?_) (by norm_num)
      norm_num
    linarith
  · have p0 : 0 < Real.sin (angle A B) := lt_of_lt_of_le (by norm_num) hs
    have := angle_abs_le (Real.arccos_nonneg _) (Real.arccos_le_pi _) (angle_nonneg A B) (angle_le_pi A B) g le_rfl hs
    have s1 := Real.sin_le_one (angle A B)
    have e : 27 / 2 ^ 24 / Real.sin (angle A B) = 1 / 2 ^ 21 / Real.sin (angle A B) + 19 / 2 ^ 24 / Real.sin (angle A B) := by
      rw [← add_div]; norm_num
    rw [e]
    refine add_le_add (g'.trans ?_) (this.trans ?_)
    · rw [le_div_iff₀ p0]; exact mul_le_of_le_one_right (by norm_num) s1
    · exact div_le_div_of_nonneg_right (by norm_num) p0.le

/-! ### Cauchy-Schwarz, facing, the triangle inequality -/

theorem cauchy_float {n : ℕ} (hn : n ≤ 4) {a b : Fin n → F32} {d la lb : F32} (ha : Medium a) (hb : Medium b)
    (hd : AccurateSum d a b) (h : exactLength a * exactLength b ≤ 2 ^ 120)
    (ea : |(la.val : ℝ) - exactLength a| ≤ 4 / 2 ^ 24 * exactLength a)
    (eb : |(lb.val : ℝ) - exactLength b| ≤ 4 / 2 ^ 24 * exactLength b) :
    |(d.val : ℝ)| ≤ (1 + 13 / 2 ^ 24) * (la.val * lb.val) := by
  obtain ⟨-, e⟩ := near_inner hn hd ha.1 hb.1 (by rw [norm_exactE, norm_exactE]; exact h)
  have cs := abs_real_inner_le_norm (exactE a) (exactE b)
  rw [norm_exactE, norm_exactE] at e cs
  have a1 := ha.2.1
  have b1 := hb.2.1
  have ea' := (abs_le.1 ea).1
  have eb' := (abs_le.1 eb).1
  have t := abs_sub_abs_le_abs_sub (d.val : ℝ) ⟪exactE a, exactE b⟫
  have P : (1 - 4 / 2 ^ 24) * exactLength a * ((1 - 4 / 2 ^ 24) * exactLength b) ≤ la.val * lb.val := by
    have a0 := ha.pos
    have b0 := hb.pos
    refine mul_le_mul (by linarith) (by linarith) (by norm_num; positivity) (le_trans ?_ (show (1 - 4 / 2 ^ 24) * exactLength a ≤ la.val by linarith))
    norm_num; positivity
  have Q : (1 / 2 ^ 50) * (1 / 2 ^ 50) ≤ exactLength a * exactLength b := mul_le_mul a1 b1 (by norm_num) ha.pos.le
  have P' : (1 - 4 / 2 ^ 24) * (1 - 4 / 2 ^ 24) * (exactLength a * exactLength b) ≤ la.val * lb.val := by
    refine le_trans (le_of_eq ?_) P; ring
  generalize exactLength a * exactLength b = X at *
  generalize (la.val : ℝ) * lb.val = Y at *
  norm_num at *
  linarith

theorem facing_float {n : ℕ} (hn : n ≤ 4) {a b : Fin n → F32} {d : F32} (ha : Medium a) (hb : Medium b)
    (hd : AccurateSum d a b) (h : exactLength a * exactLength b ≤ 2 ^ 120) :
    (5 / 2 ^ 24 ≤ Real.cos (angle (exactE a) (exactE b)) → lit 0 < d) ∧
    (Real.cos (angle (exactE a) (exactE b)) ≤ -(5 / 2 ^ 24) → d < lit 0) := by
  obtain ⟨f, e⟩ := near_inner hn hd ha.1 hb.1 (by rw [norm_exactE, norm_exactE]; exact h)
  rw [← cos_angle_mul_norm_mul_norm, norm_exactE, norm_exactE] at e
  have Q : (1 / 2 ^ 50) * (1 / 2 ^ 50) ≤ exactLength a * exactLength b := mul_le_mul ha.2.1 hb.2.1 (by norm_num) ha.pos.le
  obtain ⟨e1, e2⟩ := abs_le.1 e
  generalize exactLength a * exactLength b = X at *
  generalize Real.cos (angle (exactE a) (exactE b)) = C at *
  have f0 : (lit 0 : F32).IsFin = true := by decide +kernel
  have v0 : (lit 0 : F32).val = 0 := by decide +kernel
  have x0 : 0 ≤ X := le_trans (by norm_num) Q
  constructor
  · intro hc
    refine ⟨isFin_ne_nan f0, isFin_ne_nan f, ?_⟩
    rw [key_lt_iff, v0]
    have : 5 / 2 ^ 24 * X ≤ C * X := mul_le_mul_of_nonneg_right hc x0
    have : 0 < (d.val : ℝ) := by
      generalize (d.val : ℝ) = D at *
      norm_num at *; linarith
    exact_mod_cast this
  · intro hc
    refine ⟨isFin_ne_nan f, isFin_ne_nan f0, ?_⟩
    rw [key_lt_iff, v0]
    have : C * X ≤ -(5 / 2 ^ 24) * X := mul_le_mul_of_nonneg_right hc x0
    have : (d.val : ℝ) < 0 := by
      generalize (d.val : ℝ) = D at *
      norm_num at *; linarith
    exact_mod_cast this

theorem exactDistance_eq {n : ℕ} (a b : Fin n → F32) : exactDistance a b = ‖exactE a - exactE b‖ := by
  rw [EuclideanSpace.norm_eq]
  unfold exactDistance
  congr 1
  refine Finset.sum_congr rfl fun i _ => ?_
  rw [Real.norm_eq_abs, sq_abs, PiLp.sub_apply, exactE_apply, exactE_apply]

theorem triangle_float {n : ℕ} {a b c : Fin n → F32} {x y z : F32}
    (ex : |(x.val : ℝ) - exactDistance a c| ≤ 5 / 2 ^ 24 * exactDistance a c)
    (ey : |(y.val : ℝ) - exactDistance a b| ≤ 5 / 2 ^ 24 * exactDistance a b)
    (ez : |(z.val : ℝ) - exactDistance b c| ≤ 5 / 2 ^ 24 * exactDistance b c) :
    (x.val : ℝ) ≤ (1 + 11 / 2 ^ 24) * (y.val + z.val) := by
  have t : exactDistance a c ≤ exactDistance a b + exactDistance b c := by
    rw [exactDistance_eq, exactDistance_eq, exactDistance_eq]
    exact norm_sub_le_norm_sub_add_norm_sub _ _ _
  have p : 0 ≤ exactDistance a b := Real.sqrt_nonneg _
  have q : 0 ≤ exactDistance b c := Real.sqrt_nonneg _
  rw [abs_le] at ex ey ez
  obtain ⟨-, ex⟩ := ex
  obtain ⟨ey, -⟩ := ey
  obtain ⟨ez, -⟩ := ez
  norm_num at *
  linarith

theorem nearer_float {n : ℕ} {a b c : Fin n → F32} {x y : F32} (fx : x.IsFin = true) (fy : y.IsFin = true)
    (ex : |(x.val : ℝ) - exactDistance a b| ≤ 5 / 2 ^ 24 * exactDistance a b)
    (ey : |(y.val : ℝ) - exactDistance a c| ≤ 5 / 2 ^ 24 * exactDistance a c) (p : 0 < exactDistance a b)
    (h : (1 + 11 / 2 ^ 24) * exactDistance a b ≤ exactDistance a c) : x < y := by
  refine ⟨isFin_ne_nan fx, isFin_ne_nan fy, ?_⟩
  rw [key_lt_iff]
  have : (x.val : ℝ) < y.val := by
    rw [abs_le] at ex ey
    obtain ⟨-, ex⟩ := ex
    obtain ⟨ey, -⟩ := ey
    generalize (x.val : ℝ) = X at *
    generalize (y.val : ℝ) = Y at *
    norm_num at *
    linarith
  exact_mod_cast this

end Zcm
