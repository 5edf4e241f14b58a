import Verif.Lemmas.F32AxisAngle
import Verif.Lemmas.F32QuatChain
import Verif.Lemmas.F32AngleLib
import Verif.Props.C83
import Verif.Props.C100

/-!
# C111  Normalised components never exceed 1, and the axis and angle of a quaternion in IEEE arithmetic

`normalize` rounds four times, yet no component of its result is ever above 1 in absolute value.  So `angle(normalize(q))`
never asks `acosf` for a value outside its domain.  The same is not true of products of normalised quaternions.

Where `acosf` (and `sinf`, `cosf`) matter, the theorems hold for every C library that is accurate (`GoodAcos`, `GoodTrig`).
-/

set_option exponentiation.threshold 300

namespace Zcm

open Quaternion F32

/-! ## Components of a normalised vector -/

/-- C111, `normalize(vec2)`: no component is above 1. -/
theorem C111_vec2 (v : V2 F32) (h : Medium (coord v)) (i : Fin 2) : |(coord (V2.normalize v) i).val| ≤ 1 :=
  normalize_le_one h (sqLen2 h) (dominates2 h) (fun i => by fin_cases i <;> rfl) i

/-- C111, `normalize(vec3)`: no component is above 1. -/
theorem C111_vec3 (v : V3 F32) (h : Medium (coord v)) (i : Fin 3) : |(coord (V3.normalize v) i).val| ≤ 1 :=
  normalize_le_one h (sqLen3 h) (dominates3 h) (fun i => by fin_cases i <;> rfl) i

/-- C111, `normalize(vec4)`: no component is above 1. -/
theorem C111_vec4 (v : V4 F32) (h : Medium (coord v)) (i : Fin 4) : |(coord (V4.normalize v) i).val| ≤ 1 :=
  normalize_le_one h (sqLen4 h) (dominates4 h) (fun i => by fin_cases i <;> rfl) i

/-- C111, `normalize(quat)`: no component is above 1. -/
theorem C111_quat (q : Quat F32) (h : Medium (coord q)) (i : Fin 4) : |(coord (Quat.normalize q) i).val| ≤ 1 :=
  quotient_le_one h (sqLen4 h) (dominates4 h) (fun i => by fin_cases i <;> rfl) i

variable [Libm F32]

/-! ## The axis is always finite -/

theorem gap_sub_one {m : F32} (fm : m.IsFin = true) (h0 : 0 ≤ m.val) (h1 : m.val ≤ 1) (hn : ¬ (lit 1 - m ≤ lit 0)) :
    1 / 2 ^ 24 ≤ 1 - (m.val : ℝ) ∧ Rel (lit 1 - m) (1 - m.val) (1 / 2 ^ 24) := by
  have l1 : ((lit 1 : F32).val : ℝ) = 1 := by rw [val_lit_one]; norm_num
  have h1' : (m.val : ℝ) ≤ 1 := by exact_mod_cast h1
  have h0' : 0 ≤ (m.val : ℝ) := by exact_mod_cast h0
  have r := rel_sub isFin_lit_one fm (by
    rw [l1, _root_.abs_le]
    constructor <;> norm_num <;> linarith)
  rw [l1] at r
  refine ⟨?_, r⟩
  rcases h1.eq_or_lt with e | h
  · exfalso
    refine hn ⟨isFin_ne_nan r.1, isFin_ne_nan isFin_lit_zero, ?_⟩
    rw [key_le_iff, val_lit_zero]
    have := r.2
    rw [e] at this
    norm_num at this
    exact this.le
  · have := gap24_of_lt fm isFin_lit_one h0 (by rw [val_lit_one]; exact h)
    rw [val_lit_one] at this
    have : (1 : ℝ) ≤ 2 ^ 24 * (1 - m.val) := by exact_mod_cast this
    rw [div_le_iff₀ (by norm_num)]
    linarith

/-- C111, axis: whenever `|w| ≤ 1` (which `normalize` guarantees), the computed axis has three finite components, however
close the quaternion is to no rotation at all. -/
theorem C111_axis_finite (q : Quat F32) (hf : q.Finite) (hw : |q.w.val| ≤ 1) (hb : ∀ i, |(coord q i).val| ≤ 2 ^ 100) :
    (Quat.axis q).Finite := by
  by_cases c : lit 1 - q.w * q.w ≤ lit 0
  · have : Quat.axis q = ⟨lit 0, lit 0, lit 1⟩ := by
      unfold Quat.axis
      simp only
      rw [if_pos c]
    rw [this]
    intro i
    fin_cases i <;> decide +kernel
  · have fw : q.w.IsFin = true := hf 3
    have s : |q.w.val * q.w.val| ≤ 1 := by
      rw [abs_mul]
      exact mul_le_one₀ hw (abs_nonneg _) hw
    have p := round_le_one (s := q.w.sgn ^^ q.w.sgn) (s.trans (by norm_num))
    rw [← mul_fin fw fw] at p
    obtain ⟨fm, hm⟩ := p
    obtain ⟨gap, r⟩ := gap_sub_one fm (sq_nonneg_val fw) (_root_.abs_le.1 hm).2 c
    have m0 : 0 ≤ ((q.w * q.w).val : ℝ) := by exact_mod_cast sq_nonneg_val fw
    rw [axis_formula c]
    have S1 : (1 : ℝ) - (q.w * q.w).val ≤ 1 := by linarith
    generalize (1 : ℝ) - (q.w * q.w).val = S at *
    have l1 : ((lit 1 : F32).val : ℝ) = 1 := by rw [val_lit_one]; norm_num
    have s0 : 0 < S := lt_of_lt_of_le (by norm_num) gap
    have r0 : 0 < Real.sqrt S := Real.sqrt_pos.2 s0
    have r1 : Real.sqrt S ≤ 1 := Real.sqrt_le_one.2 S1
    have r2 : 1 / 2 ^ 12 ≤ Real.sqrt S := by
      refine Real.le_sqrt_of_sq_le ?_
      norm_num
      norm_num at gap
      linarith
    have sq := rel_sqrt r (g := 2 / 2 ^ 24) (by norm_num) (by norm_num) (le_trans (by norm_num) gap)
      (S1.trans (by norm_num)) (by norm_num)
    have i := (Rel.exact isFin_lit_one).div sq (d := 2.1 / 2 ^ 24) (g := 4 / 2 ^ 24) le_rfl (by norm_num) (by norm_num) r0.ne'
      (by norm_num) (by norm_num) (by norm_num)
      (by rw [l1, abs_of_pos (by positivity), div_le_div_iff₀ (by positivity) r0]; linarith)
      (by rw [l1, abs_of_pos (by positivity), div_le_iff₀ r0]; norm_num; norm_num at r2; linarith)
    rw [l1] at i
    change Rel (F.inversesqrt (lit 1 - q.w * q.w)) _ _ at i
    generalize F.inversesqrt (lit 1 - q.w * q.w) = t at *
    have part : ∀ k, (coord q k * t).IsFin = true := by
      intro k
      refine ((Rel.exact (hf k)).mul' i (g := 1) (by norm_num) (by norm_num) ?_).1
      have hk : |((coord q k).val : ℝ)| ≤ 2 ^ 100 := by exact_mod_cast hb k
      rw [mul_one_div, abs_div, abs_of_pos r0, div_le_iff₀ r0]
      norm_num
      norm_num at hk r2
      linarith
    intro k
    fin_cases k
    exacts [part 0, part 1, part 2]

/-- C111, angle: the angle of a normalised quaternion is a finite number, never NaN; the cosine of half of it is the
exact `w / |q|`, to within `2^-20`; and it lies between 0 and 2π, to within `2^-20`. -/
theorem C111_angle (hl : GoodAcos) (q : Quat F32) (h : Medium (coord q)) :
    (Quat.angle (Quat.normalize q)).IsFin = true ∧
    |Real.cos ((Quat.angle (Quat.normalize q)).val / 2) - q.w.val / exactLength (coord q)| ≤ 1 / 2 ^ 20 ∧
    -(1 / 2 ^ 20) ≤ ((Quat.angle (Quat.normalize q)).val : ℝ) ∧
    ((Quat.angle (Quat.normalize q)).val : ℝ) ≤ 2 * Real.pi + 1 / 2 ^ 20 := by
  obtain ⟨a, -⟩ := C83_quat q h
  obtain ⟨fw, ew⟩ := a 3
  change (Quat.normalize q).w.IsFin = true at fw
  change |((Quat.normalize q).w.val : ℝ) - q.w.val / _| ≤ 6 / 2 ^ 24 * (|(q.w.val : ℝ)| / _) + _ at ew
  have lw := C111_quat q h 3
  change |(Quat.normalize q).w.val| ≤ 1 at lw
  have lw' : |((Quat.normalize q).w.val : ℝ)| ≤ 1 := by exact_mod_cast lw
  obtain ⟨f, e⟩ := angle_near hl fw lw'
  have L : |(q.w.val : ℝ)| / exactLength (coord q) ≤ 1 := by
    have : 0 < exactLength (coord q) := h.pos
    rw [div_le_one this]
    change |((coord q 3).val : ℝ)| ≤ _
    unfold exactLength
    exact Real.abs_le_sqrt (Finset.single_le_sum (f := fun i => ((coord q i).val : ℝ) ^ 2) (fun i _ => sq_nonneg _)
      (Finset.mem_univ (3 : Fin 4)))
  generalize Quat.normalize q = n at *
  have hc : |Real.cos ((Quat.angle n).val / 2) - n.w.val| ≤ 1 / 2 ^ 21 := by
    have hw' := _root_.abs_le.1 lw'
    have t : Real.cos (Real.arccos n.w.val) = n.w.val := Real.cos_arccos hw'.1 hw'.2
    rw [← t]
    exact (Real.abs_cos_sub_cos_le _ _).trans e
  have e' := _root_.abs_le.1 e
  have a0 := Real.arccos_nonneg n.w.val
  have a1 := Real.arccos_le_pi n.w.val
  have tri := abs_sub_le (Real.cos ((Quat.angle n).val / 2)) n.w.val (q.w.val / exactLength (coord q))
  clear a lw lw' e h fw
  generalize |(q.w.val : ℝ)| / exactLength (coord q) = L' at *
  generalize |(n.w.val : ℝ) - q.w.val / exactLength (coord q)| = D at *
  generalize Real.arccos n.w.val = A at *
  refine ⟨f, tri.trans ?_, ?_, ?_⟩
  · clear e' tri
    norm_num at *
    linarith
  · norm_num at e' ⊢
    linarith
  · norm_num at e' ⊢
    linarith

/-- C111, the limit of it: a product of normalised quaternions can have `w` above 1, and then `angle` is NaN.  Here `u` is
the normalised `quat(0, 1, 0, 4)` and the product is `u * conjugate(u)`, the rotation by no angle. -/
theorem C111_angle_nan (hl : AcosDomain) :
    ∃ q : Quat F32, Medium (coord q) ∧
      Quat.angle (Quat.normalize q * Quat.conjugate (Quat.normalize q)) = F32.nan := by
  refine ⟨⟨lit 1, lit 0, lit 4, lit 0⟩, ?_, ?_⟩
  · have : exactLength (coord (⟨lit 1, lit 0, lit 4, lit 0⟩ : Quat F32)) ^ 2 = 17 := by
      unfold exactLength
      rw [Real.sq_sqrt (by positivity)]
      simp only [Fin.sum_univ_four]
      change ((lit 1 : F32).val : ℝ) ^ 2 + ((lit 0 : F32).val : ℝ) ^ 2 + ((lit 4 : F32).val : ℝ) ^ 2 +
        ((lit 0 : F32).val : ℝ) ^ 2 = 17
      rw [show (lit 1 : F32).val = 1 by decide +kernel, show (lit 0 : F32).val = 0 by decide +kernel,
        show (lit 4 : F32).val = 4 by decide +kernel]
      norm_num
    have p : 0 ≤ exactLength (coord (⟨lit 1, lit 0, lit 4, lit 0⟩ : Quat F32)) := Real.sqrt_nonneg _
    refine ⟨by decide +kernel, ?_, ?_⟩
    · refine le_trans (by norm_num) (show (1 : ℝ) ≤ _ by nlinarith)
    · refine le_trans (show _ ≤ (5 : ℝ) by nlinarith) (by norm_num)
  · have f : (Quat.normalize (⟨lit 1, lit 0, lit 4, lit 0⟩ : Quat F32) *
        Quat.conjugate (Quat.normalize (⟨lit 1, lit 0, lit 4, lit 0⟩ : Quat F32))).w.IsFin = true := by decide +kernel
    have w : 1 < (Quat.normalize (⟨lit 1, lit 0, lit 4, lit 0⟩ : Quat F32) *
        Quat.conjugate (Quat.normalize (⟨lit 1, lit 0, lit 4, lit 0⟩ : Quat F32))).w.val := by decide +kernel
    have := hl _ f (by exact_mod_cast w)
    change Libm.acosf _ * lit 2 = F32.nan
    rw [this]
    rfl

/-- C111, axis and angle together are the quaternion: for a quaternion within `2^-20` of a unit one, with `|w| ≤ 1`, whose
rotation is not too small (`w² ≤ 1 - 2^-18`, half angle above about a ninth of a degree), the exact rotation by exactly the computed
angle about exactly the computed axis is the quaternion given, to within `2^-19 + 2^-20 / sin(half angle)`. -/
theorem C111_axis_angle (hl : GoodAcos) (q : Quat F32) (hf : q.Finite) (hw : |(q.w.val : ℝ)| ≤ 1)
    (hn : |‖exactQ q‖ - 1| ≤ 1 / 2 ^ 20) (hs : (q.w.val : ℝ) ^ 2 ≤ 1 - 1 / 2 ^ 18) :
    (Quat.angle q).IsFin = true ∧ (Quat.axis q).Finite ∧
    ‖turnQ (Quat.angle q).val (numbers (Quat.axis q)) - exactQ q‖ ≤
      1 / 2 ^ 19 + 1 / 2 ^ 20 / Real.sqrt (1 - (q.w.val : ℝ) ^ 2) := by
  obtain ⟨a, b, -, d⟩ := axis_angle_close hl hf hw hn (by linarith)
  exact ⟨a, b, d⟩

/-- C111, the round trip: `angleAxis(angle(q), axis(q))`, all in float arithmetic, gives `q` back. -/
theorem C111_roundtrip (hl : GoodAcos) (ht : GoodTrig) (q : Quat F32) (hf : q.Finite) (hw : |(q.w.val : ℝ)| ≤ 1)
    (hn : |‖exactQ q‖ - 1| ≤ 1 / 2 ^ 20) (hs : (q.w.val : ℝ) ^ 2 ≤ 1 - 1 / 2 ^ 18) :
    (Quat.angleAxis (Quat.angle q) (Quat.axis q)).Finite ∧
    ‖exactQ (Quat.angleAxis (Quat.angle q) (Quat.axis q)) - exactQ q‖ ≤
      1 / 2 ^ 18 + 1 / 2 ^ 20 / Real.sqrt (1 - (q.w.val : ℝ) ^ 2) := by
  obtain ⟨a, b, c, d⟩ := axis_angle_close hl hf hw hn (by linarith)
  have e : ∑ i, numbers (Quat.axis q) i ^ 2 = ‖exactV (Quat.axis q)‖ ^ 2 := by
    rw [norm_sq_quat, Fin.sum_univ_three]
    simp only [exactV, numbers]
    ring_nf
    rfl
  rw [e] at c
  have n2 : ‖exactV (Quat.axis q)‖ ≤ 2 := by nlinarith [norm_nonneg (exactV (Quat.axis q))]
  obtain ⟨f, g⟩ := C100_angleAxis ht _ _ a b (n2.trans (by norm_num))
  refine ⟨f, (norm_sub_le_norm_sub_add_norm_sub _ (turnQ (Quat.angle q).val (numbers (Quat.axis q))) _).trans ?_⟩
  have m : max 1 ‖exactV (Quat.axis q)‖ ≤ 2 := max_le (by norm_num) n2
  have : 1 / 2 ^ 22 * max 1 ‖exactV (Quat.axis q)‖ ≤ 1 / 2 ^ 22 * 2 := by gcongr
  norm_num at *
  linarith

/-- C111, the round trip for a normalised quaternion, where the conditions on the length and on `w` come for free. -/
theorem C111_normalized (hl : GoodAcos) (ht : GoodTrig) (q : Quat F32) (h : Medium (coord q))
    (hs : ((Quat.normalize q).w.val : ℝ) ^ 2 ≤ 1 - 1 / 2 ^ 18) :
    (Quat.angleAxis (Quat.angle (Quat.normalize q)) (Quat.axis (Quat.normalize q))).Finite ∧
    ‖exactQ (Quat.angleAxis (Quat.angle (Quat.normalize q)) (Quat.axis (Quat.normalize q))) -
      exactQ (Quat.normalize q)‖ ≤ 1 / 2 ^ 18 + 1 / 2 ^ 20 / Real.sqrt (1 - ((Quat.normalize q).w.val : ℝ) ^ 2) := by
  obtain ⟨a, b⟩ := C83_quat q h
  have lw := C111_quat q h 3
  rw [exactLength_quat] at b
  refine C111_roundtrip hl ht _ (fun i => (a i).1) ?_ b hs
  exact_mod_cast lw

omit [Libm F32] in
/-- Non-vacuity: a C library as assumed exists. -/
example : @GoodAcos angleLibm ∧ @GoodTrig angleLibm ∧ @AcosDomain angleLibm :=
  ⟨angleLibm_acos, angleLibm_trig, angleLibm_domain⟩

omit [Libm F32] in
/-- Non-vacuity of the other hypotheses: a third of a turn about (1, 1, 1). -/
example : let q : Quat F32 := ⟨lit (1 / 2), lit (1 / 2), lit (1 / 2), lit (1 / 2)⟩
    Medium (coord q) ∧ q.Finite ∧ |(q.w.val : ℝ)| ≤ 1 ∧ |‖exactQ q‖ - 1| ≤ 1 / 2 ^ 20 ∧ (q.w.val : ℝ) ^ 2 ≤ 1 - 1 / 2 ^ 18 ∧
      (Quat.normalize q).w = q.w ∧ (∀ i, |(coord q i).val| ≤ 2 ^ 100) := by
  intro q
  have v : ((lit (1 / 2) : F32).val : ℝ) = 1 / 2 := by
    rw [show (lit (1 / 2) : F32).val = 1 / 2 by decide +kernel]; norm_num
  have n : ‖exactQ q‖ = 1 := by
    have : ‖exactQ q‖ ^ 2 = 1 := by
      rw [norm_sq_quat]
      change ((lit (1 / 2) : F32).val : ℝ) ^ 2 + ((lit (1 / 2) : F32).val : ℝ) ^ 2 + ((lit (1 / 2) : F32).val : ℝ) ^ 2 +
        ((lit (1 / 2) : F32).val : ℝ) ^ 2 = 1
      rw [v]
      norm_num
    exact (sq_eq_sq₀ (norm_nonneg _) zero_le_one).1 (by rw [this]; norm_num)
  have f : q.Finite := fun i => by fin_cases i <;> decide +kernel
  have w : (q.w.val : ℝ) = 1 / 2 := v
  refine ⟨⟨f, ?_, ?_⟩, f, ?_, ?_, ?_, by decide +kernel, fun i => by fin_cases i <;> decide +kernel⟩
  · rw [exactLength_quat, n]; norm_num
  · rw [exactLength_quat, n]; norm_num
  · rw [w, abs_of_pos (by norm_num)]; norm_num
  · rw [n]; norm_num
  · rw [w]; norm_num

end Zcm
