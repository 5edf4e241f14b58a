import Verif.Lemmas.F32Compose
import Verif.Props.C106
import Verif.Props.C91

/-!
# C113  Splitting a transform into scale, rotation and translation is accurate in IEEE arithmetic

`decompose_orthogonal(M, scale, orientation, translation)` in binary32.  The result is the triple (scale, orientation,
translation); `orientation0` is what the caller's `orientation` held before.  `entry M c r` is column `c`, row `r`.
-/

set_option exponentiation.threshold 300

namespace Zcm

open Quaternion F32

/-- C113: the translation is copied from the last column, bit for bit, for every matrix. -/
theorem C113_translation (M : M4 F32) (orientation0 : Quat F32) (r : Fin 3) :
    coord (M4.decompose_orthogonal M orientation0).2.2 r = entry M 3 r.castSucc := by
  rw [decompose32_eq]
  split_ifs <;> fin_cases r <;> rfl

/-- C113: let the first three columns of `M` be those of a rotation `Q` times scales `σ s₀, σ s₁, σ s₂`, where `σ` is 1, or -1
for a mirror image, each up to `δ` relative to its scale.  Then the computed scales are finite and off by at most
`δ + 5/2^24`, relatively, with the right sign; and the computed orientation is finite and within `12 δ + 67/2^24` of `Q` or
of `-Q`, which is the same rotation. -/
theorem C113_decompose (M : M4 F32) (orientation0 : Quat F32) (Q : ℍ[ℝ]) (σ δ : ℝ) (s : Fin 3 → ℝ) (hQ : ‖Q‖ = 1) (hσ : σ = 1 ∨ σ = -1)
    (hf : ∀ c r : Fin 3, (entry M c.castSucc r.castSucc).IsFin = true) (hs : ∀ c, 1 / 2 ^ 49 ≤ s c ∧ s c ≤ 2 ^ 62)
    (h : ∀ c : Fin 3, ‖vecQ (fun r => ((entry M c.castSucc r.castSucc).val : ℝ)) - (σ * s c) • (Q * axisQ c * Q⁻¹)‖ ≤ δ * s c)
    (hd : δ ≤ 1 / 2 ^ 8) :
    (∀ c, Near (coord (M4.decompose_orthogonal M orientation0).1 c) (σ * s c) ((δ + 5 / 2 ^ 24) * s c)) ∧
    (M4.decompose_orthogonal M orientation0).2.1.Finite ∧
    (‖exactQ (M4.decompose_orthogonal M orientation0).2.1 - Q‖ ≤ 12 * δ + 67 / 2 ^ 24 ∨
      ‖exactQ (M4.decompose_orthogonal M orientation0).2.1 - -Q‖ ≤ 12 * δ + 67 / 2 ^ 24) := by
  have := decompose_close orientation0 hQ hσ hf (fun c => (hs c).1) (fun c => (hs c).2) h hd
  simpa only [sub_neg_eq_add] using this

private theorem near_scaled {x a : F32} {r e : ℝ} (hx : Near x r e) (ha : a.IsFin = true) (hr : |r| ≤ 1.02) (he : e ≤ 1 / 4)
    (a1 : 1 / 2 ^ 50 ≤ |(a.val : ℝ)|) (a2 : |(a.val : ℝ)| ≤ 2 ^ 63) :
    Near (x * a) (r * a.val) ((e + 1.3 / 2 ^ 24) * |(a.val : ℝ)|) := by
  have e0 : 0 ≤ e := (abs_nonneg _).trans hx.2
  have m := (near_close hx hr).mul (Close.exact (P := |(a.val : ℝ)|) ha le_rfl) zero_le_one (abs_nonneg _) e0 (by norm_num)
    zero_le_one le_rfl
    (by rw [one_mul]; exact a2.trans (by norm_num))
    (by rw [one_mul]; exact le_trans (by norm_num) a1) (by linarith)
  refine ⟨m.fin, m.err.trans ?_⟩
  rw [one_mul, one_mul]
  refine mul_le_mul_of_nonneg_right ?_ (abs_nonneg (a.val : ℝ))
  norm_num
  linarith

private theorem same_beq {x y : F32} (h : SameNumber x y) (hy : y.IsFin = true) : (x == y) = true := by
  refine beq_of_same h ?_
  rintro rfl
  rcases h with h | ⟨h, -⟩
  · rw [← h] at hy; cases hy
  · cases h

/-- C113: what was put together is taken apart again.  For a translation `t`, a rotation `q` of norm 1 up to `2^-20` and scales
that are all positive or all negative, neither extremely small nor extremely large, `decompose_orthogonal` of the computed
product `translate(mat4(), t) * mat4_cast(q) * scale(mat4(), s)` returns exactly `t`, each scale to within `2^-16`
relatively, and `q` or `-q` to within `2^-13`. -/
theorem C113_parts (t s : V3 F32) (q orientation0 : Quat F32) (ht : t.Finite) (hq : q.Finite) (hu : |‖exactQ q‖ - 1| ≤ 1 / 2 ^ 20)
    (hs : s.Finite) (σ : ℝ) (hσ : σ = 1 ∨ σ = -1)
    (hp : ∀ c, 1 / 2 ^ 49 ≤ σ * (coord s c).val ∧ σ * (coord s c).val ≤ 2 ^ 62) :
    let M := M4.translate M4.default t * Quat.mat4_cast q * M4.scale M4.default s
    (∀ i, (coord (M4.decompose_orthogonal M orientation0).2.2 i == coord t i) = true) ∧
    (∀ i, Near (coord (M4.decompose_orthogonal M orientation0).1 i) (coord s i).val (1 / 2 ^ 16 * |((coord s i).val : ℝ)|)) ∧
    (M4.decompose_orthogonal M orientation0).2.1.Finite ∧
    (‖exactQ (M4.decompose_orthogonal M orientation0).2.1 - exactQ q‖ ≤ 1 / 2 ^ 13 ∨
      ‖exactQ (M4.decompose_orthogonal M orientation0).2.1 - -exactQ q‖ ≤ 1 / 2 ^ 13) := by
  intro M
  have fR : ∀ c r, (entry (Quat.mat3_cast q) c r).IsFin = true := fun c r => (C91_mat3 q hq hu c).1 r
  obtain ⟨e1, e2, -⟩ := compose32 ht hs fR
  change ∀ c r : Fin 3, SameNumber (entry M _ _) _ at e1
  change ∀ r : Fin 3, SameNumber (entry M _ _) _ at e2
  obtain ⟨Q, nQ, dQ, cQ⟩ := unit_direction (exactQ q) hu
  have σ2 : σ * σ = 1 := by rcases hσ with rfl | rfl <;> norm_num
  have abs_s : ∀ c, |((coord s c).val : ℝ)| = σ * (coord s c).val := by
    intro c
    have h0 := (hp c).1
    have : (0 : ℝ) < σ * (coord s c).val := lt_of_lt_of_le (by norm_num) h0
    rw [← abs_of_pos this, abs_mul]
    rcases hσ with rfl | rfl <;> norm_num
  have prod : ∀ c r, Near (entry M c.castSucc r.castSucc) ((entry (Quat.mat3_cast q) c r).val * (coord s c).val)
      (1.3 / 2 ^ 24 * |((coord s c).val : ℝ)|) := by
    intro c r
    have b : |((entry (Quat.mat3_cast q) c r).val : ℝ)| ≤ 1.02 := by
      have n := (C91_mat3 q hq hu c).2
      rw [← cQ] at n
      have k := norm_sub_norm_le (exactColumn (Quat.mat3_cast q) c) (Q * axisQ c * Q⁻¹)
      rw [norm_turned nQ] at k
      obtain ⟨-, p0, p1, p2⟩ := abs_part_le (exactColumn (Quat.mat3_cast q) c)
      norm_num at n
      fin_cases r
      · exact p0.trans (by linarith)
      · exact p1.trans (by linarith)
      · exact p2.trans (by linarith)
    have := near_scaled (x := entry (Quat.mat3_cast q) c r) (a := coord s c) (e := 0) ⟨fR c r, by simp⟩ (hs c) b (by norm_num)
      (by rw [abs_s]; exact le_trans (by norm_num) (hp c).1) (by rw [abs_s]; exact (hp c).2.trans (by norm_num))
    rw [zero_add] at this
    exact Near.same (e1 c r) this
  obtain ⟨sc, fo, o⟩ := C113_decompose M orientation0 Q σ (1 / 2 ^ 17 + 2.6 / 2 ^ 24) (fun c => σ * (coord s c).val) nQ hσ
    (fun c r => (prod c r).1) hp (fun c => by
      have k : (σ * (σ * ((coord s c).val : ℝ))) = (coord s c).val := by rw [← mul_assoc, σ2, one_mul]
      rw [k, ← abs_s, add_mul]
      have tri := norm_sub_le_norm_sub_add_norm_sub (vecQ (fun r => ((entry M c.castSucc r.castSucc).val : ℝ)))
        (((coord s c).val : ℝ) • exactColumn (Quat.mat3_cast q) c) (((coord s c).val : ℝ) • (Q * axisQ c * Q⁻¹))
      refine tri.trans ?_
      rw [add_comm]
      refine add_le_add ?_ ?_
      · rw [← smul_sub, norm_smul, mul_comm, Real.norm_eq_abs, cQ]
        exact mul_le_mul_of_nonneg_right (C91_mat3 q hq hu c).2 (abs_nonneg _)
      · have p : ∀ r, |((entry M c.castSucc r.castSucc).val : ℝ) - (coord s c).val * (entry (Quat.mat3_cast q) c r).val| ≤
            1.3 / 2 ^ 24 * |((coord s c).val : ℝ)| := fun r => by rw [mul_comm]; exact (prod c r).2
        have := quat_norm_le (a := vecQ (fun r => ((entry M c.castSucc r.castSucc).val : ℝ)) -
          ((coord s c).val : ℝ) • exactColumn (Quat.mat3_cast q) c) (e := 1.3 / 2 ^ 24 * |((coord s c).val : ℝ)|) (by positivity)
          (by
            rw [re_sub, re_smul]
            change |(0 : ℝ) - _ • (0 : ℝ)| ≤ _
            rw [smul_zero, sub_zero, abs_zero]
            positivity)
          (by rw [imI_sub, imI_smul]; exact p 0) (by rw [imJ_sub, imJ_smul]; exact p 1) (by rw [imK_sub, imK_smul]; exact p 2)
        linarith) (by norm_num)
  refine ⟨fun i => ?_, fun i => ?_, fo, ?_⟩
  · rw [C113_translation]
    have h := e2 i
    exact same_beq h (ht i)
  · have k : (σ * (σ * ((coord s i).val : ℝ))) = (coord s i).val := by rw [← mul_assoc, σ2, one_mul]
    have := sc i
    rw [k, ← abs_s] at this
    refine this.mono ?_
    gcongr
    norm_num
  · refine o.imp (fun h => ?_) (fun h => ?_)
    · have t := norm_sub_le_norm_sub_add_norm_sub (exactQ (M4.decompose_orthogonal M orientation0).2.1) Q (exactQ q)
      rw [norm_sub_rev Q] at t
      norm_num at *
      linarith
    · have t := norm_sub_le_norm_sub_add_norm_sub (exactQ (M4.decompose_orthogonal M orientation0).2.1) (-Q) (-exactQ q)
      rw [show -Q - -exactQ q = exactQ q - Q by abel] at t
      norm_num at *
      linarith

/-- C113: and what was taken apart can be put together again.  For `M` as in `C113_decompose` with finite translation, the
computed product `translate(mat4(), translation) * mat4_cast(orientation) * scale(mat4(), scale)` of the parts has the
translation of `M` exactly, the bottom row (0, 0, 0, 1), and the other entries of `M` to within `53 δ + 320/2^24`
relative to the scale of their column. -/
theorem C113_recompose (M : M4 F32) (orientation0 : Quat F32) (Q : ℍ[ℝ]) (σ δ : ℝ) (s : Fin 3 → ℝ) (hQ : ‖Q‖ = 1) (hσ : σ = 1 ∨ σ = -1)
    (hf : ∀ (c : Fin 4) (r : Fin 3), (entry M c r.castSucc).IsFin = true) (hs : ∀ c, 1 / 2 ^ 49 ≤ s c ∧ s c ≤ 2 ^ 62)
    (h : ∀ c : Fin 3, ‖vecQ (fun r => ((entry M c.castSucc r.castSucc).val : ℝ)) - (σ * s c) • (Q * axisQ c * Q⁻¹)‖ ≤ δ * s c)
    (hd : δ ≤ 1 / 2 ^ 8) :
    let p := M4.decompose_orthogonal M orientation0
    let M' := M4.translate M4.default p.2.2 * Quat.mat4_cast p.2.1 * M4.scale M4.default p.1
    (∀ c r : Fin 3, Near (entry M' c.castSucc r.castSucc) (entry M c.castSucc r.castSucc).val ((53 * δ + 320 / 2 ^ 24) * s c)) ∧
    (∀ r : Fin 3, (entry M' 3 r.castSucc == entry M 3 r.castSucc) = true) ∧
    (∀ c, (entry M' c 3 == if c = 3 then lit 1 else lit 0) = true) := by
  intro p M'
  obtain ⟨sc, fo, o⟩ := C113_decompose M orientation0 Q σ δ s hQ hσ (fun c r => hf c.castSucc r) hs h hd
  have σ1 : |σ| = 1 := by rcases hσ with rfl | rfl <;> norm_num
  have pos : ∀ c, 0 < s c := fun c => lt_of_lt_of_le (by norm_num) (hs c).1
  have d0 : 0 ≤ δ := by
    have := (norm_nonneg _).trans (h 0)
    exact nonneg_of_mul_nonneg_left this (pos 0)
  change ∀ c, Near (coord p.1 c) _ _ at sc
  change p.2.1.Finite at fo
  have cast : ∀ c r : Fin 3, Near (entry (Quat.mat3_cast p.2.1) c r)
      (![(Q * axisQ c * Q⁻¹).imI, (Q * axisQ c * Q⁻¹).imJ, (Q * axisQ c * Q⁻¹).imK] r) (50.4 * δ + 302.4 / 2 ^ 24) := by
    intro c r
    have key : Near (entry (Quat.mat3_cast p.2.1) c 0) (Q * axisQ c * Q⁻¹).imI (4.2 * (12 * δ + 67 / 2 ^ 24) + 21 / 2 ^ 24) ∧
        Near (entry (Quat.mat3_cast p.2.1) c 1) (Q * axisQ c * Q⁻¹).imJ (4.2 * (12 * δ + 67 / 2 ^ 24) + 21 / 2 ^ 24) ∧
        Near (entry (Quat.mat3_cast p.2.1) c 2) (Q * axisQ c * Q⁻¹).imK (4.2 * (12 * δ + 67 / 2 ^ 24) + 21 / 2 ^ 24) := by
      rcases o with o | o
      · exact mat3_cast_near fo hQ o (by linarith) c
      · have := mat3_cast_near fo (by rw [norm_neg]; exact hQ) o (by linarith) c
        rwa [inv_neg, neg_mul, neg_mul_neg] at this
    obtain ⟨k0, k1, k2⟩ := key
    fin_cases r
    · exact k0.mono (by linarith)
    · exact k1.mono (by linarith)
    · exact k2.mono (by linarith)
  have ft : ∀ i, (coord p.2.2 i).IsFin = true := fun i => by rw [C113_translation]; exact hf 3 i
  obtain ⟨e1, e2, e3⟩ := compose32 ft (fun c => (sc c).1) (fun c r => (cast c r).1)
  change ∀ c r : Fin 3, SameNumber (entry M' _ _) _ at e1
  change ∀ r : Fin 3, SameNumber (entry M' _ _) _ at e2
  change ∀ c, SameNumber (entry M' c 3) _ at e3
  refine ⟨fun c r => ?_, fun r => ?_, fun c => ?_⟩
  · refine Near.same (e1 c r) ?_
    have ss := (sc c).2
    have sa : |σ * s c| = s c := by rw [abs_mul, σ1, one_mul, abs_of_pos (pos c)]
    have b1 : |((coord p.1 c).val : ℝ)| ≤ 1.005 * s c := by
      have := abs_sub_abs_le_abs_sub ((coord p.1 c).val : ℝ) (σ * s c)
      rw [sa] at this
      nlinarith [pos c]
    have b2 : 0.995 * s c ≤ |((coord p.1 c).val : ℝ)| := by
      have := abs_sub_abs_le_abs_sub (σ * s c) ((coord p.1 c).val : ℝ)
      rw [sa, abs_sub_comm] at this
      nlinarith [pos c]
    have rb : |![(Q * axisQ c * Q⁻¹).imI, (Q * axisQ c * Q⁻¹).imJ, (Q * axisQ c * Q⁻¹).imK] r| ≤ 1 := by
      obtain ⟨-, p0, p1, p2⟩ := abs_part_le (Q * axisQ c * Q⁻¹)
      rw [norm_turned hQ] at p0 p1 p2
      fin_cases r
      · exact p0
      · exact p1
      · exact p2
    have m := near_scaled (cast c r) (sc c).1 (rb.trans (by norm_num)) (by linarith)
      (by have := (hs c).1; refine le_trans ?_ b2; norm_num at *; linarith)
      (by have := (hs c).2; refine b1.trans ?_; norm_num at *; linarith)
    have me : |((entry M c.castSucc r.castSucc).val : ℝ) -
        ![(Q * axisQ c * Q⁻¹).imI, (Q * axisQ c * Q⁻¹).imJ, (Q * axisQ c * Q⁻¹).imK] r * (σ * s c)| ≤ δ * s c := by
      obtain ⟨-, p0, p1, p2⟩ := abs_part_le (vecQ (fun r => ((entry M c.castSucc r.castSucc).val : ℝ)) - (σ * s c) • (Q * axisQ c * Q⁻¹))
      rw [imI_sub, imI_smul, smul_eq_mul, mul_comm _ (Q * axisQ c * Q⁻¹).imI] at p0
      rw [imJ_sub, imJ_smul, smul_eq_mul, mul_comm _ (Q * axisQ c * Q⁻¹).imJ] at p1
      rw [imK_sub, imK_smul, smul_eq_mul, mul_comm _ (Q * axisQ c * Q⁻¹).imK] at p2
      have := h c
      fin_cases r
      · exact p0.trans this
      · exact p1.trans this
      · exact p2.trans this
    refine ⟨m.1, ?_⟩
    have m2 := m.2
    generalize ![(Q * axisQ c * Q⁻¹).imI, (Q * axisQ c * Q⁻¹).imJ, (Q * axisQ c * Q⁻¹).imK] r = R at *
    have k : |R * (coord p.1 c).val - R * (σ * s c)| ≤ (δ + 5 / 2 ^ 24) * s c := by
      rw [← mul_sub, abs_mul]
      exact (mul_le_of_le_one_left (abs_nonneg _) rb).trans ss
    have t1 := abs_sub_le ((entry (Quat.mat3_cast p.2.1) c r * coord p.1 c).val : ℝ) (R * (coord p.1 c).val) (entry M c.castSucc r.castSucc).val
    have t2 := abs_sub_le (R * ((coord p.1 c).val : ℝ)) (R * (σ * s c)) (entry M c.castSucc r.castSucc).val
    rw [abs_sub_comm] at me
    have big : (50.4 * δ + 302.4 / 2 ^ 24 + 1.3 / 2 ^ 24) * |((coord p.1 c).val : ℝ)| ≤
        (50.4 * δ + 302.4 / 2 ^ 24 + 1.3 / 2 ^ 24) * (1.005 * s c) := by gcongr
    have fin : (50.4 * δ + 302.4 / 2 ^ 24 + 1.3 / 2 ^ 24) * (1.005 * s c) + ((δ + 5 / 2 ^ 24) * s c + δ * s c) ≤
        (53 * δ + 320 / 2 ^ 24) * s c := by
      have := mul_nonneg d0 (pos c).le
      have := (pos c).le
      norm_num
      nlinarith
    linarith
  · have := e2 r
    rw [C113_translation] at this
    exact same_beq this (hf 3 r)
  · refine same_beq (e3 c) ?_
    split_ifs
    · exact isFin_lit_one
    · exact isFin_lit_zero

/-! ### The hypotheses are met -/

/-- Non-vacuity: a third of a turn about (1, 1, 1), scaled by (2, 3, 4) and moved by (5, 6, 7), -/
example := C113_parts ⟨lit 5, lit 6, lit 7⟩ ⟨lit 2, lit 3, lit 4⟩ third Quat.default (fun i => by fin_cases i <;> decide +kernel)
  third_norm.1 (by rw [third_norm.2]; norm_num) (fun i => by fin_cases i <;> decide +kernel) 1 (.inl rfl) (fun c => by
    have h2 : (lit 2 : F32).val = 2 := by decide +kernel
    have h3 : (lit 3 : F32).val = 3 := by decide +kernel
    have h4 : (lit 4 : F32).val = 4 := by decide +kernel
    fin_cases c
    · change _ ≤ 1 * ((lit 2 : F32).val : ℝ) ∧ 1 * ((lit 2 : F32).val : ℝ) ≤ _; rw [h2]; norm_num
    · change _ ≤ 1 * ((lit 3 : F32).val : ℝ) ∧ 1 * ((lit 3 : F32).val : ℝ) ≤ _; rw [h3]; norm_num
    · change _ ≤ 1 * ((lit 4 : F32).val : ℝ) ∧ 1 * ((lit 4 : F32).val : ℝ) ≤ _; rw [h4]; norm_num)

/-- the same rotation written as a matrix, with the scales -2, -3, -4 and the translation (5, 6, 7), -/
def mirrored : M4 F32 :=
  ⟨⟨lit 0, lit (-2), lit 0, lit 0⟩, ⟨lit 0, lit 0, lit (-3), lit 0⟩, ⟨lit (-4), lit 0, lit 0, lit 0⟩, ⟨lit 5, lit 6, lit 7, lit 1⟩⟩

/-- meets the hypotheses of `C113_decompose` and `C113_recompose` with `σ = -1` and `δ = 0`. -/
example (orientation0 : Quat F32) := C113_recompose mirrored orientation0 (exactQ third) (-1) 0 ![2, 3, 4] third_norm.2 (.inr rfl)
  (fun c r => by fin_cases c <;> fin_cases r <;> decide +kernel) (fun c => by fin_cases c <;> norm_num) (fun c => by
    have h0 : ((lit 0 : F32).val : ℝ) = 0 := by rw [val_lit_zero]; norm_num
    have h2 : ((lit (-2) : F32).val : ℝ) = -2 := by rw [show (lit (-2) : F32).val = -2 by decide +kernel]; norm_num
    have h3 : ((lit (-3) : F32).val : ℝ) = -3 := by rw [show (lit (-3) : F32).val = -3 by decide +kernel]; norm_num
    have h4 : ((lit (-4) : F32).val : ℝ) = -4 := by rw [show (lit (-4) : F32).val = -4 by decide +kernel]; norm_num
    have hh : ((lit 0.5 : F32).val : ℝ) = 1 / 2 := by rw [show (lit 0.5 : F32).val = 1 / 2 by decide +kernel]; norm_num
    have inv : (exactQ third)⁻¹ = star (exactQ third) := by
      rw [Quaternion.instInv]
      change (normSq (exactQ third))⁻¹ • star (exactQ third) = _
      rw [normSq_eq_norm_mul_self, third_norm.2, mul_one, inv_one, one_smul]
    rw [zero_mul, norm_le_zero_iff, inv]
    fin_cases c <;> apply Quaternion.ext <;>
      simp only [re_sub, imI_sub, imJ_sub, imK_sub, re_smul, imI_smul, imJ_smul, imK_smul, re_mul, imI_mul, imJ_mul, imK_mul,
        re_star, imI_star, imJ_star, imK_star, re_zero, imI_zero, imJ_zero, imK_zero] <;>
      simp [vecQ, axisQ, exactQ, third, mirrored, entry, coord, h0, h2, h3, h4, hh] <;> norm_num) (by norm_num)

end Zcm
