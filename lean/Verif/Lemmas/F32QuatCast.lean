import Verif.Lemmas.F32Rotate
import Verif.Lemmas.F32Correct
import Verif.Lemmas.F32Proj

/-!
# Quaternions from rotation matrices in binary32: running error analysis
-/

set_option exponentiation.threshold 300

namespace Zcm

open Quaternion F32

theorem near_close {x : F32} {r e M : ℝ} (h : Near x r e) (hM : |r| ≤ M) : Close x r 1 M e :=
  ⟨h.1, by rw [mul_one]; exact hM, by rw [mul_one]; exact h.2⟩

theorem close_near {x : F32} {r e M : ℝ} (h : Close x r 1 M e) : Near x r e := ⟨h.fin, by have := h.err; rwa [mul_one] at this⟩

theorem lt_val_of_lt {a b : F32} (h : a < b) : (a.val : ℝ) < b.val := by
  have h := h.2.2
  have e : a.val < b.val := by
    unfold val
    have : (a.key : ℚ) < b.key := by exact_mod_cast h
    gcongr
  exact_mod_cast e

theorem le_val_of_not_lt {a b : F32} (ha : a.IsFin = true) (hb : b.IsFin = true) (h : ¬ a < b) : (b.val : ℝ) ≤ a.val := by
  have e : b.val ≤ a.val := by
    by_contra hc
    apply h
    refine ⟨?_, ?_, ?_⟩
    · rintro rfl; cases ha
    · rintro rfl; cases hb
    · by_contra hk
      apply hc
      unfold val
      have : (b.key : ℚ) ≤ a.key := by exact_mod_cast not_lt.1 hk
      gcongr
  exact_mod_cast e

/-- the square root of a nearby number -/
theorem near_sqrt {x : F32} {B E : ℝ} (h : Near x (4 * B ^ 2) E) (hB : 0.48 ≤ B) (hB' : B ≤ 1) (hE : E ≤ 0.05) :
    Near (F.sqrt x) (2 * B) (0.54 * E + 2.1 / 2 ^ 24) := by
  obtain ⟨f, e⟩ := h
  obtain ⟨v, hv⟩ : ∃ v : ℝ, v = x.val := ⟨_, rfl⟩
  rw [← hv] at e
  have e' := abs_le.1 e
  have B2 : 0.2304 ≤ B ^ 2 := by nlinarith
  have B3 : B ^ 2 ≤ 1 := by nlinarith
  have v0 : 0.87 ≤ v := by linarith
  have v1 : v ≤ 4.06 := by linarith
  have c := sqrt_correct f (by have : (0 : ℝ) ≤ x.val := by linarith
                               exact_mod_cast this)
  rw [← hv] at c
  have s0 := Real.sqrt_nonneg v
  have ss : Real.sqrt v * Real.sqrt v = v := Real.mul_self_sqrt (by linarith)
  obtain ⟨s, hs⟩ : ∃ s : ℝ, s = Real.sqrt v := ⟨_, rfl⟩
  rw [← hs] at c s0 ss
  have s1 : 0.93 ≤ s := by nlinarith
  have s2 : s ≤ 2.02 := by nlinarith
  obtain ⟨fr, er⟩ := c.rel (by rw [abs_of_nonneg s0]; norm_num at *; linarith) (by rw [abs_of_nonneg s0]; norm_num at *; linarith)
  refine ⟨fr, ?_⟩
  rw [abs_of_nonneg s0] at er
  have k : |s - 2 * B| ≤ 0.54 * E := by
    have m : (s - 2 * B) * (s + 2 * B) = v - 4 * B ^ 2 := by rw [← ss]; ring
    have a : |s - 2 * B| * (s + 2 * B) ≤ E := by
      rw [← abs_of_nonneg (show 0 ≤ s + 2 * B by linarith), ← abs_mul, m]
      exact e
    nlinarith [abs_nonneg (s - 2 * B)]
  have := abs_sub_le ((F.sqrt x).val : ℝ) s (2 * B)
  have e2 : |((F.sqrt x).val : ℝ) - s| ≤ 2.02 / 2 ^ 24 := er.trans (by linarith)
  linarith

theorem lit_half_val : (lit 0.5 : F32).IsFin = true ∧ (((lit 0.5 : F32).val : ℚ) : ℝ) = 0.5 := by
  have h : (lit 0.5 : F32).IsFin = true ∧ (lit 0.5 : F32).val = 0.5 := ⟨by decide +kernel, by decide +kernel⟩
  exact ⟨h.1, by rw [h.2]; norm_num⟩

theorem lit_quarter_val : (lit 0.25 : F32).IsFin = true ∧ (((lit 0.25 : F32).val : ℚ) : ℝ) = 0.25 := by
  have h : (lit 0.25 : F32).IsFin = true ∧ (lit 0.25 : F32).val = 0.25 := ⟨by decide +kernel, by decide +kernel⟩
  exact ⟨h.1, by rw [h.2]; norm_num⟩

/-- the largest component -/
theorem near_biggest {f : F32} {B δ : ℝ} (h : Near f (4 * B ^ 2 - 1) (3 * δ + 5.2 / 2 ^ 24)) (hB : 0.48 ≤ B) (hB' : B ≤ 1)
    (h0 : 0 ≤ δ) (hd : δ ≤ 1 / 64) : Near (F.sqrt (f + lit 1) * lit 0.5) B (0.82 * δ + 5 / 2 ^ 24) := by
  have B2 : 0.2304 ≤ B ^ 2 := by nlinarith
  have B3 : B ^ 2 ≤ 1 := by nlinarith
  have c := near_close h (M := 3) (by rw [abs_le]; constructor <;> linarith)
  have one : Close (lit 1 : F32) 1 1 1 0 := ⟨lit_one_real.1, by norm_num, by rw [lit_one_real.2]; norm_num⟩
  have a := close_near (c.add one zero_le_one (by norm_num) (by linarith))
  rw [sub_add_cancel] at a
  have a' := a.mono (f := 3 * δ + 9.4 / 2 ^ 24) (by linarith)
  have s := near_close (near_sqrt a' hB hB' (by linarith)) (M := 2) (by rw [abs_le]; constructor <;> linarith)
  have hf : Close (lit 0.5 : F32) 0.5 1 0.5 0 := ⟨lit_half_val.1, by norm_num, by rw [lit_half_val.2]; norm_num⟩
  have m := s.mul hf zero_le_one zero_le_one (by linarith) (by norm_num) (by norm_num) le_rfl (by norm_num)
    (by norm_num) (by linarith)
  rw [one_mul, show 2 * B * 0.5 = B by ring] at m
  exact (close_near m).mono (by linarith)

/-- the factor of the other components -/
theorem near_mult {b : F32} {B e : ℝ} (h : Near b B e) (hB : 0.48 ≤ B) (hB' : B ≤ 1) (h0 : 0 ≤ e) (he : e ≤ 0.014) :
    Near (lit 0.25 / b) (0.25 / B) (1.12 * e + 0.55 / 2 ^ 24) := by
  obtain ⟨f, er⟩ := h
  obtain ⟨v, hv⟩ : ∃ v : ℝ, v = b.val := ⟨_, rfl⟩
  rw [← hv] at er
  have e' := abs_le.1 er
  have v0 : 0.466 ≤ v := by linarith
  have v1 : v ≤ 1.014 := by linarith
  have c := div_correct lit_quarter_val.1 f (by intro h; rw [h] at hv; norm_num at hv; linarith)
  rw [← hv, lit_quarter_val.2] at c
  have q0 : 0.2 ≤ 0.25 / v := by rw [le_div_iff₀ (by linarith)]; linarith
  have q1 : 0.25 / v ≤ 0.54 := by rw [div_le_iff₀ (by linarith)]; linarith
  have k : |0.25 / v - 0.25 / B| ≤ 1.12 * e := by
    rw [div_sub_div _ _ (by linarith) (by linarith), abs_div, abs_of_nonneg (show 0 ≤ v * B by nlinarith),
      div_le_iff₀ (by nlinarith)]
    have m : |0.25 * B - v * 0.25| = 0.25 * |v - B| := by
      rw [abs_sub_comm, show v * 0.25 - 0.25 * B = 0.25 * (v - B) by ring, abs_mul, abs_of_nonneg (by norm_num : (0 : ℝ) ≤ 0.25)]
    rw [m]
    have : 0.466 * 0.48 ≤ v * B := by gcongr
    nlinarith
  generalize 0.25 / v = r at *
  obtain ⟨fr, er⟩ := c.rel (by rw [abs_of_nonneg (by linarith)]; norm_num at *; linarith)
    (by rw [abs_of_nonneg (by linarith)]; norm_num at *; linarith)
  refine ⟨fr, ?_⟩
  rw [abs_of_nonneg (show 0 ≤ r by linarith)] at er
  have := abs_sub_le ((lit 0.25 / b).val : ℝ) r (0.25 / B)
  linarith

/-- another component -/
theorem near_other {d u : F32} {B X δ : ℝ} (hd : Near d (4 * B * X) (2 * δ + 2.1 / 2 ^ 24))
    (hu : Near u (0.25 / B) (0.92 * δ + 6.2 / 2 ^ 24)) (hB : 0.48 ≤ B) (hX : B ^ 2 + X ^ 2 ≤ 1) (h0 : 0 ≤ δ) (h1 : δ ≤ 1 / 64) :
    Near (d * u) X (3 * δ + 15 / 2 ^ 24) := by
  have x1 : |4 * B * X| ≤ 2 := by
    rw [abs_le]; constructor <;> nlinarith [sq_nonneg (B - X), sq_nonneg (B + X)]
  have u1 : |0.25 / B| ≤ 0.53 := by
    rw [abs_of_nonneg (by positivity), div_le_iff₀ (by linarith)]; linarith
  have m := (near_close hd x1).mul (near_close hu u1) zero_le_one zero_le_one (by linarith) (by norm_num) (by norm_num)
    (by linarith) (by norm_num) (by norm_num) (by nlinarith)
  rw [one_mul, show 4 * B * X * (0.25 / B) = X by field_simp; ring] at m
  refine (close_near m).mono ?_
  have : δ * δ ≤ 1 / 64 * δ := by gcongr
  nlinarith

/-- all four components when the largest one has been found -/
theorem cast_branch {f d1 d2 d3 : F32} {B X Y Z δ : ℝ} (hf : Near f (4 * B ^ 2 - 1) (3 * δ + 5.2 / 2 ^ 24))
    (h1 : Near d1 (4 * B * X) (2 * δ + 2.1 / 2 ^ 24)) (h2 : Near d2 (4 * B * Y) (2 * δ + 2.1 / 2 ^ 24))
    (h3 : Near d3 (4 * B * Z) (2 * δ + 2.1 / 2 ^ 24)) (hB : 0.48 ≤ B) (hn : B ^ 2 + X ^ 2 + Y ^ 2 + Z ^ 2 = 1)
    (h0 : 0 ≤ δ) (hd : δ ≤ 1 / 64) :
    Near (F.sqrt (f + lit 1) * lit 0.5) B (3 * δ + 15 / 2 ^ 24) ∧
    Near (d1 * (lit 0.25 / (F.sqrt (f + lit 1) * lit 0.5))) X (3 * δ + 15 / 2 ^ 24) ∧
    Near (d2 * (lit 0.25 / (F.sqrt (f + lit 1) * lit 0.5))) Y (3 * δ + 15 / 2 ^ 24) ∧
    Near (d3 * (lit 0.25 / (F.sqrt (f + lit 1) * lit 0.5))) Z (3 * δ + 15 / 2 ^ 24) := by
  have B1 : B ≤ 1 := by nlinarith [sq_nonneg X, sq_nonneg Y, sq_nonneg Z]
  have b := near_biggest hf hB B1 h0 hd
  have u := (near_mult b hB B1 (by linarith) (by linarith)).mono (f := 0.92 * δ + 6.2 / 2 ^ 24) (by linarith)
  exact ⟨b.mono (by linarith), near_other h1 u hB (by nlinarith [sq_nonneg Y, sq_nonneg Z]) h0 hd,
    near_other h2 u hB (by nlinarith [sq_nonneg X, sq_nonneg Z]) h0 hd,
    near_other h3 u hB (by nlinarith [sq_nonneg X, sq_nonneg Y]) h0 hd⟩

/-- the matrix of an exact unit quaternion -/
theorem unit_columns {Q : ℍ[ℝ]} (h : ‖Q‖ = 1) (c : Fin 3) :
    Q * axisQ c * Q⁻¹ = ![
      ⟨0, Q.re ^ 2 + Q.imI ^ 2 - Q.imJ ^ 2 - Q.imK ^ 2, 2 * (Q.imI * Q.imJ + Q.re * Q.imK), 2 * (Q.imI * Q.imK - Q.re * Q.imJ)⟩,
      ⟨0, 2 * (Q.imI * Q.imJ - Q.re * Q.imK), Q.re ^ 2 - Q.imI ^ 2 + Q.imJ ^ 2 - Q.imK ^ 2, 2 * (Q.imJ * Q.imK + Q.re * Q.imI)⟩,
      ⟨0, 2 * (Q.imI * Q.imK + Q.re * Q.imJ), 2 * (Q.imJ * Q.imK - Q.re * Q.imI), Q.re ^ 2 - Q.imI ^ 2 - Q.imJ ^ 2 + Q.imK ^ 2⟩] c := by
  have i : Q⁻¹ = star Q := by rw [Quaternion.inv_def, normSq_eq_norm_mul_self, h]; simp
  rw [i]
  ext
  · rw [re_mul, re_mul, imI_mul, imJ_mul, imK_mul, re_star, imI_star, imJ_star, imK_star]
    fin_cases c <;> simp [axisQ] <;> ring
  · rw [imI_mul, re_mul, imI_mul, imJ_mul, imK_mul, re_star, imI_star, imJ_star, imK_star]
    fin_cases c <;> simp [axisQ] <;> ring
  · rw [imJ_mul, re_mul, imI_mul, imJ_mul, imK_mul, re_star, imI_star, imJ_star, imK_star]
    fin_cases c <;> simp [axisQ] <;> ring
  · rw [imK_mul, re_mul, imI_mul, imJ_mul, imK_mul, re_star, imI_star, imJ_star, imK_star]
    fin_cases c <;> simp [axisQ] <;> ring

theorem abs_part_le (q : ℍ[ℝ]) : |q.re| ≤ ‖q‖ ∧ |q.imI| ≤ ‖q‖ ∧ |q.imJ| ≤ ‖q‖ ∧ |q.imK| ≤ ‖q‖ :=
  coord_le4 (norm_nonneg _) (norm_sq_quat q)

theorem near_entries {m : M3 F32} {Q : ℍ[ℝ]} {δ : ℝ} (hf : ∀ c r, (entry m c r).IsFin = true)
    (hm : ∀ c, ‖exactColumn m c - Q * axisQ c * Q⁻¹‖ ≤ δ) (c : Fin 3) :
    Near (entry m c 0) (Q * axisQ c * Q⁻¹).imI δ ∧ Near (entry m c 1) (Q * axisQ c * Q⁻¹).imJ δ ∧
    Near (entry m c 2) (Q * axisQ c * Q⁻¹).imK δ := by
  obtain ⟨-, a, b, d⟩ := abs_part_le (exactColumn m c - Q * axisQ c * Q⁻¹)
  exact ⟨⟨hf c 0, a.trans (hm c)⟩, ⟨hf c 1, b.trans (hm c)⟩, ⟨hf c 2, d.trans (hm c)⟩⟩

theorem near_add2 {a b : F32} {r s δ : ℝ} (ha : Near a r δ) (hb : Near b s δ) (hr : |r| ≤ 1) (hs : |s| ≤ 1)
    (h1 : δ ≤ 1 / 64) : Near (a + b) (r + s) (2 * δ + 2.1 / 2 ^ 24) :=
  (close_near ((near_close ha hr).add (near_close hb hs) zero_le_one (by norm_num) (by linarith))).mono (by linarith)

theorem near_sub2 {a b : F32} {r s δ : ℝ} (ha : Near a r δ) (hb : Near b s δ) (hr : |r| ≤ 1) (hs : |s| ≤ 1)
    (h1 : δ ≤ 1 / 64) : Near (a - b) (r - s) (2 * δ + 2.1 / 2 ^ 24) :=
  (close_near ((near_close ha hr).sub (near_close hb hs) zero_le_one (by norm_num) (by linarith))).mono (by linarith)

theorem near_add3 {a b c : F32} {r s t δ : ℝ} (ha : Near a r δ) (hb : Near b s δ) (hc : Near c t δ) (hr : |r| ≤ 1)
    (hs : |s| ≤ 1) (ht : |t| ≤ 1) (h1 : δ ≤ 1 / 64) :
    Near (a + b + c) (r + s + t) (3 * δ + 5.2 / 2 ^ 24) := by
  have m := (near_close ha hr).add (near_close hb hs) zero_le_one (by norm_num) (by linarith)
  exact (close_near (m.add (near_close hc ht) zero_le_one (by norm_num) (by linarith))).mono (by linarith)

theorem near_sub3 {a b c : F32} {r s t δ : ℝ} (ha : Near a r δ) (hb : Near b s δ) (hc : Near c t δ) (hr : |r| ≤ 1)
    (hs : |s| ≤ 1) (ht : |t| ≤ 1) (h1 : δ ≤ 1 / 64) :
    Near (a - b - c) (r - s - t) (3 * δ + 5.2 / 2 ^ 24) := by
  have m := (near_close ha hr).sub (near_close hb hs) zero_le_one (by norm_num) (by linarith)
  exact (close_near (m.sub (near_close hc ht) zero_le_one (by norm_num) (by linarith))).mono (by linarith)

/-- the largest of four numbers whose squares add up to one -/
theorem largest {a b c d e f0 f1 f2 f3 : ℝ} (hn : a ^ 2 + b ^ 2 + c ^ 2 + d ^ 2 = 1) (ha : |f0 - (4 * a ^ 2 - 1)| ≤ e)
    (hb : |f1 - (4 * b ^ 2 - 1)| ≤ e) (hc : |f2 - (4 * c ^ 2 - 1)| ≤ e) (hd : |f3 - (4 * d ^ 2 - 1)| ≤ e) (he : e ≤ 0.0475)
    (h1 : f1 ≤ f0) (h2 : f2 ≤ f0) (h3 : f3 ≤ f0) : 0.48 ≤ |a| := by
  rw [abs_le] at ha hb hc hd
  have : 0.48 ^ 2 ≤ a ^ 2 := by linarith
  rw [← abs_of_nonneg (by norm_num : (0 : ℝ) ≤ 0.48)]
  exact sq_le_sq.1 this

/-- `cast_branch` whichever sign the largest component has -/
theorem cast_signed {f d1 d2 d3 : F32} {B X Y Z δ : ℝ} (hf : Near f (4 * B ^ 2 - 1) (3 * δ + 5.2 / 2 ^ 24))
    (h1 : Near d1 (4 * B * X) (2 * δ + 2.1 / 2 ^ 24)) (h2 : Near d2 (4 * B * Y) (2 * δ + 2.1 / 2 ^ 24))
    (h3 : Near d3 (4 * B * Z) (2 * δ + 2.1 / 2 ^ 24)) (hB : 0.48 ≤ |B|) (hn : B ^ 2 + X ^ 2 + Y ^ 2 + Z ^ 2 = 1)
    (h0 : 0 ≤ δ) (hd : δ ≤ 1 / 64) : ∃ s : ℝ, (s = 1 ∨ s = -1) ∧
    Near (F.sqrt (f + lit 1) * lit 0.5) (s * B) (3 * δ + 15 / 2 ^ 24) ∧
    Near (d1 * (lit 0.25 / (F.sqrt (f + lit 1) * lit 0.5))) (s * X) (3 * δ + 15 / 2 ^ 24) ∧
    Near (d2 * (lit 0.25 / (F.sqrt (f + lit 1) * lit 0.5))) (s * Y) (3 * δ + 15 / 2 ^ 24) ∧
    Near (d3 * (lit 0.25 / (F.sqrt (f + lit 1) * lit 0.5))) (s * Z) (3 * δ + 15 / 2 ^ 24) := by
  rcases le_total 0 B with b | b
  · rw [abs_of_nonneg b] at hB
    refine ⟨1, Or.inl rfl, ?_⟩
    simp only [one_mul]
    exact cast_branch hf h1 h2 h3 hB hn h0 hd
  · rw [abs_of_nonpos b] at hB
    refine ⟨-1, Or.inr rfl, ?_⟩
    simp only [neg_one_mul]
    have e : ∀ T : ℝ, 4 * B * T = 4 * -B * -T := fun T => by ring
    rw [e] at h1 h2 h3
    exact cast_branch (by rwa [neg_sq]) h1 h2 h3 hB (by simpa only [neg_sq] using hn) h0 hd

theorem norm_sub_le_of_near {q : Quat F32} {Q : ℍ[ℝ]} {s e : ℝ} (hs : s = 1 ∨ s = -1)
    (hw : Near q.w (s * Q.re) e) (hx : Near q.x (s * Q.imI) e) (hy : Near q.y (s * Q.imJ) e) (hz : Near q.z (s * Q.imK) e) :
    q.Finite ∧ (‖exactQ q - Q‖ ≤ 2 * e ∨ ‖exactQ q + Q‖ ≤ 2 * e) := by
  refine ⟨fun i => by fin_cases i <;> [exact hx.1; exact hy.1; exact hz.1; exact hw.1], ?_⟩
  have e0 : 0 ≤ e := (abs_nonneg _).trans hw.2
  have sq : ∀ {t : ℝ}, |t| ≤ e → t ^ 2 ≤ e ^ 2 := fun h => sq_le_sq.2 (by rwa [abs_of_nonneg e0])
  have key : ∀ P : ℍ[ℝ], |P.re| ≤ e → |P.imI| ≤ e → |P.imJ| ≤ e → |P.imK| ≤ e → ‖P‖ ≤ 2 * e := by
    intro P a b c d
    refine le_of_sq_le_sq ?_ (by linarith)
    rw [norm_sq_quat]
    have := sq a; have := sq b; have := sq c; have := sq d
    linarith
  rcases hs with rfl | rfl
  · left
    simp only [one_mul] at hw hx hy hz
    exact key _ hw.2 hx.2 hy.2 hz.2
  · right
    simp only [neg_one_mul, sub_neg_eq_add] at hw hx hy hz
    refine key _ ?_ ?_ ?_ ?_
    · have := hw.2; rwa [sub_neg_eq_add] at this
    · have := hx.2; rwa [sub_neg_eq_add] at this
    · have := hy.2; rwa [sub_neg_eq_add] at this
    · have := hz.2; rwa [sub_neg_eq_add] at this

/-- the four cases of `quat_cast` -/
theorem quat_cast_cases (m : M3 F32) {P : Quat F32 → Prop}
    (fW : (m.c0.x + m.c1.y + m.c2.z).IsFin = true) (fX : (m.c0.x - m.c1.y - m.c2.z).IsFin = true)
    (fY : (m.c1.y - m.c0.x - m.c2.z).IsFin = true) (fZ : (m.c2.z - m.c0.x - m.c1.y).IsFin = true)
    (h0 : ((m.c0.x - m.c1.y - m.c2.z).val : ℝ) ≤ (m.c0.x + m.c1.y + m.c2.z).val →
      ((m.c1.y - m.c0.x - m.c2.z).val : ℝ) ≤ (m.c0.x + m.c1.y + m.c2.z).val →
      ((m.c2.z - m.c0.x - m.c1.y).val : ℝ) ≤ (m.c0.x + m.c1.y + m.c2.z).val →
      P (let b := F.sqrt (m.c0.x + m.c1.y + m.c2.z + lit 1) * lit 0.5
         let u := lit 0.25 / b
         Quat.wxyz b ((m.c1.z - m.c2.y) * u) ((m.c2.x - m.c0.z) * u) ((m.c0.y - m.c1.x) * u)))
    (h1 : ((m.c0.x + m.c1.y + m.c2.z).val : ℝ) ≤ (m.c0.x - m.c1.y - m.c2.z).val →
      ((m.c1.y - m.c0.x - m.c2.z).val : ℝ) ≤ (m.c0.x - m.c1.y - m.c2.z).val →
      ((m.c2.z - m.c0.x - m.c1.y).val : ℝ) ≤ (m.c0.x - m.c1.y - m.c2.z).val →
      P (let b := F.sqrt (m.c0.x - m.c1.y - m.c2.z + lit 1) * lit 0.5
         let u := lit 0.25 / b
         Quat.wxyz ((m.c1.z - m.c2.y) * u) b ((m.c0.y + m.c1.x) * u) ((m.c2.x + m.c0.z) * u)))
    (h2 : ((m.c0.x + m.c1.y + m.c2.z).val : ℝ) ≤ (m.c1.y - m.c0.x - m.c2.z).val →
      ((m.c0.x - m.c1.y - m.c2.z).val : ℝ) ≤ (m.c1.y - m.c0.x - m.c2.z).val →
      ((m.c2.z - m.c0.x - m.c1.y).val : ℝ) ≤ (m.c1.y - m.c0.x - m.c2.z).val →
      P (let b := F.sqrt (m.c1.y - m.c0.x - m.c2.z + lit 1) * lit 0.5
         let u := lit 0.25 / b
         Quat.wxyz ((m.c2.x - m.c0.z) * u) ((m.c0.y + m.c1.x) * u) b ((m.c1.z + m.c2.y) * u)))
    (h3 : ((m.c0.x + m.c1.y + m.c2.z).val : ℝ) ≤ (m.c2.z - m.c0.x - m.c1.y).val →
      ((m.c0.x - m.c1.y - m.c2.z).val : ℝ) ≤ (m.c2.z - m.c0.x - m.c1.y).val →
      ((m.c1.y - m.c0.x - m.c2.z).val : ℝ) ≤ (m.c2.z - m.c0.x - m.c1.y).val →
      P (let b := F.sqrt (m.c2.z - m.c0.x - m.c1.y + lit 1) * lit 0.5
         let u := lit 0.25 / b
         Quat.wxyz ((m.c0.y - m.c1.x) * u) ((m.c2.x + m.c0.z) * u) ((m.c1.z + m.c2.y) * u) b)) :
    P (M3.quat_cast m) := by
  unfold M3.quat_cast
  dsimp only
  generalize m.c0.x + m.c1.y + m.c2.z = w at *
  generalize m.c0.x - m.c1.y - m.c2.z = x at *
  generalize m.c1.y - m.c0.x - m.c2.z = y at *
  generalize m.c2.z - m.c0.x - m.c1.y = z at *
  by_cases c1 : x > w
  · have l1 := (lt_val_of_lt c1).le
    rw [if_pos c1]
    by_cases c2 : y > x
    · have l2 := (lt_val_of_lt c2).le
      rw [if_pos c2]
      by_cases c3 : z > y
      · have l3 := (lt_val_of_lt c3).le
        rw [if_pos c3]
        exact h3 (by linarith) (by linarith) l3
      · have l3 := le_val_of_not_lt fY fZ c3
        rw [if_neg c3]
        exact h2 (by linarith) l2 l3
    · have l2 := le_val_of_not_lt fX fY c2
      rw [if_neg c2]
      by_cases c3 : z > x
      · have l3 := (lt_val_of_lt c3).le
        rw [if_pos c3]
        exact h3 (by linarith) l3 (by linarith)
      · have l3 := le_val_of_not_lt fX fZ c3
        rw [if_neg c3]
        exact h1 l1 l2 l3
  · have l1 := le_val_of_not_lt fW fX c1
    rw [if_neg c1]
    by_cases c2 : y > w
    · have l2 := (lt_val_of_lt c2).le
      rw [if_pos c2]
      by_cases c3 : z > y
      · have l3 := (lt_val_of_lt c3).le
        rw [if_pos c3]
        exact h3 (by linarith) (by linarith) l3
      · have l3 := le_val_of_not_lt fY fZ c3
        rw [if_neg c3]
        exact h2 l2 (by linarith) l3
    · have l2 := le_val_of_not_lt fW fY c2
      rw [if_neg c2]
      by_cases c3 : z > w
      · have l3 := (lt_val_of_lt c3).le
        rw [if_pos c3]
        exact h3 l3 (by linarith) (by linarith)
      · have l3 := le_val_of_not_lt fW fZ c3
        rw [if_neg c3]
        exact h0 l1 l2 l3

theorem col0 {Q : ℍ[ℝ]} (h : ‖Q‖ = 1) : (Q * axisQ 0 * Q⁻¹).imI = Q.re ^ 2 + Q.imI ^ 2 - Q.imJ ^ 2 - Q.imK ^ 2 ∧
    (Q * axisQ 0 * Q⁻¹).imJ = 2 * (Q.imI * Q.imJ + Q.re * Q.imK) ∧ (Q * axisQ 0 * Q⁻¹).imK = 2 * (Q.imI * Q.imK - Q.re * Q.imJ) := by
  rw [unit_columns h]; exact ⟨rfl, rfl, rfl⟩

theorem col1 {Q : ℍ[ℝ]} (h : ‖Q‖ = 1) : (Q * axisQ 1 * Q⁻¹).imI = 2 * (Q.imI * Q.imJ - Q.re * Q.imK) ∧
    (Q * axisQ 1 * Q⁻¹).imJ = Q.re ^ 2 - Q.imI ^ 2 + Q.imJ ^ 2 - Q.imK ^ 2 ∧ (Q * axisQ 1 * Q⁻¹).imK = 2 * (Q.imJ * Q.imK + Q.re * Q.imI) := by
  rw [unit_columns h]; exact ⟨rfl, rfl, rfl⟩

theorem col2 {Q : ℍ[ℝ]} (h : ‖Q‖ = 1) : (Q * axisQ 2 * Q⁻¹).imI = 2 * (Q.imI * Q.imK + Q.re * Q.imJ) ∧
    (Q * axisQ 2 * Q⁻¹).imJ = 2 * (Q.imJ * Q.imK - Q.re * Q.imI) ∧ (Q * axisQ 2 * Q⁻¹).imK = Q.re ^ 2 - Q.imI ^ 2 - Q.imJ ^ 2 + Q.imK ^ 2 := by
  rw [unit_columns h]; exact ⟨rfl, rfl, rfl⟩

theorem norm_axisQ (c : Fin 3) : ‖axisQ c‖ = 1 := by
  rw [← sq_eq_sq₀ (norm_nonneg _) (by norm_num), norm_sq_quat]
  fin_cases c <;> simp [axisQ]

theorem norm_turned {Q : ℍ[ℝ]} (h : ‖Q‖ = 1) (c : Fin 3) : ‖Q * axisQ c * Q⁻¹‖ = 1 := by
  rw [norm_mul, norm_mul, norm_inv, h, norm_axisQ]; norm_num

private theorem Near.cg {x : F32} {r s e : ℝ} (h : Near x r e) (hs : r = s) : Near x s e := hs ▸ h

theorem quat_cast_near {m : M3 F32} {Q : ℍ[ℝ]} {δ : ℝ} (hQ : ‖Q‖ = 1) (hf : ∀ c r, (entry m c r).IsFin = true)
    (hm : ∀ c, ‖exactColumn m c - Q * axisQ c * Q⁻¹‖ ≤ δ) (hd : δ ≤ 1 / 64) :
    (M3.quat_cast m).Finite ∧
    (‖exactQ (M3.quat_cast m) - Q‖ ≤ 2 * (3 * δ + 15 / 2 ^ 24) ∨ ‖exactQ (M3.quat_cast m) + Q‖ ≤ 2 * (3 * δ + 15 / 2 ^ 24)) := by
  have d0 : 0 ≤ δ := (norm_nonneg _).trans (hm 0)
  have n : Q.re ^ 2 + Q.imI ^ 2 + Q.imJ ^ 2 + Q.imK ^ 2 = 1 := by rw [← norm_sq_quat, hQ]; norm_num
  obtain ⟨a0, a1, a2⟩ := near_entries hf hm 0
  obtain ⟨b0, b1, b2⟩ := near_entries hf hm 1
  obtain ⟨c0, c1, c2⟩ := near_entries hf hm 2
  obtain ⟨-, p0, p1, p2⟩ := abs_part_le (Q * axisQ 0 * Q⁻¹)
  obtain ⟨-, q0, q1, q2⟩ := abs_part_le (Q * axisQ 1 * Q⁻¹)
  obtain ⟨-, r0, r1, r2⟩ := abs_part_le (Q * axisQ 2 * Q⁻¹)
  rw [norm_turned hQ] at p0 p1 p2 q0 q1 q2 r0 r1 r2
  obtain ⟨x0, x1, x2⟩ := col0 hQ
  obtain ⟨y0, y1, y2⟩ := col1 hQ
  obtain ⟨z0, z1, z2⟩ := col2 hQ
  rw [x0] at a0 p0
  rw [x1] at a1 p1
  rw [x2] at a2 p2
  rw [y0] at b0 q0
  rw [y1] at b1 q1
  rw [y2] at b2 q2
  rw [z0] at c0 r0
  rw [z1] at c1 r1
  rw [z2] at c2 r2
  clear x0 x1 x2 y0 y1 y2 z0 z1 z2 hm hf
  change Near m.c0.x _ δ at a0
  change Near m.c0.y _ δ at a1
  change Near m.c0.z _ δ at a2
  change Near m.c1.x _ δ at b0
  change Near m.c1.y _ δ at b1
  change Near m.c1.z _ δ at b2
  change Near m.c2.x _ δ at c0
  change Near m.c2.y _ δ at c1
  change Near m.c2.z _ δ at c2
  have W : Near (m.c0.x + m.c1.y + m.c2.z) (4 * Q.re ^ 2 - 1) _ := (near_add3 a0 b1 c2 p0 q1 r2 hd).cg (by linear_combination -n)
  have X : Near (m.c0.x - m.c1.y - m.c2.z) (4 * Q.imI ^ 2 - 1) _ := (near_sub3 a0 b1 c2 p0 q1 r2 hd).cg (by linear_combination -n)
  have Y : Near (m.c1.y - m.c0.x - m.c2.z) (4 * Q.imJ ^ 2 - 1) _ := (near_sub3 b1 a0 c2 q1 p0 r2 hd).cg (by linear_combination -n)
  have Z : Near (m.c2.z - m.c0.x - m.c1.y) (4 * Q.imK ^ 2 - 1) _ := (near_sub3 c2 a0 b1 r2 p0 q1 hd).cg (by linear_combination -n)
  have wx := near_sub2 b2 c1 q2 r1 hd
  have wy := near_sub2 c0 a2 r0 p2 hd
  have wz := near_sub2 a1 b0 p1 q0 hd
  have xy := near_add2 a1 b0 p1 q0 hd
  have xz := near_add2 c0 a2 r0 p2 hd
  have yz := near_add2 b2 c1 q2 r1 hd
  have e1 : 3 * δ + 5.2 / 2 ^ 24 ≤ 0.0475 := by linarith
  refine quat_cast_cases m (P := fun q => q.Finite ∧ (‖exactQ q - Q‖ ≤ _ ∨ ‖exactQ q + Q‖ ≤ _)) W.1 X.1 Y.1 Z.1 ?_ ?_ ?_ ?_
  · intro l1 l2 l3
    have l := largest n W.2 X.2 Y.2 Z.2 e1 l1 l2 l3
    obtain ⟨s, hs, A, B, C, D⟩ := cast_signed (X := Q.imI) (Y := Q.imJ) (Z := Q.imK) W (wx.cg (by ring)) (wy.cg (by ring))
      (wz.cg (by ring)) l n d0 hd
    exact norm_sub_le_of_near hs A B C D
  · intro l1 l2 l3
    have n' : Q.imI ^ 2 + Q.re ^ 2 + Q.imJ ^ 2 + Q.imK ^ 2 = 1 := by linarith
    have l := largest n' X.2 W.2 Y.2 Z.2 e1 l1 l2 l3
    obtain ⟨s, hs, A, B, C, D⟩ := cast_signed (X := Q.re) (Y := Q.imJ) (Z := Q.imK) X (wx.cg (by ring)) (xy.cg (by ring))
      (xz.cg (by ring)) l n' d0 hd
    exact norm_sub_le_of_near hs B A C D
  · intro l1 l2 l3
    have n' : Q.imJ ^ 2 + Q.re ^ 2 + Q.imI ^ 2 + Q.imK ^ 2 = 1 := by linarith
    have l := largest n' Y.2 W.2 X.2 Z.2 e1 l1 l2 l3
    obtain ⟨s, hs, A, B, C, D⟩ := cast_signed (X := Q.re) (Y := Q.imI) (Z := Q.imK) Y (wy.cg (by ring)) (xy.cg (by ring))
      (yz.cg (by ring)) l n' d0 hd
    exact norm_sub_le_of_near hs B C A D
  · intro l1 l2 l3
    have n' : Q.imK ^ 2 + Q.re ^ 2 + Q.imI ^ 2 + Q.imJ ^ 2 = 1 := by linarith
    have l := largest n' Z.2 W.2 X.2 Y.2 e1 l1 l2 l3
    obtain ⟨s, hs, A, B, C, D⟩ := cast_signed (X := Q.re) (Y := Q.imI) (Z := Q.imJ) Z (wz.cg (by ring)) (xz.cg (by ring))
      (yz.cg (by ring)) l n' d0 hd
    exact norm_sub_le_of_near hs B C D A

end Zcm
