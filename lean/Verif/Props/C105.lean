import Mathlib.Geometry.Euclidean.Angle.Unoriented.Basic
import Verif.Lemmas.F32Refract
import Verif.Props.C81
import Verif.Spec.Coord

/-!
# C105: reflection and refraction in IEEE arithmetic

`exactE (coord v)` is the exact vector the float vector `v` stands for, `NearE` says that a float vector is finite and near
an exact one, and `AboutUnit` that its length is 1 up to `2^-20`.  `mirror` is Mathlib's reflection and `Snell` is the law of
refraction (Spec/Optics.lean).
-/

set_option exponentiation.threshold 300

namespace Zcm

open F32 InnerProductGeometry
open scoped RealInnerProductSpace

/-- What the specification means by the refracted direction: there is exactly one, unless the sine of the refracted angle
would exceed 1. -/
theorem C105_snell {n : ℕ} (I N : EuclideanSpace ℝ (Fin n)) (η : ℝ) (hI : ‖I‖ = 1) (hN : ‖N‖ = 1)
    (h : η * Real.sin (angle I N) ≤ 1) (h0 : 0 ≤ η) : ∃! T, Snell I N η T := by
  have c : ⟪N, I⟫ = Real.cos (angle I N) := by
    have := cos_angle_mul_norm_mul_norm I N
    rw [hI, hN] at this
    rw [real_inner_comm]; linarith
  have s : 1 - ⟪N, I⟫ ^ 2 = Real.sin (angle I N) ^ 2 := by
    rw [c]; linear_combination -Real.sin_sq_add_cos_sq (angle I N)
  have s0 := sin_angle_nonneg I N
  refine ⟨_, snell_exists hI hN ?_, fun T hT => ?_⟩
  · rw [s, ← mul_pow]
    exact pow_le_one₀ (mul_nonneg h0 s0) h
  · obtain ⟨a, -, b, e⟩ := snell_facts hI hN hT
    rw [e, ← b, Real.sqrt_sq a]

private theorem total_of_sine {n : ℕ} {I N : Fin n → F32} {η : ℝ} (hI : AboutUnit I) (hN : AboutUnit N)
    (h : 1 + (1 + η) ^ 2 / 2 ^ 17 ≤ (η * Real.sin (angle (exactE I) (exactE N))) ^ 2) :
    1 + (1 + η) ^ 2 / 2 ^ 17 ≤ η ^ 2 * (1 - ⟪NormedSpace.normalize (exactE N), NormedSpace.normalize (exactE I)⟫ ^ 2) := by
  obtain ⟨-, x2⟩ := aboutUnit_bounds hI
  obtain ⟨-, y2⟩ := aboutUnit_bounds hN
  have xp : 0 < ‖exactE I‖ := by linarith
  have yp : 0 < ‖exactE N‖ := by linarith
  have c : ⟪NormedSpace.normalize (exactE N), NormedSpace.normalize (exactE I)⟫ = Real.cos (angle (exactE I) (exactE N)) := by
    unfold NormedSpace.normalize
    rw [real_inner_smul_left, real_inner_smul_right, real_inner_comm, ← cos_angle_mul_norm_mul_norm]
    field_simp
  rw [c]
  have := Real.sin_sq_add_cos_sq (angle (exactE I) (exactE N))
  have e : η ^ 2 * (1 - Real.cos (angle (exactE I) (exactE N)) ^ 2) = (η * Real.sin (angle (exactE I) (exactE N))) ^ 2 := by
    linear_combination (-(η ^ 2)) * this
  rw [e]
  exact h

private theorem reflect_all {n : ℕ} (hn : n ≤ 4) {d : F32} {I N r : Fin n → F32} (hd : AccurateSum d N I)
    (fI : ∀ i, (I i).IsFin = true) (hN : AboutUnit N) (hI : ‖exactE I‖ ≤ 2 ^ 60) (hr : ∀ i, r i = I i - lit 2 * d * N i) :
    NearE r (exactE I - (2 * ⟪exactE N, exactE I⟫) • exactE N) (16 / 2 ^ 24 * ‖exactE I‖ + 1 / 2 ^ 143) ∧
    NearE r (mirror (exactE N) (exactE I)) (81 / 2 ^ 24 * ‖exactE I‖ + 1 / 2 ^ 143) ∧
    |‖exactE r‖ - ‖exactE I‖| ≤ 81 / 2 ^ 24 * ‖exactE I‖ + 1 / 2 ^ 143 := by
  have a := reflect_near hn hd fI hN hI hr
  obtain ⟨u1, u2⟩ := aboutUnit_bounds hN
  have b := mirror_near (I := exactE I) u1 u2
  have t := norm_sub_le_norm_sub_add_norm_sub (exactE r) (exactE I - (2 * ⟪exactE N, exactE I⟫) • exactE N)
    (mirror (exactE N) (exactE I))
  have c : ‖exactE r - mirror (exactE N) (exactE I)‖ ≤ 81 / 2 ^ 24 * ‖exactE I‖ + 1 / 2 ^ 143 := by linarith [a.2]
  refine ⟨a, ⟨a.1, c⟩, ?_⟩
  have := abs_norm_sub_norm_le (exactE r) (mirror (exactE N) (exactE I))
  rw [norm_mirror] at this
  linarith

private theorem face_all {n : ℕ} (hn : n ≤ 4) {d : F32} {I R : Fin n → F32} (hd : AccurateSum d R I) (fI : ∀ i, (I i).IsFin = true)
    (fR : ∀ i, (R i).IsFin = true) (hs : ‖exactE R‖ * ‖exactE I‖ ≤ 2 ^ 120)
    (h : 4.001 / 2 ^ 24 * (‖exactE R‖ * ‖exactE I‖) + 1 / 2 ^ 147 < |⟪exactE R, exactE I⟫|) :
    d < lit 0 ↔ ⟪exactE R, exactE I⟫ < 0 := by
  obtain ⟨f, e⟩ := near_inner hn hd fR fI hs
  have e' := abs_le.1 (e.trans h.le)
  have lt : d < lit 0 ↔ (d.val : ℝ) < 0 := by
    rw [lt_iff]
    constructor
    · intro h
      by_contra h2
      have : (lit 0 : F32).val ≤ d.val := by rw [val_lit_zero]; exact_mod_cast not_lt.1 h2
      exact absurd (key_le_iff.2 this) (not_le.2 h.2.2)
    · intro h
      refine ⟨isFin_ne_nan f, isFin_ne_nan isFin_lit_zero, ?_⟩
      by_contra h2
      have := key_le_iff.1 (not_lt.1 h2)
      rw [val_lit_zero] at this
      have : (0 : ℝ) ≤ d.val := by exact_mod_cast this
      linarith
  rw [lt]
  rcases lt_trichotomy ⟪exactE R, exactE I⟫ 0 with n | n | n
  · rw [abs_of_neg n] at e' h
    exact ⟨fun _ => n, fun _ => by linarith [(abs_le.1 e).2]⟩
  · rw [n, abs_zero] at h
    have : 0 ≤ 4.001 / 2 ^ 24 * (‖exactE R‖ * ‖exactE I‖) + 1 / 2 ^ 147 := by positivity
    linarith
  · rw [abs_of_pos n] at e' h
    refine ⟨fun _ => ?_, fun _ => ?_⟩ <;> linarith [(abs_le.1 e).1]

/-- C105, `reflect(vec2, vec2)` for a normal of length 1 up to `2^-20`: within a few roundings of the formula and of the
exact mirror image, and so of the same length. -/
theorem C105_reflect_vec2 (I N : V2 F32) (fI : ∀ i, (coord I i).IsFin = true) (hN : AboutUnit (coord N))
    (hI : ‖exactE (coord I)‖ ≤ 2 ^ 60) :
    NearE (coord (V2.reflect I N)) (exactE (coord I) - (2 * ⟪exactE (coord N), exactE (coord I)⟫) • exactE (coord N))
      (16 / 2 ^ 24 * ‖exactE (coord I)‖ + 1 / 2 ^ 143) ∧
    NearE (coord (V2.reflect I N)) (mirror (exactE (coord N)) (exactE (coord I))) (81 / 2 ^ 24 * ‖exactE (coord I)‖ + 1 / 2 ^ 143) ∧
    |‖exactE (coord (V2.reflect I N))‖ - ‖exactE (coord I)‖| ≤ 81 / 2 ^ 24 * ‖exactE (coord I)‖ + 1 / 2 ^ 143 :=
  reflect_all (by norm_num) (C81_dot_vec2 N I).1 fI hN hI fun i => by fin_cases i <;> rfl

/-- C105, `refract(vec2, vec2, eta)` for directions of length 1 up to `2^-20`: near the direction Snell's law gives, unless
that is almost along the surface (`-⟪T, N⟫` is the cosine of the refracted angle). -/
theorem C105_refract_vec2 (I N : V2 F32) (eta : F32) (hI : AboutUnit (coord I)) (hN : AboutUnit (coord N)) (fe : eta.IsFin = true)
    (e0 : 0 ≤ (eta.val : ℝ)) (T : EuclideanSpace ℝ (Fin 2))
    (hT : Snell (NormedSpace.normalize (exactE (coord I))) (NormedSpace.normalize (exactE (coord N))) eta.val T)
    (hc : (1 + eta.val) / 2 ^ 8 ≤ -⟪T, NormedSpace.normalize (exactE (coord N))⟫) :
    NearE (coord (V2.refract I N eta)) T ((1 + eta.val) ^ 2 / 2 ^ 17 / -⟪T, NormedSpace.normalize (exactE (coord N))⟫) := by
  obtain ⟨k, h⟩ := refract_near (by norm_num) (C81_dot_vec2 N I).1 hI hN fe e0 hT hc (r := fun i =>
    eta * coord I i - (eta * V2.dot N I + F.sqrt (lit 1 - eta * eta * (lit 1 - V2.dot N I * V2.dot N I))) * coord N i) fun _ => rfl
  have e : coord (V2.refract I N eta) = fun i =>
      eta * coord I i - (eta * V2.dot N I + F.sqrt (lit 1 - eta * eta * (lit 1 - V2.dot N I * V2.dot N I))) * coord N i := by
    unfold V2.refract
    dsimp only
    rw [if_neg k]
    funext i
    fin_cases i <;> rfl
  rw [e]
  exact h

/-- C105, `refract(vec2, vec2, eta)`: exactly the zero vector in the case of total reflection, when the sine of the refracted
angle would clearly exceed 1. -/
theorem C105_refract_total_vec2 (I N : V2 F32) (eta : F32) (hI : AboutUnit (coord I)) (hN : AboutUnit (coord N))
    (fe : eta.IsFin = true) (e0 : 0 ≤ (eta.val : ℝ)) (e1 : (eta.val : ℝ) ≤ 2 ^ 30)
    (h : 1 + (1 + eta.val) ^ 2 / 2 ^ 17 ≤ (eta.val * Real.sin (angle (exactE (coord I)) (exactE (coord N)))) ^ 2) (i : Fin 2) :
    coord (V2.refract I N eta) i = lit 0 := by
  have k := refract_total (by norm_num) (C81_dot_vec2 N I).1 hI hN fe e0 e1 (total_of_sine hI hN h)
  unfold V2.refract
  dsimp only
  rw [if_pos k]
  fin_cases i <;> rfl

/-- C105, `faceforward(vec2, vec2, vec2)`: the normal, or exactly its negative, whichever the sign of the exact inner product
requires, unless that is zero up to rounding. -/
theorem C105_faceforward_vec2 (N I Nref : V2 F32) (fI : ∀ i, (coord I i).IsFin = true) (fR : ∀ i, (coord Nref i).IsFin = true)
    (hs : ‖exactE (coord Nref)‖ * ‖exactE (coord I)‖ ≤ 2 ^ 120)
    (h : 4.001 / 2 ^ 24 * (‖exactE (coord Nref)‖ * ‖exactE (coord I)‖) + 1 / 2 ^ 147 < |⟪exactE (coord Nref), exactE (coord I)⟫|)
    (i : Fin 2) :
    coord (V2.faceforward N I Nref) i = if ⟪exactE (coord Nref), exactE (coord I)⟫ < 0 then coord N i else -coord N i := by
  have k := face_all (by norm_num) (C81_dot_vec2 Nref I).1 fI fR hs h
  unfold V2.faceforward
  by_cases q : ⟪exactE (coord Nref), exactE (coord I)⟫ < 0
  · rw [if_pos q, if_pos (k.2 q)]
  · rw [if_neg q, if_neg (fun h => q (k.1 h))]
    fin_cases i <;> rfl

/-- C105, `reflect(vec3, vec3)` for a normal of length 1 up to `2^-20`: within a few roundings of the formula and of the
exact mirror image, and so of the same length. -/
theorem C105_reflect_vec3 (I N : V3 F32) (fI : ∀ i, (coord I i).IsFin = true) (hN : AboutUnit (coord N))
    (hI : ‖exactE (coord I)‖ ≤ 2 ^ 60) :
    NearE (coord (V3.reflect I N)) (exactE (coord I) - (2 * ⟪exactE (coord N), exactE (coord I)⟫) • exactE (coord N))
      (16 / 2 ^ 24 * ‖exactE (coord I)‖ + 1 / 2 ^ 143) ∧
    NearE (coord (V3.reflect I N)) (mirror (exactE (coord N)) (exactE (coord I))) (81 / 2 ^ 24 * ‖exactE (coord I)‖ + 1 / 2 ^ 143) ∧
    |‖exactE (coord (V3.reflect I N))‖ - ‖exactE (coord I)‖| ≤ 81 / 2 ^ 24 * ‖exactE (coord I)‖ + 1 / 2 ^ 143 :=
  reflect_all (by norm_num) (C81_dot_vec3 N I).1 fI hN hI fun i => by fin_cases i <;> rfl

/-- C105, `refract(vec3, vec3, eta)` for directions of length 1 up to `2^-20`: near the direction Snell's law gives, unless
that is almost along the surface (`-⟪T, N⟫` is the cosine of the refracted angle). -/
theorem C105_refract_vec3 (I N : V3 F32) (eta : F32) (hI : AboutUnit (coord I)) (hN : AboutUnit (coord N)) (fe : eta.IsFin = true)
    (e0 : 0 ≤ (eta.val : ℝ)) (T : EuclideanSpace ℝ (Fin 3))
    (hT : Snell (NormedSpace.normalize (exactE (coord I))) (NormedSpace.normalize (exactE (coord N))) eta.val T)
    (hc : (1 + eta.val) / 2 ^ 8 ≤ -⟪T, NormedSpace.normalize (exactE (coord N))⟫) :
    NearE (coord (V3.refract I N eta)) T ((1 + eta.val) ^ 2 / 2 ^ 17 / -⟪T, NormedSpace.normalize (exactE (coord N))⟫) := by
  obtain ⟨k, h⟩ := refract_near (by norm_num) (C81_dot_vec3 N I).1 hI hN fe e0 hT hc (r := fun i =>
    eta * coord I i - (eta * V3.dot N I + F.sqrt (lit 1 - eta * eta * (lit 1 - V3.dot N I * V3.dot N I))) * coord N i) fun _ => rfl
  have e : coord (V3.refract I N eta) = fun i =>
      eta * coord I i - (eta * V3.dot N I + F.sqrt (lit 1 - eta * eta * (lit 1 - V3.dot N I * V3.dot N I))) * coord N i := by
    unfold V3.refract
    dsimp only
    rw [if_neg k]
    funext i
    fin_cases i <;> rfl
  rw [e]
  exact h

/-- C105, `refract(vec3, vec3, eta)`: exactly the zero vector in the case of total reflection, when the sine of the refracted
angle would clearly exceed 1. -/
theorem C105_refract_total_vec3 (I N : V3 F32) (eta : F32) (hI : AboutUnit (coord I)) (hN : AboutUnit (coord N))
    (fe : eta.IsFin = true) (e0 : 0 ≤ (eta.val : ℝ)) (e1 : (eta.val : ℝ) ≤ 2 ^ 30)
    (h : 1 + (1 + eta.val) ^ 2 / 2 ^ 17 ≤ (eta.val * Real.sin (angle (exactE (coord I)) (exactE (coord N)))) ^ 2) (i : Fin 3) :
    coord (V3.refract I N eta) i = lit 0 := by
  have k := refract_total (by norm_num) (C81_dot_vec3 N I).1 hI hN fe e0 e1 (total_of_sine hI hN h)
  unfold V3.refract
  dsimp only
  rw [if_pos k]
  fin_cases i <;> rfl

/-- C105, `faceforward(vec3, vec3, vec3)`: the normal, or exactly its negative, whichever the sign of the exact inner product
requires, unless that is zero up to rounding. -/
theorem C105_faceforward_vec3 (N I Nref : V3 F32) (fI : ∀ i, (coord I i).IsFin = true) (fR : ∀ i, (coord Nref i).IsFin = true)
    (hs : ‖exactE (coord Nref)‖ * ‖exactE (coord I)‖ ≤ 2 ^ 120)
    (h : 4.001 / 2 ^ 24 * (‖exactE (coord Nref)‖ * ‖exactE (coord I)‖) + 1 / 2 ^ 147 < |⟪exactE (coord Nref), exactE (coord I)⟫|)
    (i : Fin 3) :
    coord (V3.faceforward N I Nref) i = if ⟪exactE (coord Nref), exactE (coord I)⟫ < 0 then coord N i else -coord N i := by
  have k := face_all (by norm_num) (C81_dot_vec3 Nref I).1 fI fR hs h
  unfold V3.faceforward
  by_cases q : ⟪exactE (coord Nref), exactE (coord I)⟫ < 0
  · rw [if_pos q, if_pos (k.2 q)]
  · rw [if_neg q, if_neg (fun h => q (k.1 h))]
    fin_cases i <;> rfl

/-- C105, `reflect(vec4, vec4)` for a normal of length 1 up to `2^-20`: within a few roundings of the formula and of the
exact mirror image, and so of the same length. -/
theorem C105_reflect_vec4 (I N : V4 F32) (fI : ∀ i, (coord I i).IsFin = true) (hN : AboutUnit (coord N))
    (hI : ‖exactE (coord I)‖ ≤ 2 ^ 60) :
    NearE (coord (V4.reflect I N)) (exactE (coord I) - (2 * ⟪exactE (coord N), exactE (coord I)⟫) • exactE (coord N))
      (16 / 2 ^ 24 * ‖exactE (coord I)‖ + 1 / 2 ^ 143) ∧
    NearE (coord (V4.reflect I N)) (mirror (exactE (coord N)) (exactE (coord I))) (81 / 2 ^ 24 * ‖exactE (coord I)‖ + 1 / 2 ^ 143) ∧
    |‖exactE (coord (V4.reflect I N))‖ - ‖exactE (coord I)‖| ≤ 81 / 2 ^ 24 * ‖exactE (coord I)‖ + 1 / 2 ^ 143 :=
  reflect_all (by norm_num) (C81_dot_vec4 N I).1 fI hN hI fun i => by fin_cases i <;> rfl

/-- C105, `refract(vec4, vec4, eta)` for directions of length 1 up to `2^-20`: near the direction Snell's law gives, unless
that is almost along the surface (`-⟪T, N⟫` is the cosine of the refracted angle). -/
theorem C105_refract_vec4 (I N : V4 F32) (eta : F32) (hI : AboutUnit (coord I)) (hN : AboutUnit (coord N)) (fe : eta.IsFin = true)
    (e0 : 0 ≤ (eta.val : ℝ)) (T : EuclideanSpace ℝ (Fin 4))
    (hT : Snell (NormedSpace.normalize (exactE (coord I))) (NormedSpace.normalize (exactE (coord N))) eta.val T)
    (hc : (1 + eta.val) / 2 ^ 8 ≤ -⟪T, NormedSpace.normalize (exactE (coord N))⟫) :
    NearE (coord (V4.refract I N eta)) T ((1 + eta.val) ^ 2 / 2 ^ 17 / -⟪T, NormedSpace.normalize (exactE (coord N))⟫) := by
  obtain ⟨k, h⟩ := refract_near (by norm_num) (C81_dot_vec4 N I).1 hI hN fe e0 hT hc (r := fun i =>
    eta * coord I i - (eta * V4.dot N I + F.sqrt (lit 1 - eta * eta * (lit 1 - V4.dot N I * V4.dot N I))) * coord N i) fun _ => rfl
  have e : coord (V4.refract I N eta) = fun i =>
      eta * coord I i - (eta * V4.dot N I + F.sqrt (lit 1 - eta * eta * (lit 1 - V4.dot N I * V4.dot N I))) * coord N i := by
    unfold V4.refract
    dsimp only
    rw [if_neg k]
    funext i
    fin_cases i <;> rfl
  rw [e]
  exact h

/-- C105, `refract(vec4, vec4, eta)`: exactly the zero vector in the case of total reflection, when the sine of the refracted
angle would clearly exceed 1. -/
theorem C105_refract_total_vec4 (I N : V4 F32) (eta : F32) (hI : AboutUnit (coord I)) (hN : AboutUnit (coord N))
    (fe : eta.IsFin = true) (e0 : 0 ≤ (eta.val : ℝ)) (e1 : (eta.val : ℝ) ≤ 2 ^ 30)
    (h : 1 + (1 + eta.val) ^ 2 / 2 ^ 17 ≤ (eta.val * Real.sin (angle (exactE (coord I)) (exactE (coord N)))) ^ 2) (i : Fin 4) :
    coord (V4.refract I N eta) i = lit 0 := by
  have k := refract_total (by norm_num) (C81_dot_vec4 N I).1 hI hN fe e0 e1 (total_of_sine hI hN h)
  unfold V4.refract
  dsimp only
  rw [if_pos k]
  fin_cases i <;> rfl

/-- C105, `faceforward(vec4, vec4, vec4)`: the normal, or exactly its negative, whichever the sign of the exact inner product
requires, unless that is zero up to rounding. -/
theorem C105_faceforward_vec4 (N I Nref : V4 F32) (fI : ∀ i, (coord I i).IsFin = true) (fR : ∀ i, (coord Nref i).IsFin = true)
    (hs : ‖exactE (coord Nref)‖ * ‖exactE (coord I)‖ ≤ 2 ^ 120)
    (h : 4.001 / 2 ^ 24 * (‖exactE (coord Nref)‖ * ‖exactE (coord I)‖) + 1 / 2 ^ 147 < |⟪exactE (coord Nref), exactE (coord I)⟫|)
    (i : Fin 4) :
    coord (V4.faceforward N I Nref) i = if ⟪exactE (coord Nref), exactE (coord I)⟫ < 0 then coord N i else -coord N i := by
  have k := face_all (by norm_num) (C81_dot_vec4 Nref I).1 fI fR hs h
  unfold V4.faceforward
  by_cases q : ⟪exactE (coord Nref), exactE (coord I)⟫ < 0
  · rw [if_pos q, if_pos (k.2 q)]
  · rw [if_neg q, if_neg (fun h => q (k.1 h))]
    fin_cases i <;> rfl

/-! ### Non-vacuity: light falls straight down on, or grazes, a surface facing up -/

private theorem val3 : ((lit (3 / 4) : F32).val = 3 / 4 ∧ (lit 0 : F32).val = 0 ∧ (lit 1 : F32).val = 1 ∧ (lit (-1) : F32).val = -1) ∧
    (lit (3 / 4) : F32).IsFin = true ∧ (lit 0 : F32).IsFin = true ∧ (lit 1 : F32).IsFin = true ∧ (lit (-1) : F32).IsFin = true := by
  decide +kernel

private def upward : V2 F32 := ⟨lit 0, lit 1⟩
private def downward : V2 F32 := ⟨lit 0, lit (-1)⟩
private def sideways : V2 F32 := ⟨lit 1, lit 0⟩

private theorem exact2 {a b : F32} {x y : ℝ} (ha : (a.val : ℝ) = x) (hb : (b.val : ℝ) = y) :
    exactE (coord (⟨a, b⟩ : V2 F32)) = !₂[x, y] := by
  ext i
  fin_cases i
  · exact ha
  · exact hb

private theorem norm2 (x y : ℝ) (h : x ^ 2 + y ^ 2 = 1) : ‖(!₂[x, y] : EuclideanSpace ℝ (Fin 2))‖ = 1 := by
  rw [EuclideanSpace.norm_eq, Fin.sum_univ_two]
  simp [h]

private theorem eUp : exactE (coord upward) = !₂[0, 1] :=
  exact2 (by rw [val3.1.2.1]; norm_num) (by rw [val3.1.2.2.1]; norm_num)
private theorem eDown : exactE (coord downward) = !₂[0, -1] :=
  exact2 (by rw [val3.1.2.1]; norm_num) (by rw [val3.1.2.2.2]; norm_num)
private theorem eSide : exactE (coord sideways) = !₂[1, 0] :=
  exact2 (by rw [val3.1.2.2.1]; norm_num) (by rw [val3.1.2.1]; norm_num)

private theorem unitUp : AboutUnit (coord upward) :=
  ⟨fun i => by fin_cases i <;> decide +kernel, by rw [eUp, norm2 _ _ (by norm_num)]; norm_num⟩
private theorem unitDown : AboutUnit (coord downward) :=
  ⟨fun i => by fin_cases i <;> decide +kernel, by rw [eDown, norm2 _ _ (by norm_num)]; norm_num⟩
private theorem unitSide : AboutUnit (coord sideways) :=
  ⟨fun i => by fin_cases i <;> decide +kernel, by rw [eSide, norm2 _ _ (by norm_num)]; norm_num⟩

example := C105_reflect_vec2 sideways upward unitSide.1 unitUp (by rw [eSide, norm2 _ _ (by norm_num)]; norm_num)

private theorem normalize_unit {n : ℕ} {v : EuclideanSpace ℝ (Fin n)} (h : ‖v‖ = 1) : NormedSpace.normalize v = v := by
  unfold NormedSpace.normalize; rw [h, inv_one, one_smul]

private theorem inner2 (a b c d : ℝ) : ⟪(!₂[a, b] : EuclideanSpace ℝ (Fin 2)), !₂[c, d]⟫ = a * c + b * d := by
  rw [PiLp.inner_apply, Fin.sum_univ_two]
  simp [mul_comm]

/-- grazing light enters the denser medium at a slope: sine 3/4 -/
example : ∃ T, Snell (NormedSpace.normalize (exactE (coord sideways))) (NormedSpace.normalize (exactE (coord upward)))
    ((lit (3 / 4) : F32).val : ℝ) T ∧ (1 + ((lit (3 / 4) : F32).val : ℝ)) / 2 ^ 8 ≤ -⟪T, NormedSpace.normalize (exactE (coord upward))⟫ ∧
    NearE (coord (V2.refract sideways upward (lit (3 / 4)))) T
      ((1 + ((lit (3 / 4) : F32).val : ℝ)) ^ 2 / 2 ^ 17 / -⟪T, NormedSpace.normalize (exactE (coord upward))⟫) := by
  have n1 : ‖NormedSpace.normalize (exactE (coord sideways))‖ = 1 := by
    rw [eSide, normalize_unit (norm2 _ _ (by norm_num))]; exact norm2 _ _ (by norm_num)
  have n2 : ‖NormedSpace.normalize (exactE (coord upward))‖ = 1 := by
    rw [eUp, normalize_unit (norm2 _ _ (by norm_num))]; exact norm2 _ _ (by norm_num)
  have v : ((lit (3 / 4) : F32).val : ℝ) = 3 / 4 := by rw [val3.1.1]; norm_num
  have i : ⟪NormedSpace.normalize (exactE (coord upward)), NormedSpace.normalize (exactE (coord sideways))⟫ = 0 := by
    rw [eSide, eUp, normalize_unit (norm2 _ _ (by norm_num)), normalize_unit (norm2 _ _ (by norm_num)), inner2]; norm_num
  obtain ⟨T, s⟩ : ∃ T, Snell (NormedSpace.normalize (exactE (coord sideways))) (NormedSpace.normalize (exactE (coord upward)))
      ((lit (3 / 4) : F32).val : ℝ) T := ⟨_, snell_exists n1 n2 (by rw [i, v]; norm_num)⟩
  obtain ⟨c0, -, c2, -⟩ := snell_facts n1 n2 s
  have h : (1 + ((lit (3 / 4) : F32).val : ℝ)) / 2 ^ 8 ≤ -⟪T, NormedSpace.normalize (exactE (coord upward))⟫ := by
    refine abs_le_of_sq_le_sq' ?_ c0 |>.2
    rw [c2, i, v]
    norm_num
  exact ⟨T, s, h, C105_refract_vec2 sideways upward (lit (3 / 4)) unitSide unitUp val3.2.1 (by rw [v]; norm_num) _ s h⟩

/-- grazing light towards a much thinner medium is totally reflected -/
example (i : Fin 2) : coord (V2.refract sideways upward (lit 2)) i = lit 0 := by
  have v : ((lit 2 : F32).val : ℝ) = 2 := by rw [show (lit 2 : F32).val = 2 by decide +kernel]; norm_num
  refine C105_refract_total_vec2 sideways upward (lit 2) unitSide unitUp (by decide +kernel) (by rw [v]; norm_num)
    (by rw [v]; norm_num) ?_ i
  have : angle (exactE (coord sideways)) (exactE (coord upward)) = Real.pi / 2 := by
    rw [← inner_eq_zero_iff_angle_eq_pi_div_two, eSide, eUp, inner2]; norm_num
  rw [this, v, Real.sin_pi_div_two]
  norm_num

example (i : Fin 2) : coord (V2.faceforward upward downward upward) i = coord upward i := by
  have h : ⟪exactE (coord upward), exactE (coord downward)⟫ = -1 := by rw [eUp, eDown, inner2]; norm_num
  rw [C105_faceforward_vec2 upward downward upward unitDown.1 unitUp.1
    (by rw [eUp, eDown, norm2 _ _ (by norm_num), norm2 _ _ (by norm_num)]; norm_num)
    (by rw [h, eUp, eDown, norm2 _ _ (by norm_num), norm2 _ _ (by norm_num)]; norm_num) i, h, if_pos (by norm_num)]

end Zcm
