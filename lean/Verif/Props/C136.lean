import Verif.Lemmas.F32QuatChain
import Verif.Props.C37
import Verif.Props.C105

/-!
# C136  Rays that meet many mirrors, and light going backwards

Sequences of reflections in IEEE arithmetic, and the reversibility of refraction in exact arithmetic.  `mirror`, `exactE` and
`AboutUnit` are those of C105.
-/

set_option exponentiation.threshold 300

namespace Zcm

open F32
open scoped RealInnerProductSpace

theorem mirror_sub {n : ℕ} (N x y : EuclideanSpace ℝ (Fin n)) : ‖mirror N x - mirror N y‖ = ‖x - y‖ := by
  unfold mirror
  rw [← map_sub, LinearIsometryEquiv.norm_map]

theorem mirror_inner {n : ℕ} (N x y : EuclideanSpace ℝ (Fin n)) : ⟪mirror N x, mirror N y⟫ = ⟪x, y⟫ :=
  LinearIsometryEquiv.inner_map_map _ _ _

theorem mirror_twice {n : ℕ} (N x : EuclideanSpace ℝ (Fin n)) : mirror N (mirror N x) = x :=
  Submodule.reflection_reflection _ _

/-- histories of a map that is close to a mirror -/
theorem bounce_core {n : ℕ} {V : Type} (c : V → Fin n → F32) (f : V → V → V)
    (step : ∀ I N : V, (∀ i, (c I i).IsFin = true) → AboutUnit (c N) → ‖exactE (c I)‖ ≤ 2 ^ 60 →
      NearE (c (f I N)) (mirror (exactE (c N)) (exactE (c I))) (81 / 2 ^ 24 * ‖exactE (c I)‖ + 1 / 2 ^ 143))
    (I : V) (hf : ∀ i, (c I i).IsFin = true) (h1 : 1 / 2 ^ 98 ≤ ‖exactE (c I)‖) (h2 : ‖exactE (c I)‖ ≤ 2 ^ 59)
    (Ns : List V) (hN : ∀ N ∈ Ns, AboutUnit (c N)) (hn : Ns.length ≤ 2 ^ 15) :
    NearE (c (Ns.foldl f I)) (Ns.foldl (fun x N => mirror (exactE (c N)) x) (exactE (c I)))
      (Ns.length / 2 ^ 15 * ‖exactE (c I)‖) ∧
    |‖exactE (c (Ns.foldl f I))‖ - ‖exactE (c I)‖| ≤ Ns.length / 2 ^ 15 * ‖exactE (c I)‖ := by
  have key : (∀ i, (c (Ns.foldl f I) i).IsFin = true) ∧
      ‖Ns.foldl (fun x N => mirror (exactE (c N)) x) (exactE (c I))‖ = ‖exactE (c I)‖ ∧
      ‖exactE (c (Ns.foldl f I)) - Ns.foldl (fun x N => mirror (exactE (c N)) x) (exactE (c I))‖ ≤
        ((1 + 1 / 2 ^ 16) ^ Ns.length - 1) * ‖exactE (c I)‖ := by
    induction Ns using List.reverseRecOn with
    | nil => exact ⟨hf, rfl, by simp⟩
    | append_singleton Ns N ih =>
      have hn' : Ns.length ≤ 2 ^ 15 := by
        rw [List.length_append] at hn; omega
      obtain ⟨f1, n, e⟩ := ih (fun N h => hN N (List.mem_append_left _ h)) hn'
      have uN := hN N (by simp)
      obtain ⟨g1, g2, -⟩ := growth hn'
      rw [List.foldl_append, List.foldl_cons, List.foldl_nil, List.foldl_append, List.foldl_cons, List.foldl_nil,
        List.length_append, List.length_singleton, pow_succ]
      generalize Ns.foldl f I = x at *
      generalize Ns.foldl (fun x N => mirror (exactE (c N)) x) (exactE (c I)) = X at *
      generalize (1 + 1 / 2 ^ 16 : ℝ) ^ Ns.length = G at *
      have V0 := norm_nonneg (exactE (c I))
      have b := abs_le.1 ((abs_norm_sub_norm_le _ _).trans e)
      rw [n] at b
      have w : (G - 1) * ‖exactE (c I)‖ ≤ 0.75 * ‖exactE (c I)‖ := by gcongr; linarith
      obtain ⟨sf, se⟩ := step x N f1 uN (by norm_num at *; linarith [b.2])
      refine ⟨sf, by rw [norm_mirror, n], ?_⟩
      have t := norm_sub_le_norm_sub_add_norm_sub (exactE (c (f x N))) (mirror (exactE (c N)) (exactE (c x)))
        (mirror (exactE (c N)) X)
      rw [mirror_sub] at t
      have lo : 0.25 * ‖exactE (c I)‖ ≤ ‖exactE (c x)‖ := by linarith [b.1]
      have s : 81 / 2 ^ 24 * ‖exactE (c x)‖ + 1 / 2 ^ 143 ≤ 1 / 2 ^ 16 * (G * ‖exactE (c I)‖) := by
        have hi : ‖exactE (c x)‖ ≤ G * ‖exactE (c I)‖ := by linarith [b.2]
        generalize G * ‖exactE (c I)‖ = P at *
        norm_num at *
        linarith
      linarith
  have g := (growth hn).2.2
  have e : ‖exactE (c (Ns.foldl f I)) - Ns.foldl (fun x N => mirror (exactE (c N)) x) (exactE (c I))‖ ≤
      Ns.length / 2 ^ 15 * ‖exactE (c I)‖ := key.2.2.trans (by gcongr)
  refine ⟨⟨key.1, e⟩, ?_⟩
  have := (abs_norm_sub_norm_le _ _).trans e
  rwa [key.2.1] at this

/-- two vectors close to the mirror images of two others have almost the same inner product -/
theorem bounce_inner {n : ℕ} {N I J r s : EuclideanSpace ℝ (Fin n)} (hr : ‖r - mirror N I‖ ≤ 1 / 2 ^ 17 * ‖I‖)
    (hs : ‖s - mirror N J‖ ≤ 1 / 2 ^ 17 * ‖J‖) : |⟪r, s⟫ - ⟪I, J⟫| ≤ 1 / 2 ^ 15 * (‖I‖ * ‖J‖) := by
  have e : ⟪r, s⟫ - ⟪I, J⟫ = ⟪r - mirror N I, s - mirror N J⟫ + ⟪r - mirror N I, mirror N J⟫ + ⟪mirror N I, s - mirror N J⟫ := by
    rw [← mirror_inner N I J]
    simp only [inner_sub_left, inner_sub_right]
    ring
  rw [e]
  have a := abs_real_inner_le_norm (r - mirror N I) (s - mirror N J)
  have b := abs_real_inner_le_norm (r - mirror N I) (mirror N J)
  have d := abs_real_inner_le_norm (mirror N I) (s - mirror N J)
  rw [norm_mirror] at b d
  have I0 := norm_nonneg I
  have J0 := norm_nonneg J
  have a' : ‖r - mirror N I‖ * ‖s - mirror N J‖ ≤ (1 / 2 ^ 17 * ‖I‖) * (1 / 2 ^ 17 * ‖J‖) := by gcongr
  have b' : ‖r - mirror N I‖ * ‖J‖ ≤ (1 / 2 ^ 17 * ‖I‖) * ‖J‖ := by gcongr
  have d' : ‖I‖ * ‖s - mirror N J‖ ≤ ‖I‖ * (1 / 2 ^ 17 * ‖J‖) := by gcongr
  refine (abs_add_le _ _).trans ((add_le_add ((abs_add_le _ _).trans (add_le_add (a.trans a') (b.trans b'))) (d.trans d')).trans ?_)
  have : 0 ≤ ‖I‖ * ‖J‖ := by positivity
  nlinarith

/-! ## Mirrors -/

/-- C136, `vec2`: a ray reflected by up to `2^15` mirrors, one after the other, is finite, within `n * 2^-15` (relative to its
length) of the exactly reflected ray, and has kept its length as well. -/
theorem C136_mirrors_vec2 (I : V2 F32) (hf : ∀ i, (coord I i).IsFin = true) (h1 : 1 / 2 ^ 98 ≤ ‖exactE (coord I)‖)
    (h2 : ‖exactE (coord I)‖ ≤ 2 ^ 59) (Ns : List (V2 F32)) (hN : ∀ N ∈ Ns, AboutUnit (coord N)) (hn : Ns.length ≤ 2 ^ 15) :
    NearE (coord (Ns.foldl V2.reflect I)) (Ns.foldl (fun x N => mirror (exactE (coord N)) x) (exactE (coord I)))
      (Ns.length / 2 ^ 15 * ‖exactE (coord I)‖) ∧
    |‖exactE (coord (Ns.foldl V2.reflect I))‖ - ‖exactE (coord I)‖| ≤ Ns.length / 2 ^ 15 * ‖exactE (coord I)‖ :=
  bounce_core (fun v : V2 F32 => coord v) V2.reflect (fun I N a b c => (C105_reflect_vec2 I N a b c).2.1) I hf h1 h2 Ns hN hn

/-- C136, `vec2`: reflecting twice in the same mirror gives the ray back. -/
theorem C136_twice_vec2 (I N : V2 F32) (hf : ∀ i, (coord I i).IsFin = true) (h1 : 1 / 2 ^ 98 ≤ ‖exactE (coord I)‖)
    (h2 : ‖exactE (coord I)‖ ≤ 2 ^ 59) (hN : AboutUnit (coord N)) :
    NearE (coord (V2.reflect (V2.reflect I N) N)) (exactE (coord I)) (1 / 2 ^ 14 * ‖exactE (coord I)‖) := by
  have h := (C136_mirrors_vec2 I hf h1 h2 [N, N] (by simpa using hN) (by norm_num)).1
  simp only [List.foldl_cons, List.foldl_nil, mirror_twice, List.length_cons, List.length_nil] at h
  refine ⟨h.1, h.2.trans (le_of_eq ?_)⟩
  push_cast
  ring

/-- C136, `vec2`: two rays reflected by the same mirror enclose the same angle as before (their inner product is kept to
within `2^-15` of the product of their lengths). -/
theorem C136_inner_vec2 (I J N : V2 F32) (fI : ∀ i, (coord I i).IsFin = true) (fJ : ∀ i, (coord J i).IsFin = true)
    (I1 : 1 / 2 ^ 98 ≤ ‖exactE (coord I)‖) (I2 : ‖exactE (coord I)‖ ≤ 2 ^ 59) (J1 : 1 / 2 ^ 98 ≤ ‖exactE (coord J)‖)
    (J2 : ‖exactE (coord J)‖ ≤ 2 ^ 59) (hN : AboutUnit (coord N)) :
    |⟪exactE (coord (V2.reflect I N)), exactE (coord (V2.reflect J N))⟫ - ⟪exactE (coord I), exactE (coord J)⟫| ≤
      1 / 2 ^ 15 * (‖exactE (coord I)‖ * ‖exactE (coord J)‖) := by
  have a := (C105_reflect_vec2 I N fI hN (by norm_num at *; linarith)).2.1.2
  have b := (C105_reflect_vec2 J N fJ hN (by norm_num at *; linarith)).2.1.2
  exact bounce_inner (a.trans (by norm_num at *; linarith)) (b.trans (by norm_num at *; linarith))

/-- C136, `vec3`: a ray reflected by up to `2^15` mirrors, one after the other, is finite, within `n * 2^-15` (relative to its
length) of the exactly reflected ray, and has kept its length as well. -/
theorem C136_mirrors_vec3 (I : V3 F32) (hf : ∀ i, (coord I i).IsFin = true) (h1 : 1 / 2 ^ 98 ≤ ‖exactE (coord I)‖)
    (h2 : ‖exactE (coord I)‖ ≤ 2 ^ 59) (Ns : List (V3 F32)) (hN : ∀ N ∈ Ns, AboutUnit (coord N)) (hn : Ns.length ≤ 2 ^ 15) :
    NearE (coord (Ns.foldl V3.reflect I)) (Ns.foldl (fun x N => mirror (exactE (coord N)) x) (exactE (coord I)))
      (Ns.length / 2 ^ 15 * ‖exactE (coord I)‖) ∧
    |‖exactE (coord (Ns.foldl V3.reflect I))‖ - ‖exactE (coord I)‖| ≤ Ns.length / 2 ^ 15 * ‖exactE (coord I)‖ :=
  bounce_core (fun v : V3 F32 => coord v) V3.reflect (fun I N a b c => (C105_reflect_vec3 I N a b c).2.1) I hf h1 h2 Ns hN hn

/-- C136, `vec3`: reflecting twice in the same mirror gives the ray back. -/
theorem C136_twice_vec3 (I N : V3 F32) (hf : ∀ i, (coord I i).IsFin = true) (h1 : 1 / 2 ^ 98 ≤ ‖exactE (coord I)‖)
    (h2 : ‖exactE (coord I)‖ ≤ 2 ^ 59) (hN : AboutUnit (coord N)) :
    NearE (coord (V3.reflect (V3.reflect I N) N)) (exactE (coord I)) (1 / 2 ^ 14 * ‖exactE (coord I)‖) := by
  have h := (C136_mirrors_vec3 I hf h1 h2 [N, N] (by simpa using hN) (by norm_num)).1
  simp only [List.foldl_cons, List.foldl_nil, mirror_twice, List.length_cons, List.length_nil] at h
  refine ⟨h.1, h.2.trans (le_of_eq ?_)⟩
  push_cast
  ring

/-- C136, `vec3`: two rays reflected by the same mirror enclose the same angle as before (their inner product is kept to
within `2^-15` of the product of their lengths). -/
theorem C136_inner_vec3 (I J N : V3 F32) (fI : ∀ i, (coord I i).IsFin = true) (fJ : ∀ i, (coord J i).IsFin = true)
    (I1 : 1 / 2 ^ 98 ≤ ‖exactE (coord I)‖) (I2 : ‖exactE (coord I)‖ ≤ 2 ^ 59) (J1 : 1 / 2 ^ 98 ≤ ‖exactE (coord J)‖)
    (J2 : ‖exactE (coord J)‖ ≤ 2 ^ 59) (hN : AboutUnit (coord N)) :
    |⟪exactE (coord (V3.reflect I N)), exactE (coord (V3.reflect J N))⟫ - ⟪exactE (coord I), exactE (coord J)⟫| ≤
      1 / 2 ^ 15 * (‖exactE (coord I)‖ * ‖exactE (coord J)‖) := by
  have a := (C105_reflect_vec3 I N fI hN (by norm_num at *; linarith)).2.1.2
  have b := (C105_reflect_vec3 J N fJ hN (by norm_num at *; linarith)).2.1.2
  exact bounce_inner (a.trans (by norm_num at *; linarith)) (b.trans (by norm_num at *; linarith))

/-- C136, `vec4`: a ray reflected by up to `2^15` mirrors, one after the other, is finite, within `n * 2^-15` (relative to its
length) of the exactly reflected ray, and has kept its length as well. -/
theorem C136_mirrors_vec4 (I : V4 F32) (hf : ∀ i, (coord I i).IsFin = true) (h1 : 1 / 2 ^ 98 ≤ ‖exactE (coord I)‖)
    (h2 : ‖exactE (coord I)‖ ≤ 2 ^ 59) (Ns : List (V4 F32)) (hN : ∀ N ∈ Ns, AboutUnit (coord N)) (hn : Ns.length ≤ 2 ^ 15) :
    NearE (coord (Ns.foldl V4.reflect I)) (Ns.foldl (fun x N => mirror (exactE (coord N)) x) (exactE (coord I)))
      (Ns.length / 2 ^ 15 * ‖exactE (coord I)‖) ∧
    |‖exactE (coord (Ns.foldl V4.reflect I))‖ - ‖exactE (coord I)‖| ≤ Ns.length / 2 ^ 15 * ‖exactE (coord I)‖ :=
  bounce_core (fun v : V4 F32 => coord v) V4.reflect (fun I N a b c => (C105_reflect_vec4 I N a b c).2.1) I hf h1 h2 Ns hN hn

/-- C136, `vec4`: reflecting twice in the same mirror gives the ray back. -/
theorem C136_twice_vec4 (I N : V4 F32) (hf : ∀ i, (coord I i).IsFin = true) (h1 : 1 / 2 ^ 98 ≤ ‖exactE (coord I)‖)
    (h2 : ‖exactE (coord I)‖ ≤ 2 ^ 59) (hN : AboutUnit (coord N)) :
    NearE (coord (V4.reflect (V4.reflect I N) N)) (exactE (coord I)) (1 / 2 ^ 14 * ‖exactE (coord I)‖) := by
  have h := (C136_mirrors_vec4 I hf h1 h2 [N, N] (by simpa using hN) (by norm_num)).1
  simp only [List.foldl_cons, List.foldl_nil, mirror_twice, List.length_cons, List.length_nil] at h
  refine ⟨h.1, h.2.trans (le_of_eq ?_)⟩
  push_cast
  ring

/-- C136, `vec4`: two rays reflected by the same mirror enclose the same angle as before (their inner product is kept to
within `2^-15` of the product of their lengths). -/
theorem C136_inner_vec4 (I J N : V4 F32) (fI : ∀ i, (coord I i).IsFin = true) (fJ : ∀ i, (coord J i).IsFin = true)
    (I1 : 1 / 2 ^ 98 ≤ ‖exactE (coord I)‖) (I2 : ‖exactE (coord I)‖ ≤ 2 ^ 59) (J1 : 1 / 2 ^ 98 ≤ ‖exactE (coord J)‖)
    (J2 : ‖exactE (coord J)‖ ≤ 2 ^ 59) (hN : AboutUnit (coord N)) :
    |⟪exactE (coord (V4.reflect I N)), exactE (coord (V4.reflect J N))⟫ - ⟪exactE (coord I), exactE (coord J)⟫| ≤
      1 / 2 ^ 15 * (‖exactE (coord I)‖ * ‖exactE (coord J)‖) := by
  have a := (C105_reflect_vec4 I N fI hN (by norm_num at *; linarith)).2.1.2
  have b := (C105_reflect_vec4 J N fJ hN (by norm_num at *; linarith)).2.1.2
  exact bounce_inner (a.trans (by norm_num at *; linarith)) (b.trans (by norm_num at *; linarith))

/-! ## Light going backwards, in exact arithmetic -/

/-- the refracted ray, and what the formula makes of it on the other side -/
private theorem back_vec2 (I N : V2 ℝ) (eta : ℝ) (hI : V2.length I = 1) (hN : V2.length N = 1) (he : 0 < eta)
    (hd : V2.dot N I ≤ 0) (hk : 0 ≤ 1 - eta ^ 2 * (1 - V2.dot N I ^ 2)) :
    V2.refract (V2.refract I N eta) N (1 / eta) = I ∧ V2.refract (-V2.refract I N eta) (-N) (1 / eta) = -I := by
  have hI := V2.dot_self_of_length hI
  have hN := V2.dot_self_of_length hN
  have hk' : (lit 1 : ℝ) - eta * eta * (lit 1 - V2.dot N I * V2.dot N I) = 1 - eta ^ 2 * (1 - V2.dot N I ^ 2) := by
    simp only [lit_real]; push_cast; ring
  have e : V2.refract I N eta = eta * I - (eta * V2.dot N I + Real.sqrt (1 - eta ^ 2 * (1 - V2.dot N I ^ 2))) * N := by
    simp only [V2.refract, hk', F.sqrt_real]
    rw [if_neg (by simpa using hk)]
  have hs := Real.sq_sqrt hk
  rw [e]
  generalize hd' : V2.dot N I = d at *
  generalize Real.sqrt (1 - eta ^ 2 * (1 - d ^ 2)) = r at *
  have g : eta ≠ 0 := he.ne'
  have dT : V2.dot N (eta * I - (eta * d + r) * N) = -r := by
    simp [V2.dot] at hN hd' ⊢
    linear_combination eta * hd' - (eta * d + r) * hN
  have dT' : V2.dot (-N) (-(eta * I - (eta * d + r) * N)) = -r := by
    simp [V2.dot] at hN hd' ⊢
    linear_combination eta * hd' - (eta * d + r) * hN
  have kk : (lit 1 : ℝ) - 1 / eta * (1 / eta) * (lit 1 - -r * -r) = d ^ 2 := by
    simp only [lit_real]
    push_cast
    field_simp
    linear_combination hs
  have sq : Real.sqrt (d ^ 2) = -d := by rw [Real.sqrt_sq_eq_abs, abs_of_nonpos hd]
  constructor
  · simp only [V2.refract, dT, kk, F.sqrt_real, sq]
    rw [if_neg (by simp; positivity)]
    ext <;> simp <;> field_simp <;> ring
  · simp only [V2.refract, dT', kk, F.sqrt_real, sq]
    rw [if_neg (by simp; positivity)]
    ext <;> simp <;> field_simp <;> ring

/-- C136, `vec2`: light can be reversed.  The refracted ray sent back, seen from the other side of the surface and with the
inverse ratio of the indices, leaves along the first ray. -/
theorem C136_reversible_vec2 (I N : V2 ℝ) (eta : ℝ) (hI : V2.length I = 1) (hN : V2.length N = 1) (he : 0 < eta)
    (hd : V2.dot N I ≤ 0) (hk : 0 ≤ 1 - eta ^ 2 * (1 - V2.dot N I ^ 2)) :
    V2.refract (-V2.refract I N eta) (-N) (1 / eta) = -I :=
  (back_vec2 I N eta hI hN he hd hk).2

/-- C136, `vec2`: a ray that enters a plane-parallel plate leaves it in the direction it came from. -/
theorem C136_plate_vec2 (I N : V2 ℝ) (eta : ℝ) (hI : V2.length I = 1) (hN : V2.length N = 1) (he : 0 < eta)
    (hd : V2.dot N I ≤ 0) (hk : 0 ≤ 1 - eta ^ 2 * (1 - V2.dot N I ^ 2)) :
    V2.refract (V2.refract I N eta) N (1 / eta) = I :=
  (back_vec2 I N eta hI hN he hd hk).1

/-- the refracted ray, and what the formula makes of it on the other side -/
private theorem back_vec3 (I N : V3 ℝ) (eta : ℝ) (hI : V3.length I = 1) (hN : V3.length N = 1) (he : 0 < eta)
    (hd : V3.dot N I ≤ 0) (hk : 0 ≤ 1 - eta ^ 2 * (1 - V3.dot N I ^ 2)) :
    V3.refract (V3.refract I N eta) N (1 / eta) = I ∧ V3.refract (-V3.refract I N eta) (-N) (1 / eta) = -I := by
  have hI := V3.dot_self_of_length hI
  have hN := V3.dot_self_of_length hN
  have hk' : (lit 1 : ℝ) - eta * eta * (lit 1 - V3.dot N I * V3.dot N I) = 1 - eta ^ 2 * (1 - V3.dot N I ^ 2) := by
    simp only [lit_real]; push_cast; ring
  have e : V3.refract I N eta = eta * I - (eta * V3.dot N I + Real.sqrt (1 - eta ^ 2 * (1 - V3.dot N I ^ 2))) * N := by
    simp only [V3.refract, hk', F.sqrt_real]
    rw [if_neg (by simpa using hk)]
  have hs := Real.sq_sqrt hk
  rw [e]
  generalize hd' : V3.dot N I = d at *
  generalize Real.sqrt (1 - eta ^ 2 * (1 - d ^ 2)) = r at *
  have g : eta ≠ 0 := he.ne'
  have dT : V3.dot N (eta * I - (eta * d + r) * N) = -r := by
    simp [V3.dot] at hN hd' ⊢
    linear_combination eta * hd' - (eta * d + r) * hN
  have dT' : V3.dot (-N) (-(eta * I - (eta * d + r) * N)) = -r := by
    simp [V3.dot] at hN hd' ⊢
    linear_combination eta * hd' - (eta * d + r) * hN
  have kk : (lit 1 : ℝ) - 1 / eta * (1 / eta) * (lit 1 - -r * -r) = d ^ 2 := by
    simp only [lit_real]
    push_cast
    field_simp
    linear_combination hs
  have sq : Real.sqrt (d ^ 2) = -d := by rw [Real.sqrt_sq_eq_abs, abs_of_nonpos hd]
  constructor
  · simp only [V3.refract, dT, kk, F.sqrt_real, sq]
    rw [if_neg (by simp; positivity)]
    ext <;> simp <;> field_simp <;> ring
  · simp only [V3.refract, dT', kk, F.sqrt_real, sq]
    rw [if_neg (by simp; positivity)]
    ext <;> simp <;> field_simp <;> ring

/-- C136, `vec3`: light can be reversed.  The refracted ray sent back, seen from the other side of the surface and with the
inverse ratio of the indices, leaves along the first ray. -/
theorem C136_reversible_vec3 (I N : V3 ℝ) (eta : ℝ) (hI : V3.length I = 1) (hN : V3.length N = 1) (he : 0 < eta)
    (hd : V3.dot N I ≤ 0) (hk : 0 ≤ 1 - eta ^ 2 * (1 - V3.dot N I ^ 2)) :
    V3.refract (-V3.refract I N eta) (-N) (1 / eta) = -I :=
  (back_vec3 I N eta hI hN he hd hk).2

/-- C136, `vec3`: a ray that enters a plane-parallel plate leaves it in the direction it came from. -/
theorem C136_plate_vec3 (I N : V3 ℝ) (eta : ℝ) (hI : V3.length I = 1) (hN : V3.length N = 1) (he : 0 < eta)
    (hd : V3.dot N I ≤ 0) (hk : 0 ≤ 1 - eta ^ 2 * (1 - V3.dot N I ^ 2)) :
    V3.refract (V3.refract I N eta) N (1 / eta) = I :=
  (back_vec3 I N eta hI hN he hd hk).1

/-- the refracted ray, and what the formula makes of it on the other side -/
private theorem back_vec4 (I N : V4 ℝ) (eta : ℝ) (hI : V4.length I = 1) (hN : V4.length N = 1) (he : 0 < eta)
    (hd : V4.dot N I ≤ 0) (hk : 0 ≤ 1 - eta ^ 2 * (1 - V4.dot N I ^ 2)) :
    V4.refract (V4.refract I N eta) N (1 / eta) = I ∧ V4.refract (-V4.refract I N eta) (-N) (1 / eta) = -I := by
  have hI := V4.dot_self_of_length hI
  have hN := V4.dot_self_of_length hN
  have hk' : (lit 1 : ℝ) - eta * eta * (lit 1 - V4.dot N I * V4.dot N I) = 1 - eta ^ 2 * (1 - V4.dot N I ^ 2) := by
    simp only [lit_real]; push_cast; ring
  have e : V4.refract I N eta = eta * I - (eta * V4.dot N I + Real.sqrt (1 - eta ^ 2 * (1 - V4.dot N I ^ 2))) * N := by
    simp only [V4.refract, hk', F.sqrt_real]
    rw [if_neg (by simpa using hk)]
  have hs := Real.sq_sqrt hk
  rw [e]
  generalize hd' : V4.dot N I = d at *
  generalize Real.sqrt (1 - eta ^ 2 * (1 - d ^ 2)) = r at *
  have g : eta ≠ 0 := he.ne'
  have dT : V4.dot N (eta * I - (eta * d + r) * N) = -r := by
    simp [V4.dot] at hN hd' ⊢
    linear_combination eta * hd' - (eta * d + r) * hN
  have dT' : V4.dot (-N) (-(eta * I - (eta * d + r) * N)) = -r := by
    simp [V4.dot] at hN hd' ⊢
    linear_combination eta * hd' - (eta * d + r) * hN
  have kk : (lit 1 : ℝ) - 1 / eta * (1 / eta) * (lit 1 - -r * -r) = d ^ 2 := by
    simp only [lit_real]
    push_cast
    field_simp
    linear_combination hs
  have sq : Real.sqrt (d ^ 2) = -d := by rw [Real.sqrt_sq_eq_abs, abs_of_nonpos hd]
  constructor
  · simp only [V4.refract, dT, kk, F.sqrt_real, sq]
    rw [if_neg (by simp; positivity)]
    ext <;> simp <;> field_simp <;> ring
  · simp only [V4.refract, dT', kk, F.sqrt_real, sq]
    rw [if_neg (by simp; positivity)]
    ext <;> simp <;> field_simp <;> ring

/-- C136, `vec4`: light can be reversed.  The refracted ray sent back, seen from the other side of the surface and with the
inverse ratio of the indices, leaves along the first ray. -/
theorem C136_reversible_vec4 (I N : V4 ℝ) (eta : ℝ) (hI : V4.length I = 1) (hN : V4.length N = 1) (he : 0 < eta)
    (hd : V4.dot N I ≤ 0) (hk : 0 ≤ 1 - eta ^ 2 * (1 - V4.dot N I ^ 2)) :
    V4.refract (-V4.refract I N eta) (-N) (1 / eta) = -I :=
  (back_vec4 I N eta hI hN he hd hk).2

/-- C136, `vec4`: a ray that enters a plane-parallel plate leaves it in the direction it came from. -/
theorem C136_plate_vec4 (I N : V4 ℝ) (eta : ℝ) (hI : V4.length I = 1) (hN : V4.length N = 1) (he : 0 < eta)
    (hd : V4.dot N I ≤ 0) (hk : 0 ≤ 1 - eta ^ 2 * (1 - V4.dot N I ^ 2)) :
    V4.refract (V4.refract I N eta) N (1 / eta) = I :=
  (back_vec4 I N eta hI hN he hd hk).1

/-! ## Non-vacuity -/

private def ceiling : V2 F32 := ⟨lit 0, lit 1⟩
private def wall : V2 F32 := ⟨lit 1, lit 0⟩

private theorem norm_dir (v : V2 F32) (x y : ℚ) (hx : v.x.val = x) (hy : v.y.val = y) (h : x ^ 2 + y ^ 2 = 1) :
    ‖exactE (coord v)‖ = 1 := by
  rw [EuclideanSpace.norm_eq, Fin.sum_univ_two]
  have a : exactE (coord v) 0 = (x : ℝ) := by rw [← hx]; rfl
  have b : exactE (coord v) 1 = (y : ℝ) := by rw [← hy]; rfl
  rw [a, b, Real.norm_eq_abs, Real.norm_eq_abs, sq_abs, sq_abs, Real.sqrt_eq_one]
  exact_mod_cast h

private theorem ceiling_norm : ‖exactE (coord ceiling)‖ = 1 := norm_dir _ 0 1 (by decide +kernel) (by decide +kernel) (by norm_num)
private theorem wall_norm : ‖exactE (coord wall)‖ = 1 := norm_dir _ 1 0 (by decide +kernel) (by decide +kernel) (by norm_num)

/-- a ray between two mirrors in a corner -/
example := C136_mirrors_vec2 wall (fun i => by fin_cases i <;> decide +kernel) (by rw [wall_norm]; norm_num)
  (by rw [wall_norm]; norm_num) [ceiling, wall, ceiling] (by
    intro N h
    have u : AboutUnit (coord ceiling) := ⟨fun i => by fin_cases i <;> decide +kernel, by rw [ceiling_norm]; norm_num⟩
    have v : AboutUnit (coord wall) := ⟨fun i => by fin_cases i <;> decide +kernel, by rw [wall_norm]; norm_num⟩
    simp only [List.mem_cons, List.not_mem_nil, or_false] at h
    rcases h with rfl | rfl | rfl <;> assumption) (by norm_num)

/-- light that meets glass at an angle -/
example : V2.refract (V2.refract (⟨3 / 5, -4 / 5⟩ : V2 ℝ) ⟨0, 1⟩ (2 / 3)) ⟨0, 1⟩ (1 / (2 / 3)) = ⟨3 / 5, -4 / 5⟩ :=
  C136_plate_vec2 _ _ _ (V2.length_of_dot_self (by norm_num [V2.dot])) (V2.length_of_dot_self (by norm_num [V2.dot]))
    (by norm_num) (by norm_num [V2.dot]) (by norm_num [V2.dot])

end Zcm
