import Verif.Lemmas.RotQuat
import Verif.Lemmas.Rotate

/-!
# C60: `quat(u, v)` rotates `u` onto `v`

Exact arithmetic.  The vectors are written `U * a` and `V * b` with unit vectors `a`, `b` (their
directions) and positive lengths `U`, `V`.
-/

namespace Zcm

theorem Quat.normalize_smul {q : Quat ℝ} {k : ℝ} (hk : 0 < k) :
    Quat.normalize (k * q) = Quat.normalize q := by
  rw [← Quat.eu_injective, Quat.eu_normalize, Quat.eu_normalize]
  have : eu (k * q) = k • eu q := by
    ext i
    fin_cases i <;> simp [eu, mul_comm]
  rw [this, norm_smul, Real.norm_of_nonneg hk.le, smul_smul, mul_inv]
  congr 1
  field_simp

/-- `normalize` divides by the length -/
theorem Quat.normalize_parts {q : Quat ℝ} (h : 0 < Quat.dot q q) :
    ∃ k : ℝ, 0 < k ∧ k * k * Quat.dot q q = 1 ∧
      Quat.normalize q = ⟨k * q.x, k * q.y, k * q.z, k * q.w⟩ := by
  have h1 := Real.sqrt_pos.2 h
  refine ⟨(√(Quat.dot q q))⁻¹, inv_pos.2 h1, ?_, ?_⟩
  · have := Real.mul_self_sqrt h.le
    generalize √(Quat.dot q q) = r at *
    rw [← this]
    field_simp
  · rw [← Quat.eu_injective, Quat.eu_normalize, ← Quat.length_eq_norm, Quat.length_eq_sqrt_dot]
    ext i
    fin_cases i <;> simp [eu]

/-- the parts of the constructor for `u = U * a`, `v = V * b` -/
theorem Quat.ofUV_eq {U V : ℝ} {a b : V3 ℝ} (hU : 0 < U) (hV : 0 < V) (ha : V3.dot a a = 1)
    (hb : V3.dot b b = 1) :
    Quat.ofUV (U * a) (V * b) =
      if 1 + V3.dot a b < 0.000001 then
        Quat.normalize (if |U * a.z| < |U * a.x| then ⟨-(U * a.y), U * a.x, 0, 0⟩ else ⟨0, -(U * a.z), U * a.y, 0⟩)
      else Quat.normalize ⟨a.y * b.z - a.z * b.y, a.z * b.x - a.x * b.z, a.x * b.y - a.y * b.x, 1 + V3.dot a b⟩ := by
  have hUV : 0 < U * V := mul_pos hU hV
  have e1 : V3.dot (U * a) (U * a) * V3.dot (V * b) (V * b) = (U * V) * (U * V) := by
    have : V3.dot (U * a) (U * a) * V3.dot (V * b) (V * b) = (U * V) * (U * V) * (V3.dot a a * V3.dot b b) := by
      simp [V3.dot]; ring
    rw [this, ha, hb]; ring
  have e2 : V3.dot (U * a) (V * b) = U * V * V3.dot a b := by simp [V3.dot]; ring
  have e0 : (lit 0.000001 : ℝ) = 0.000001 := by simp
  have l0 : (lit 0 : ℝ) = 0 := by simp
  have hcond : (U * V + U * V * V3.dot a b < 0.000001 * (U * V)) ↔ 1 + V3.dot a b < 0.000001 := by
    constructor
    · intro h
      by_contra h'
      push Not at h'
      nlinarith
    · intro h; nlinarith
  simp only [Quat.ofUV, e1, e2, F.sqrt_real, Real.sqrt_mul_self hUV.le, e0, l0, hcond]
  split_ifs with h1 h2 h3 h4
  · rfl
  · exact absurd (by simpa using h2) h3
  · exact absurd (by simpa using h4) h2
  · rfl
  · have : (Quat.wxyz (U * V + U * V * V3.dot a b) (V3.cross (U * a) (V * b)).x (V3.cross (U * a) (V * b)).y
        (V3.cross (U * a) (V * b)).z : Quat ℝ) = (U * V) * (⟨a.y * b.z - a.z * b.y, a.z * b.x - a.x * b.z,
          a.x * b.y - a.y * b.x, 1 + V3.dot a b⟩ : Quat ℝ) := by
      ext <;> simp <;> ring
    rw [this, Quat.normalize_smul hUV]

/-- C60: unless the directions are (nearly) opposite (1 + cos of the angle below 10⁻⁶), the quaternion
is a unit quaternion that rotates the direction of `u` to the direction of `v`; it turns about an axis
orthogonal to both (it fixes `u × v`), so it is the shortest rotation. -/
theorem C60_general (U V : ℝ) (a b : V3 ℝ) (hU : 0 < U) (hV : 0 < V) (ha : V3.length a = 1)
    (hb : V3.length b = 1) (h : 0.000001 ≤ 1 + V3.dot a b) :
    let q := Quat.ofUV (U * a) (V * b)
    Quat.length q = 1 ∧ q * a = b ∧ q * V3.cross a b = V3.cross a b := by
  have ha := V3.dot_self_of_length ha
  have hb := V3.dot_self_of_length hb
  simp only [Quat.ofUV_eq hU hV ha hb, if_neg (not_lt.2 h)]
  have hd : Quat.dot (⟨a.y * b.z - a.z * b.y, a.z * b.x - a.x * b.z, a.x * b.y - a.y * b.x, 1 + V3.dot a b⟩ : Quat ℝ)
      ⟨a.y * b.z - a.z * b.y, a.z * b.x - a.x * b.z, a.x * b.y - a.y * b.x, 1 + V3.dot a b⟩ = 2 * (1 + V3.dot a b) := by
    simp only [Quat.dot, V3.dot] at *
    grind
  obtain ⟨k, -, hk, he⟩ := Quat.normalize_parts (q := (⟨a.y * b.z - a.z * b.y, a.z * b.x - a.x * b.z,
    a.x * b.y - a.y * b.x, 1 + V3.dot a b⟩ : Quat ℝ)) (by rw [hd]; linarith)
  refine ⟨Quat.length_normalize ⟨3, ?_⟩, ?_⟩
  · simp; linarith
  rw [he]
  rw [hd] at hk
  simp only [V3.dot] at *
  constructor
  · ext <;> simp [Quat.mulV_x, Quat.mulV_y, Quat.mulV_z, V3.dot] <;> grind
  · ext <;> simp [Quat.mulV_x, Quat.mulV_y, Quat.mulV_z, V3.dot] <;> ring

/-- C60: for (nearly) opposite directions it is a unit quaternion and a half turn (real part 0) about
an axis orthogonal to `u`, so it takes the direction of `u` to its opposite. -/
theorem C60_opposite (U V : ℝ) (a b : V3 ℝ) (hU : 0 < U) (hV : 0 < V) (ha : V3.length a = 1)
    (hb : V3.length b = 1) (h : 1 + V3.dot a b < 0.000001) :
    let q := Quat.ofUV (U * a) (V * b)
    Quat.length q = 1 ∧ q.w = 0 ∧ q * a = -a := by
  have ha := V3.dot_self_of_length ha
  have hb := V3.dot_self_of_length hb
  simp only [Quat.ofUV_eq hU hV ha hb, if_pos h]
  split_ifs with h1
  · have hx : U * a.x ≠ 0 := fun h0 => by rw [h0, abs_zero] at h1; exact absurd h1 (not_lt.2 (abs_nonneg _))
    have hpos : 0 < Quat.dot (⟨-(U * a.y), U * a.x, 0, 0⟩ : Quat ℝ) ⟨-(U * a.y), U * a.x, 0, 0⟩ := by
      have := mul_self_pos.2 hx
      simp [Quat.dot]; nlinarith [mul_self_nonneg (U * a.y)]
    obtain ⟨k, -, hk, he⟩ := Quat.normalize_parts hpos
    refine ⟨Quat.length_normalize ⟨1, by simpa using hx⟩, ?_, ?_⟩
    · rw [he]; simp
    · rw [he]
      simp only [Quat.dot, V3.dot] at *
      ext <;> simp [Quat.mulV_x, Quat.mulV_y, Quat.mulV_z] <;> grind
  · have hne : U * a.z ≠ 0 ∨ U * a.y ≠ 0 := by
      by_contra hc
      push Not at hc
      obtain ⟨hz, hy⟩ := hc
      rw [hz, abs_zero, abs_pos, not_not] at h1
      have hU' := hU.ne'
      simp only [mul_eq_zero, hU', false_or] at h1 hy hz
      simp [V3.dot, h1, hy, hz] at ha
    have hpos : 0 < Quat.dot (⟨0, -(U * a.z), U * a.y, 0⟩ : Quat ℝ) ⟨0, -(U * a.z), U * a.y, 0⟩ := by
      simp only [Quat.dot]
      rcases hne with h2 | h2
      · have := mul_self_pos.2 h2
        nlinarith [mul_self_nonneg (U * a.y)]
      · have := mul_self_pos.2 h2
        nlinarith [mul_self_nonneg (U * a.z)]
    obtain ⟨k, -, hk, he⟩ := Quat.normalize_parts hpos
    refine ⟨?_, ?_, ?_⟩
    · rcases hne with h2 | h2
      · exact Quat.length_normalize ⟨1, by simpa using h2⟩
      · exact Quat.length_normalize ⟨2, by simpa using h2⟩
    · rw [he]; simp
    · rw [he]
      simp only [Quat.dot, V3.dot] at *
      ext <;> simp [Quat.mulV_x, Quat.mulV_y, Quat.mulV_z] <;> grind

/-- C60 in the words of the claim: for all non-zero `u`, `v` whose directions are not nearly opposite
`q * normalize(u) == normalize(v)`; for exactly opposite ones `q * u == -u`. -/
theorem C60_uv (u v : V3 ℝ) (hu : ∃ i, coord u i ≠ 0) (hv : ∃ i, coord v i ≠ 0) :
    Quat.length (Quat.ofUV u v) = 1 ∧
    (0.000001 ≤ 1 + V3.dot (V3.normalize u) (V3.normalize v) →
      Quat.ofUV u v * V3.normalize u = V3.normalize v) ∧
    (V3.normalize v = -V3.normalize u → Quat.ofUV u v * u = -u) := by
  have u0 : 0 < V3.length u := by rw [V3.length_eq_norm]; exact V3.norm_pos hu
  have v0 : 0 < V3.length v := by rw [V3.length_eq_norm]; exact V3.norm_pos hv
  have ua := V3.length_normalize hu
  have va := V3.length_normalize hv
  have eu' := V3.eq_length_mul hu
  have ev' := V3.eq_length_mul hv
  generalize V3.length u = U at *
  generalize V3.length v = V at *
  generalize V3.normalize u = a at *
  generalize V3.normalize v = b at *
  subst eu' ev'
  refine ⟨?_, fun h => (C60_general U V a b u0 v0 ua va h).2.1, ?_⟩
  · by_cases h : 1 + V3.dot a b < 0.000001
    · exact (C60_opposite U V a b u0 v0 ua va h).1
    · exact (C60_general U V a b u0 v0 ua va (not_lt.1 h)).1
  · rintro rfl
    have h : 1 + V3.dot a (-a) < 0.000001 := by
      have : V3.dot a (-a) = -V3.dot a a := by simp [V3.dot]; ring
      rw [this, V3.dot_self_of_length ua]; norm_num
    have := (C60_opposite U V a (-a) u0 v0 ua va h).2.2
    generalize Quat.ofUV (U * a) (V * -a) = q at *
    have e : q * (U * a) = U * (q * a) := by
      ext <;> simp [Quat.mulV_x, Quat.mulV_y, Quat.mulV_z] <;> ring
    rw [e, this]
    ext <;> simp

/-- Non-vacuity: `u = (2,0,0)`, `v = (0,3,0)`, and the opposite pair `u = (2,0,0)`, `v = (-1,0,0)`. -/
example : V3.length (⟨1, 0, 0⟩ : V3 ℝ) = 1 ∧ V3.length (⟨0, 1, 0⟩ : V3 ℝ) = 1 ∧
    (0.000001 : ℝ) ≤ 1 + V3.dot (⟨1, 0, 0⟩ : V3 ℝ) ⟨0, 1, 0⟩ ∧
    1 + V3.dot (⟨1, 0, 0⟩ : V3 ℝ) ⟨-1, 0, 0⟩ < 0.000001 := by
  refine ⟨V3.length_of_dot_self (by simp [V3.dot]), V3.length_of_dot_self (by simp [V3.dot]), ?_, ?_⟩ <;>
    simp [V3.dot] <;> norm_num

end Zcm
