import Verif.Lemmas.F32RaySphere
import Verif.Model.Exponential

/-!
# C146  Where a ray meets a sphere

`sphereDisc`, `sphereTime`, `sphereHit` and `GoodSphere` are in Spec/RaySphere.lean; `exactly v` is the exact vector whose coordinates are
the floats of `v`.
-/

set_option exponentiation.threshold 300

namespace Zcm

open F32
open scoped RealInnerProductSpace

/-- What a caller writes for the discriminant: `b * b - (dot(m, m) - r * r)` with `m = o - s` and `b = dot(m, d)`. -/
def sphereDiscOf (s : V3 F32) (r : F32) (o d : V3 F32) : F32 :=
  let m := o - s
  let b := V3.dot m d
  b * b - (V3.dot m m - r * r)

/-- What a caller writes for the distance along the ray: `-b - sqrt(discriminant)`. -/
def sphereTimeOf (s : V3 F32) (r : F32) (o d : V3 F32) : F32 := -V3.dot (o - s) d - F.sqrt (sphereDiscOf s r o d)

/-- What a caller writes for the point: `o + d * t`. -/
def sphereHitOf (s : V3 F32) (r : F32) (o d : V3 F32) : V3 F32 := o + d * sphereTimeOf s r o d

/-! ## The specification is right -/

private theorem sphere_power (s o d : Space) (r t : ℝ) :
    ‖o + t • d - s‖ ^ 2 - r ^ 2 = (t + ⟪o - s, d⟫) ^ 2 - sphereDisc s r o d + t ^ 2 * (‖d‖ ^ 2 - 1) := by
  rw [show o + t • d - s = (o - s) + t • d by module, norm_add_sq_real, real_inner_smul_right, norm_smul, mul_pow, Real.norm_eq_abs, sq_abs]
  unfold sphereDisc
  ring

/-- When the discriminant is negative the whole line stays outside the sphere. -/
theorem C146_exact_miss (s o d : Space) (r : ℝ) (hd : ‖d‖ = 1) (h : sphereDisc s r o d < 0) (t : ℝ) : |r| < ‖o + t • d - s‖ := by
  have p := sphere_power s o d r t
  rw [hd] at p
  refine lt_of_pow_lt_pow_left₀ 2 (norm_nonneg _) ?_
  rw [sq_abs]
  linarith [sq_nonneg (t + ⟪o - s, d⟫)]

/-- Otherwise `sphereHit` is on the sphere, and every earlier point of the line is outside. -/
theorem C146_exact_hit (s o d : Space) (r : ℝ) (hd : ‖d‖ = 1) (hr : 0 ≤ r) (h : 0 ≤ sphereDisc s r o d) :
    ‖sphereHit s r o d - s‖ = r ∧ ∀ t < sphereTime s r o d, r < ‖o + t • d - s‖ := by
  have q := Real.mul_self_sqrt h
  have q0 := Real.sqrt_nonneg (sphereDisc s r o d)
  refine ⟨?_, fun t ht => ?_⟩
  · have p := sphere_power s o d r (sphereTime s r o d)
    rw [hd] at p
    have e : ‖sphereHit s r o d - s‖ ^ 2 = r ^ 2 := by
      unfold sphereHit
      rw [show (sphereTime s r o d + ⟪o - s, d⟫) ^ 2 = sphereDisc s r o d by unfold sphereTime; linear_combination q] at p
      linarith
    exact (pow_left_inj₀ (norm_nonneg _) hr two_ne_zero).1 e
  · have p := sphere_power s o d r t
    rw [hd] at p
    refine lt_of_pow_lt_pow_left₀ 2 (norm_nonneg _) ?_
    have a : Real.sqrt (sphereDisc s r o d) < -(t + ⟪o - s, d⟫) := by unfold sphereTime at ht; linarith
    nlinarith

/-! ## The floats -/

/-- C146: the computed discriminant is finite and accurate. -/
theorem C146_discriminant (s : V3 F32) (r : F32) (o d : V3 F32) (M : ℝ) (h : GoodSphere s r o d M) :
    Near (sphereDiscOf s r o d) (sphereDisc (exactly s) r.val (exactly o) (exactly d)) (18.1 / 2 ^ 24 * M ^ 2) :=
  near_sphereDisc h

/-- C146: the test `discriminant < 0` tells hits from misses, except for rays within the rounding error of touching the sphere. -/
theorem C146_decision (s : V3 F32) (r : F32) (o d : V3 F32) (M : ℝ) (h : GoodSphere s r o d M) :
    (18.1 / 2 ^ 24 * M ^ 2 < sphereDisc (exactly s) r.val (exactly o) (exactly d) → lit 0 < sphereDiscOf s r o d) ∧
    (sphereDisc (exactly s) r.val (exactly o) (exactly d) < -(18.1 / 2 ^ 24 * M ^ 2) → sphereDiscOf s r o d < lit 0) := by
  obtain ⟨f, e⟩ := C146_discriminant s r o d M h
  have f0 : (lit 0 : F32).IsFin = true := by decide +kernel
  have v0 : (lit 0 : F32).val = 0 := by decide +kernel
  have e' := abs_le.1 e
  refine ⟨fun g => ⟨isFin_ne_nan f0, isFin_ne_nan f, ?_⟩, fun g => ⟨isFin_ne_nan f, isFin_ne_nan f0, ?_⟩⟩
  · rw [key_lt_iff, v0, ← Rat.cast_lt (K := ℝ)]; push_cast; linarith
  · rw [key_lt_iff, v0, ← Rat.cast_lt (K := ℝ)]; push_cast; linarith

/-- C146: the computed distance along the ray is finite and accurate, when the ray is not within (twice) the rounding error of touching
the sphere; the error grows as the ray gets closer to touching. -/
theorem C146_distance (s : V3 F32) (r : F32) (o d : V3 F32) (M : ℝ) (h : GoodSphere s r o d M)
    (g : 2 * (18.1 / 2 ^ 24 * M ^ 2) ≤ sphereDisc (exactly s) r.val (exactly o) (exactly d)) :
    Near (sphereTimeOf s r o d) (sphereTime (exactly s) r.val (exactly o) (exactly d))
      (1 / 2 ^ 24 * (9 * M + 18.2 * (M ^ 2 / Real.sqrt (sphereDisc (exactly s) r.val (exactly o) (exactly d))))) :=
  (near_sphereTime h g).2.2

/-- C146: the test `t > 0` tells whether the sphere is ahead of the ray's origin, up to the error of `t`. -/
theorem C146_ahead (s : V3 F32) (r : F32) (o d : V3 F32) (M : ℝ) (h : GoodSphere s r o d M)
    (g : 2 * (18.1 / 2 ^ 24 * M ^ 2) ≤ sphereDisc (exactly s) r.val (exactly o) (exactly d))
    (k : 1 / 2 ^ 24 * (9 * M + 18.2 * (M ^ 2 / Real.sqrt (sphereDisc (exactly s) r.val (exactly o) (exactly d)))) <
      |sphereTime (exactly s) r.val (exactly o) (exactly d)|) :
    lit 0 < sphereTimeOf s r o d ↔ 0 < sphereTime (exactly s) r.val (exactly o) (exactly d) := by
  obtain ⟨f, e⟩ := C146_distance s r o d M h g
  have f0 : (lit 0 : F32).IsFin = true := by decide +kernel
  have v0 : (lit 0 : F32).val = 0 := by decide +kernel
  have e' := abs_le.1 e
  have c : lit 0 < sphereTimeOf s r o d ↔ 0 < ((sphereTimeOf s r o d).val : ℝ) := by
    constructor
    · rintro ⟨-, -, x⟩
      rw [key_lt_iff, v0] at x
      exact_mod_cast x
    · intro x
      refine ⟨isFin_ne_nan f0, isFin_ne_nan f, ?_⟩
      rw [key_lt_iff, v0]
      exact_mod_cast x
  rw [c]
  rcases abs_cases (sphereTime (exactly s) r.val (exactly o) (exactly d)) with ⟨x, y⟩ | ⟨x, y⟩ <;> rw [x] at k
  · constructor <;> intro z <;> linarith
  · constructor <;> intro z <;> linarith

/-- C146: the computed point is finite and within the stated error of the exact one. -/
theorem C146_point (s : V3 F32) (r : F32) (o d : V3 F32) (M : ℝ) (h : GoodSphere s r o d M)
    (g : 2 * (18.1 / 2 ^ 24 * M ^ 2) ≤ sphereDisc (exactly s) r.val (exactly o) (exactly d)) :
    (∀ i, (coord (sphereHitOf s r o d) i).IsFin = true) ∧
    ‖exactly (sphereHitOf s r o d) - sphereHit (exactly s) r.val (exactly o) (exactly d)‖ ≤
      1 / 2 ^ 24 * (‖exactly o‖ + 16 * M + 19 * (M ^ 2 / Real.sqrt (sphereDisc (exactly s) r.val (exactly o) (exactly d)))) :=
  near_sphereHit h g

/-- C146: the computed point is on the sphere, up to the rounding error and the error in the length of the direction. -/
theorem C146_on_sphere (s : V3 F32) (r : F32) (o d : V3 F32) (M : ℝ) (h : GoodSphere s r o d M) (r0 : (0 : ℝ) < r.val)
    (g : 2 * (18.1 / 2 ^ 24 * M ^ 2) ≤ sphereDisc (exactly s) r.val (exactly o) (exactly d)) :
    |‖exactly (sphereHitOf s r o d) - exactly s‖ - r.val| ≤
      1 / 2 ^ 24 * (‖exactly o‖ + 16 * M + 19 * (M ^ 2 / Real.sqrt (sphereDisc (exactly s) r.val (exactly o) (exactly d)))) +
      12 * (M ^ 2 / r.val) * |‖exactly d‖ - 1| := by
  obtain ⟨M0, d1, d0⟩ := h.norms
  have T := (near_sphereTime h g).1
  obtain ⟨-, e⟩ := C146_point s r o d M h g
  have Δ0 : 0 ≤ sphereDisc (exactly s) r.val (exactly o) (exactly d) := le_trans (by positivity) g
  have p := sphere_power (exactly s) (exactly o) (exactly d) r.val (sphereTime (exactly s) r.val (exactly o) (exactly d))
  rw [show (sphereTime (exactly s) r.val (exactly o) (exactly d) + ⟪exactly o - exactly s, exactly d⟫) ^ 2 =
    sphereDisc (exactly s) r.val (exactly o) (exactly d) by
      unfold sphereTime; linear_combination Real.mul_self_sqrt Δ0, sub_self, zero_add] at p
  have k : |‖sphereHit (exactly s) r.val (exactly o) (exactly d) - exactly s‖ - r.val| ≤ 12 * (M ^ 2 / r.val) * |‖exactly d‖ - 1| := by
    have x0 := norm_nonneg (sphereHit (exactly s) r.val (exactly o) (exactly d) - exactly s)
    unfold sphereHit at x0 ⊢
    generalize ‖exactly o + sphereTime (exactly s) r.val (exactly o) (exactly d) • exactly d - exactly s‖ = x at *
    generalize sphereTime (exactly s) r.val (exactly o) (exactly d) = τ at *
    generalize ‖exactly d‖ = δ at *
    rw [show 12 * (M ^ 2 / r.val) * |δ - 1| = 12 * M ^ 2 * |δ - 1| / r.val by ring, le_div_iff₀ r0]
    calc |x - r.val| * r.val ≤ |x - r.val| * |x + r.val| := by
          gcongr
          rw [abs_of_nonneg (by linarith)]
          linarith
      _ = |τ ^ 2 * (δ ^ 2 - 1)| := by rw [← abs_mul, ← p]; congr 1; ring
      _ = |τ| ^ 2 * (|δ + 1| * |δ - 1|) := by rw [abs_mul, ← abs_mul (δ + 1), abs_pow]; congr 2; ring
      _ ≤ (2.42 * M) ^ 2 * (2.000001 * |δ - 1|) := by
          gcongr
          rw [abs_of_nonneg (by linarith)]
          linarith
      _ ≤ 12 * M ^ 2 * |δ - 1| := by
          have : 0 ≤ M ^ 2 * |δ - 1| := by positivity
          nlinarith
  have t := abs_norm_sub_norm_le (exactly (sphereHitOf s r o d) - exactly s) (sphereHit (exactly s) r.val (exactly o) (exactly d) - exactly s)
  rw [sub_sub_sub_cancel_right] at t
  have t2 := abs_sub_le ‖exactly (sphereHitOf s r o d) - exactly s‖ ‖sphereHit (exactly s) r.val (exactly o) (exactly d) - exactly s‖ r.val
  linarith

/-! ## Non-vacuity -/

/-- the exact values of a literal vector -/
private theorem exactly_lit {x y z : F32} {a b c : ℝ} (hx : (x.val : ℝ) = a) (hy : (y.val : ℝ) = b) (hz : (z.val : ℝ) = c) :
    exactly (⟨x, y, z⟩ : V3 F32) = WithLp.toLp 2 ![a, b, c] := by
  ext i; rw [exactly_apply]
  fin_cases i
  · exact hx
  · exact hy
  · exact hz

/-- the sphere around the origin with radius 2, seen from (0,0,10) looking down -z: a hit ahead; from (3,0,10): a miss -/
example :
    (let s : V3 F32 := ⟨lit 0, lit 0, lit 0⟩; let o : V3 F32 := ⟨lit 0, lit 0, lit 10⟩; let d : V3 F32 := ⟨lit 0, lit 0, lit (-1)⟩
     let r : F32 := lit 2
     GoodSphere s r o d 10 ∧ (0 : ℝ) < r.val ∧ sphereDisc (exactly s) r.val (exactly o) (exactly d) = 4 ∧
     sphereTime (exactly s) r.val (exactly o) (exactly d) = 8) ∧
    (let s : V3 F32 := ⟨lit 0, lit 0, lit 0⟩; let o : V3 F32 := ⟨lit 3, lit 0, lit 10⟩; let d : V3 F32 := ⟨lit 0, lit 0, lit (-1)⟩
     let r : F32 := lit 2
     GoodSphere s r o d 11 ∧ sphereDisc (exactly s) r.val (exactly o) (exactly d) = -5) := by
  have v0 : ((lit 0 : F32).val : ℝ) = 0 := by have : (lit 0 : F32).val = 0 := by decide +kernel
                                              rw [this]; norm_num
  have v2 : ((lit 2 : F32).val : ℝ) = 2 := by have : (lit 2 : F32).val = 2 := by decide +kernel
                                              rw [this]; norm_num
  have v3 : ((lit 3 : F32).val : ℝ) = 3 := by have : (lit 3 : F32).val = 3 := by decide +kernel
                                              rw [this]; norm_num
  have vm : ((lit (-1) : F32).val : ℝ) = -1 := by have : (lit (-1) : F32).val = -1 := by decide +kernel
                                                  rw [this]; norm_num
  have vt : ((lit 10 : F32).val : ℝ) = 10 := by have : (lit 10 : F32).val = 10 := by decide +kernel
                                                rw [this]; norm_num
  have es : exactly (⟨lit 0, lit 0, lit 0⟩ : V3 F32) = 0 := by
    ext i; rw [exactly_apply]; fin_cases i <;> exact v0
  have nd : ‖(WithLp.toLp 2 ![0, 0, -1] : Space)‖ = 1 := by rw [EuclideanSpace.norm_eq, Fin.sum_univ_three]; simp
  have no : ‖(WithLp.toLp 2 ![0, 0, 10] : Space)‖ = 10 := by rw [EuclideanSpace.norm_eq, Fin.sum_univ_three]; simp
  have nq : ‖(WithLp.toLp 2 ![3, 0, 10] : Space)‖ ^ 2 = 109 := by
    rw [EuclideanSpace.norm_sq_eq, Fin.sum_univ_three]; simp; norm_num
  have nq' : ‖(WithLp.toLp 2 ![3, 0, 10] : Space)‖ ≤ 11 := by nlinarith [norm_nonneg (WithLp.toLp 2 ![3, 0, 10] : Space)]
  have i1 : ⟪(WithLp.toLp 2 ![0, 0, 10] : Space), WithLp.toLp 2 ![0, 0, -1]⟫ = -10 := by
    rw [PiLp.inner_apply, Fin.sum_univ_three]; simp
  have i2 : ⟪(WithLp.toLp 2 ![3, 0, 10] : Space), WithLp.toLp 2 ![0, 0, -1]⟫ = -10 := by
    rw [PiLp.inner_apply, Fin.sum_univ_three]; simp
  have D : sphereDisc (0 : Space) 2 (WithLp.toLp 2 ![0, 0, 10]) (WithLp.toLp 2 ![0, 0, -1]) = 4 := by
    unfold sphereDisc; rw [sub_zero, i1, no]; norm_num
  refine ⟨⟨⟨by decide +kernel, ?_, ?_, ?_, ?_, ?_, ?_⟩, ?_, ?_, ?_⟩, ⟨by decide +kernel, ?_, ?_, ?_, ?_, ?_, ?_⟩, ?_⟩
  · rw [exactly_lit v0 v0 vm, nd]; norm_num
  · rw [v2]; norm_num
  · rw [es, exactly_lit v0 v0 vt, sub_zero, no]
  · norm_num
  · norm_num
  · rw [exactly_lit v0 v0 vt, no]; norm_num
  · rw [v2]; norm_num
  · rw [es, exactly_lit v0 v0 vt, exactly_lit v0 v0 vm, v2, D]
  · rw [es, exactly_lit v0 v0 vt, exactly_lit v0 v0 vm, v2]
    unfold sphereTime
    rw [D, sub_zero, i1, show (4 : ℝ) = 2 ^ 2 by norm_num, Real.sqrt_sq (by norm_num)]
    norm_num
  · rw [exactly_lit v0 v0 vm, nd]; norm_num
  · rw [v2]; norm_num
  · rw [es, exactly_lit v3 v0 vt, sub_zero]; exact nq'
  · norm_num
  · norm_num
  · rw [exactly_lit v3 v0 vt]; refine nq'.trans ?_; norm_num
  · rw [es, exactly_lit v3 v0 vt, exactly_lit v0 v0 vm, v2]
    unfold sphereDisc
    rw [sub_zero, i2, nq]; norm_num

end Zcm
