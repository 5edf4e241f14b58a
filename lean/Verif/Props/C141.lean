import Verif.Lemmas.F32Ray
import Verif.Lemmas.F32Zero
import Verif.Props.C84
import Verif.Spec.Clip

/-!
# C141  Where a ray meets a plane

`planeTime`, `planeHit`, `facing` and `GoodRay` are in Spec/Ray.lean; `exactly v` is the exact vector whose coordinates are the floats
of `v`.
-/

set_option exponentiation.threshold 300

namespace Zcm

open F32
open scoped RealInnerProductSpace

/-- What a caller writes for the point where the ray from `o` in direction `d` meets the plane through `c` with normal `n`. -/
def rayPlane (n c o d : V3 F32) : V3 F32 := o + d * (V3.dot n (c - o) / V3.dot n d)

/-- C141: `dot(n, c - o) / dot(n, d)` is finite and accurate. -/
theorem C141_time (n c o d : V3 F32) (h : GoodRay n c o d) :
    Near (V3.dot n (c - o) / V3.dot n d) (planeTime (exactly n) (exactly c) (exactly o) (exactly d))
      (8.1 / 2 ^ 24 * (‖exactly c - exactly o‖ / (facing (exactly n) (exactly d) ^ 2 * ‖exactly d‖))) :=
  (near_planeTime h).2

/-- C141: the computed point is finite and within `11 / 2^24` of the distance to the plane's reference point, divided by the square of
the cosine of the angle of incidence (and one rounding of the origin), of the point where the exact ray meets the exact plane. -/
theorem C141_hit (n c o d : V3 F32) (h : GoodRay n c o d) :
    (∀ i, (coord (rayPlane n c o d) i).IsFin = true) ∧
    ‖exactly (rayPlane n c o d) - planeHit (exactly n) (exactly c) (exactly o) (exactly d)‖ ≤
      1 / 2 ^ 24 * (‖exactly o‖ + 11 * (‖exactly c - exactly o‖ / facing (exactly n) (exactly d) ^ 2)) :=
  near_planeHit h

/-- the exact point lies on the plane and on the ray -/
theorem C141_exact (n c o d : Space) (h : ⟪n, d⟫ ≠ 0) :
    ⟪n, planeHit n c o d - c⟫ = 0 ∧ ∃ t : ℝ, planeHit n c o d = o + t • d := by
  refine ⟨?_, planeTime n c o d, rfl⟩
  unfold planeHit planeTime
  rw [inner_sub_right, inner_add_right, real_inner_smul_right, div_mul_cancel₀ _ h, inner_sub_right]
  ring

/-- C141: the computed point lies on the plane up to the same error. -/
theorem C141_on_plane (n c o d : V3 F32) (h : GoodRay n c o d) :
    |⟪exactly n, exactly (rayPlane n c o d) - exactly c⟫| ≤
      ‖exactly n‖ * (1 / 2 ^ 24 * (‖exactly o‖ + 11 * (‖exactly c - exactly o‖ / facing (exactly n) (exactly d) ^ 2))) := by
  obtain ⟨n0, d0, -, s0, -, hY⟩ := h.pos
  have r0 : ⟪exactly n, exactly d⟫ ≠ 0 := abs_pos.1 (by rw [hY]; positivity)
  have e := (C141_exact (exactly n) (exactly c) (exactly o) (exactly d) r0).1
  have k : ⟪exactly n, exactly (rayPlane n c o d) - exactly c⟫ =
      ⟪exactly n, exactly (rayPlane n c o d) - planeHit (exactly n) (exactly c) (exactly o) (exactly d)⟫ := by
    rw [inner_sub_right] at e
    rw [inner_sub_right, inner_sub_right]
    linarith
  rw [k]
  refine (abs_real_inner_le_norm _ _).trans ?_
  gcongr
  exact (C141_hit n c o d h).2

/-- C141: the sign of the computed time tells whether the plane is in front of the ray or behind it, unless the exact time is smaller
than the error. -/
theorem C141_front (n c o d : V3 F32) (h : GoodRay n c o d) :
    (8.1 / 2 ^ 24 * (‖exactly c - exactly o‖ / (facing (exactly n) (exactly d) ^ 2 * ‖exactly d‖)) <
        planeTime (exactly n) (exactly c) (exactly o) (exactly d) → lit 0 < V3.dot n (c - o) / V3.dot n d) ∧
    (planeTime (exactly n) (exactly c) (exactly o) (exactly d) <
        -(8.1 / 2 ^ 24 * (‖exactly c - exactly o‖ / (facing (exactly n) (exactly d) ^ 2 * ‖exactly d‖))) →
      V3.dot n (c - o) / V3.dot n d < lit 0) := by
  obtain ⟨f, e⟩ := C141_time n c o d h
  have f0 : (lit 0 : F32).IsFin = true := by decide +kernel
  have v0 : (lit 0 : F32).val = 0 := by decide +kernel
  rw [abs_le] at e
  constructor
  · intro g
    refine ⟨isFin_ne_nan f0, isFin_ne_nan f, ?_⟩
    rw [key_lt_iff, v0, ← Rat.cast_lt (K := ℝ)]
    push_cast
    linarith [e.1]
  · intro g
    refine ⟨isFin_ne_nan f, isFin_ne_nan f0, ?_⟩
    rw [key_lt_iff, v0, ← Rat.cast_lt (K := ℝ)]
    push_cast
    linarith [e.2]

private theorem div_neg_fin {x y : F32} (fx : x.IsFin = true) (fy : y.IsFin = true) (y0 : y.val ≠ 0) : x / -y = -(x / y) := by
  rw [div_fin fx fy y0, div_fin fx (by simpa using fy) (by rw [val_neg]; exact neg_ne_zero.2 y0), val_neg, div_neg, ← round_neg]
  congr 1
  cases x.sgn <;> (obtain ⟨s, k, hk, rfl⟩ := exists_fin fy; cases s <;> rfl)

/-- C141: reversing the direction of the ray leaves the computed point as it is, bit for bit; reversing the normal leaves it as it is
up to the sign of a zero. -/
theorem C141_symmetry (n c o d : V3 F32) (h : GoodRay n c o d) :
    rayPlane n c o (-d) = rayPlane n c o d ∧
    ∀ i, SameNumber (coord (rayPlane (-n) c o d) i) (coord (rayPlane n c o d) i) := by
  obtain ⟨n0, d0, -, s0, -, hY⟩ := h.pos
  have nx := NearV.exact fun i => (h.fin i).1
  have dx := NearV.exact fun i => (h.fin i).2.2.2
  have fq := (C141_time n c o d h).1
  have cs := near_sub (fun i => (h.fin i).2.1) (fun i => (h.fin i).2.2.1) (h.far_le.trans (by norm_num))
  have X := nx.dot cs (A := ‖exactly n‖) (B := 1.0001 * ‖exactly c - exactly o‖) (by linarith)
    (by have := h.pos.2.2.1; norm_num; linarith) (by
    calc ‖exactly n‖ * (1.0001 * ‖exactly c - exactly o‖) ≤ 2 ^ 10 * (1.0001 * 2 ^ 30) := by
          gcongr
          · exact h.n_le
          · exact h.far_le
      _ ≤ _ := by norm_num)
  have Y := nx.dot dx (A := ‖exactly n‖) (B := ‖exactly d‖) (by linarith) (by linarith) (by
    calc ‖exactly n‖ * ‖exactly d‖ ≤ 2 ^ 10 * 2 ^ 10 := by
          gcongr
          · exact h.n_le
          · exact h.d_le
      _ ≤ _ := by norm_num)
  have y0 : (V3.dot n d).val ≠ 0 := by
    intro z
    have := Y.2
    rw [z, Rat.cast_zero, zero_sub, abs_neg, hY] at this
    have NL : 1 / 2 ^ 20 ≤ ‖exactly n‖ * ‖exactly d‖ := by
      calc (1 / 2 ^ 20 : ℝ) = 1 / 2 ^ 10 * (1 / 2 ^ 10) := by norm_num
        _ ≤ _ := by
          gcongr
          · exact h.n_ge
          · exact h.d_ge
    have k : 1 / 2 ^ 10 * (‖exactly n‖ * ‖exactly d‖) ≤ facing (exactly n) (exactly d) * (‖exactly n‖ * ‖exactly d‖) := by
      gcongr
      exact h.facing_ge
    rw [zero_mul, mul_zero, add_zero, add_zero] at this
    norm_num at this k NL
    linarith
  have ne : ∀ {y' : F32}, SameNumber y' (-V3.dot n d) → y' = -V3.dot n d := fun g => by
    rcases g with g | ⟨-, -, -, z⟩
    · exact g
    · rw [val_neg, neg_eq_zero] at z
      exact absurd z y0
  constructor
  · unfold rayPlane
    rw [ne (C84_vec3 n d).2.2.1, div_neg_fin X.1 Y.1 y0]
    congr 1
    have k : ∀ x y : F32, -x * -y = x * y := fun x y => by rw [neg_mul', mul_neg', neg_neg']
    change V3.mk (-d.x * _) (-d.y * _) (-d.z * _) = V3.mk (d.x * _) (d.y * _) (d.z * _)
    rw [k, k, k]
  · intro i
    have e : ∀ (m : V3 F32), coord (rayPlane m c o d) i = coord o i + coord d i * (V3.dot m (c - o) / V3.dot m d) := fun m => by
      fin_cases i <;> rfl
    rw [e, e, ne (C84_vec3 n d).2.1]
    refine SameNumber.add .rfl ?_
    have fx' : (V3.dot (-n) (c - o)).IsFin = true := by
      rcases (C84_vec3 n (c - o)).2.1 with g | g
      · rw [g]; simpa using X.1
      · exact g.1
    rw [div_neg_fin fx' Y.1 y0]
    rcases (C84_vec3 n (c - o)).2.1 with g | ⟨z1, z2, z3, z4⟩
    · rw [g]
      left
      congr 1
      have : ∀ x y : F32, x.IsFin = true → y.IsFin = true → y.val ≠ 0 → -(-x / y) = x / y := fun x y fx fy y0 => by
        rw [← div_neg_fin (by simpa using fx) fy y0, div_fin (by simpa using fx) (by simpa using fy) (by rw [val_neg]; exact neg_ne_zero.2 y0),
          div_fin fx fy y0, val_neg, val_neg, neg_div_neg_eq]
        congr 1
        obtain ⟨s, k, hk, rfl⟩ := exists_fin fy
        obtain ⟨s', k', hk', rfl⟩ := exists_fin fx
        cases s <;> cases s' <;> rfl
      exact this _ _ X.1 Y.1 y0
    · rw [val_neg, neg_eq_zero] at z4
      have w : ∀ x : F32, x.IsFin = true → x.val = 0 → IsZ (x / V3.dot n d) := fun x fx x0 => by
        rw [div_fin fx Y.1 y0, x0, zero_div]
        exact isZ_round _
      have w1 := w _ fx' z3
      have w2 := w _ X.1 z4
      have fd := (h.fin i).2.2.2
      have m : ∀ z : F32, IsZ z → IsZ (coord d i * z) := fun z hz => by
        rw [mul_fin fd hz.1, hz.2, mul_zero]
        exact isZ_round _
      have m1 := m _ (⟨by simpa using w1.1, by rw [val_neg, w1.2, neg_zero]⟩ : IsZ (-(V3.dot (-n) (c - o) / V3.dot n d)))
      have m2 := m _ w2
      exact .inr ⟨m1.1, m2.1, m1.2, m2.2⟩

/-! ## Non-vacuity -/

/-- a ray from (0,0,10) going down and sideways to the ground -/
example : GoodRay ⟨lit 0, lit 0, lit 1⟩ ⟨lit 0, lit 0, lit 0⟩ ⟨lit 0, lit 0, lit 10⟩ ⟨lit 1, lit 0, lit (-1)⟩ := by
  have v0 : (lit 0 : F32).val = 0 := by decide +kernel
  have v1 : (lit 1 : F32).val = 1 := by decide +kernel
  have vm : (lit (-1) : F32).val = -1 := by decide +kernel
  have vt : (lit 10 : F32).val = 10 := by decide +kernel
  have en : exactly (⟨lit 0, lit 0, lit 1⟩ : V3 F32) = WithLp.toLp 2 ![0, 0, 1] := by
    ext i; rw [exactly_apply]
    fin_cases i
    · change ((lit 0 : F32).val : ℝ) = 0; rw [v0]; norm_num
    · change ((lit 0 : F32).val : ℝ) = 0; rw [v0]; norm_num
    · change ((lit 1 : F32).val : ℝ) = 1; rw [v1]; norm_num
  have ec : exactly (⟨lit 0, lit 0, lit 0⟩ : V3 F32) = 0 := by
    ext i; rw [exactly_apply]
    fin_cases i <;> (change ((lit 0 : F32).val : ℝ) = 0; rw [v0]; norm_num)
  have eo : exactly (⟨lit 0, lit 0, lit 10⟩ : V3 F32) = WithLp.toLp 2 ![0, 0, 10] := by
    ext i; rw [exactly_apply]
    fin_cases i
    · change ((lit 0 : F32).val : ℝ) = 0; rw [v0]; norm_num
    · change ((lit 0 : F32).val : ℝ) = 0; rw [v0]; norm_num
    · change ((lit 10 : F32).val : ℝ) = 10; rw [vt]; norm_num
  have ed : exactly (⟨lit 1, lit 0, lit (-1)⟩ : V3 F32) = WithLp.toLp 2 ![1, 0, -1] := by
    ext i; rw [exactly_apply]
    fin_cases i
    · change ((lit 1 : F32).val : ℝ) = 1; rw [v1]; norm_num
    · change ((lit 0 : F32).val : ℝ) = 0; rw [v0]; norm_num
    · change ((lit (-1) : F32).val : ℝ) = -1; rw [vm]; norm_num
  have nn : ‖(WithLp.toLp 2 ![0, 0, 1] : Space)‖ = 1 := by rw [EuclideanSpace.norm_eq, Fin.sum_univ_three]; simp
  have no : ‖(WithLp.toLp 2 ![0, 0, 10] : Space)‖ = 10 := by
    rw [EuclideanSpace.norm_eq, Fin.sum_univ_three]; simp
  have nd : ‖(WithLp.toLp 2 ![1, 0, -1] : Space)‖ ^ 2 = 2 := by
    rw [EuclideanSpace.norm_sq_eq, Fin.sum_univ_three]; simp; norm_num
  have d0 := norm_nonneg (WithLp.toLp 2 ![1, 0, -1] : Space)
  have d1 : 1 ≤ ‖(WithLp.toLp 2 ![1, 0, -1] : Space)‖ := by nlinarith
  have d2 : ‖(WithLp.toLp 2 ![1, 0, -1] : Space)‖ ≤ 2 := by nlinarith
  refine ⟨by decide +kernel, ?_, ?_, ?_, ?_, ?_, ?_, ?_, ?_⟩
  · rw [en, nn]; norm_num
  · rw [en, nn]; norm_num
  · rw [ed]; norm_num; linarith
  · rw [ed]; norm_num; linarith
  · rw [ec, eo, zero_sub, norm_neg, no]; norm_num
  · rw [ec, eo, zero_sub, norm_neg, no]; norm_num
  · rw [eo, no]; norm_num
  · have i : ⟪(WithLp.toLp 2 ![0, 0, 1] : Space), WithLp.toLp 2 ![1, 0, -1]⟫ = -1 := by rw [inner_eq_dot]; simp
    unfold facing
    rw [en, ed, nn, i, le_div_iff₀ (by linarith)]
    norm_num
    linarith

end Zcm
