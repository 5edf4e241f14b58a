import Verif.Lemmas.F32Rigid
import Verif.Props.C82
import Verif.Props.C88
import Verif.Spec.Clip

/-!
# C128: turning and moving keeps dot products, cross products and distances, in IEEE arithmetic
-/

namespace Zcm

open Quaternion F32 WithLp RealInnerProductSpace

private theorem near_add3d {a b : V3 F32} (ha : ∀ i, (coord a i).IsFin = true) (hb : ∀ i, (coord b i).IsFin = true)
    (h : ‖exactly a + exactly b‖ ≤ 2 ^ 120) :
    NearV (a + b) (exactly a + exactly b) (1 / 2 ^ 24 * ‖exactly a + exactly b‖) := by
  have e : ∀ i, coord (a + b) i = coord a i + coord b i := fun i => by fin_cases i <;> rfl
  have f : ∀ i, (coord (a + b) i).IsFin = true := fun i => by
    rw [e, add_fin (ha i) (hb i)]
    apply isFin_round
    have q := (abs_apply_le (exactly a + exactly b) i).trans h
    have : ((|(coord a i).val + (coord b i).val| : ℚ) : ℝ) ≤ (((2 ^ 24 - 1) * 2 ^ 104 : ℚ) : ℝ) := by
      push_cast; refine le_trans q ?_; norm_num
    exact Rat.cast_le.1 this
  refine ⟨f, ?_⟩
  have := norm_le_of_abs (x := exactly (a + b) - (exactly a + exactly b)) (y := exactly a + exactly b)
    (c := 1 / 2 ^ 24) (t := 0) (by positivity) le_rfl fun i => by
      have q := add_error_rel (a := coord a i) (b := coord b i) (by rw [← e]; exact f i)
      have q' : ((|(coord a i + coord b i).val - ((coord a i).val + (coord b i).val)| : ℚ) : ℝ) ≤
        ((|(coord a i).val + (coord b i).val| / 2 ^ 24 : ℚ) : ℝ) := Rat.cast_le.2 q
      push_cast at q'
      show |((coord (a + b) i).val : ℝ) - ((coord a i).val + (coord b i).val)| ≤
        1 / 2 ^ 24 * |((coord a i).val : ℝ) + (coord b i).val| + 0
      rw [e]
      linarith
  linarith

private theorem budget {x y c : ℝ} (h1 : 1 / 2 ^ 50 ≤ x) (h2 : 1 / 2 ^ 50 ≤ y) (hc : c ≤ 5 / 2 ^ 24) :
    c * ((x + 1 / 2 ^ 16 * x) * (y + 1 / 2 ^ 16 * y)) + 1 / 2 ^ 147 + 1 / 2 ^ 16 * x * y + (x + 1 / 2 ^ 16 * x) * (1 / 2 ^ 16 * y) ≤
      3 / 2 ^ 16 * (x * y) := by
  have p : 1 / 2 ^ 100 ≤ x * y := by
    have := mul_le_mul h1 h2 (by norm_num) (by linarith [show (0 : ℝ) < 1 / 2 ^ 50 by norm_num])
    norm_num at *
    linarith
  have e : c * ((x + 1 / 2 ^ 16 * x) * (y + 1 / 2 ^ 16 * y)) = (1 + 1 / 2 ^ 16) ^ 2 * (c * (x * y)) := by ring
  have q : c * (x * y) ≤ 5 / 2 ^ 24 * (x * y) := mul_le_mul_of_nonneg_right hc (by linarith [show (0 : ℝ) < 1 / 2 ^ 100 by norm_num])
  rw [e]
  norm_num at *
  linarith

section

variable (q : Quat F32) (a b : V3 F32) (hq : q.Finite) (hu : |‖exactQ q‖ - 1| ≤ 1 / 2 ^ 20) (ha : a.Finite) (hb : b.Finite)
  (a1 : 1 / 2 ^ 50 ≤ ‖exactly a‖) (a2 : ‖exactly a‖ ≤ 2 ^ 59) (b1 : 1 / 2 ^ 50 ≤ ‖exactly b‖) (b2 : ‖exactly b‖ ≤ 2 ^ 59)
include hq hu ha hb a1 a2 b1 b2

private theorem prod_bound : (‖exactly a‖ + 1 / 2 ^ 16 * ‖exactly a‖) * (‖exactly b‖ + 1 / 2 ^ 16 * ‖exactly b‖) ≤ 2 ^ 120 := by
  have : ‖exactly a‖ * ‖exactly b‖ ≤ 2 ^ 59 * 2 ^ 59 := mul_le_mul a2 b2 (norm_nonneg _) (by norm_num)
  norm_num at *
  nlinarith

/-- C128: the computed dot product of two turned vectors is the exact dot product of the vectors, up to `3 / 2^16` of the
product of their lengths. -/
theorem C128_dot : Near (V3.dot (q * a) (q * b)) ⟪exactly a, exactly b⟫ (3 / 2 ^ 16 * (‖exactly a‖ * ‖exactly b‖)) := by
  have z := unit_ne_zero hu
  have na := near_turned hq hu ha (a1.trans' (by norm_num)) (a2.trans (by norm_num))
  have nb := near_turned hq hu hb (b1.trans' (by norm_num)) (b2.trans (by norm_num))
  have d := NearV.dot na nb (by rw [turned_norm z]) (by rw [turned_norm z]) (prod_bound q a b hq hu ha hb a1 a2 b1 b2)
  rw [turned_inner z, turned_norm z] at d
  exact ⟨d.1, d.2.trans (budget a1 b1 (by norm_num))⟩

/-- C128: the computed cross product of two turned vectors is the exactly turned cross product of the vectors, up to
`3 / 2^16` of the product of their lengths. -/
theorem C128_cross :
    (∀ i, (coord (V3.cross (q * a) (q * b)) i).IsFin = true) ∧
    ‖exactly (V3.cross (q * a) (q * b)) - turned (exactQ q) (cross3 (exactly a) (exactly b))‖ ≤
      3 / 2 ^ 16 * (‖exactly a‖ * ‖exactly b‖) := by
  have z := unit_ne_zero hu
  have na := near_turned hq hu ha (a1.trans' (by norm_num)) (a2.trans (by norm_num))
  have nb := near_turned hq hu hb (b1.trans' (by norm_num)) (b2.trans (by norm_num))
  have d := NearV.cross na nb (by rw [turned_norm z]) (by rw [turned_norm z]) (prod_bound q a b hq hu ha hb a1 a2 b1 b2)
  rw [turned_cross z, turned_norm z] at d
  exact ⟨d.1, d.2.trans (budget a1 b1 (by norm_num))⟩

/-- C128: turning and moving two points keeps their distance.  `t + q * a` and `t + q * b` are as far apart as `a` and `b`, up
to `2 / 2^16` of the lengths of `a` and `b` and `3 / 2^24` of the length of `t`, if the points are not extremely close. -/
theorem C128_distance (t : V3 F32) (ht : t.Finite) (t2 : ‖exactly t‖ ≤ 2 ^ 60)
    (h1 : 1 / 2 ^ 47 ≤ exactDistance (coord a) (coord b))
    (h2 : 4 / 2 ^ 16 * (‖exactly a‖ + ‖exactly b‖) + 6 / 2 ^ 24 * ‖exactly t‖ ≤ exactDistance (coord a) (coord b)) :
    Near (V3.distance (t + q * a) (t + q * b)) (exactDistance (coord a) (coord b))
      (2 / 2 ^ 16 * (‖exactly a‖ + ‖exactly b‖) + 3 / 2 ^ 24 * ‖exactly t‖) := by
  have z := unit_ne_zero hu
  have dist : ∀ x y : V3 F32, exactDistance (coord x) (coord y) = ‖exactly x - exactly y‖ := fun x y => by
    rw [EuclideanSpace.norm_eq]
    unfold exactDistance
    congr 1
    exact Finset.sum_congr rfl fun i _ => by rw [Real.norm_eq_abs, sq_abs]; rfl
  have moved : ∀ x : V3 F32, x.Finite → 1 / 2 ^ 50 ≤ ‖exactly x‖ → ‖exactly x‖ ≤ 2 ^ 59 →
      NearV (t + q * x) (exactly t + turned (exactQ q) (exactly x)) ((1 / 2 ^ 16 + 1.1 / 2 ^ 24) * ‖exactly x‖ + 1 / 2 ^ 24 * ‖exactly t‖) := by
    intro x fx x1 x2
    have nx := near_turned hq hu fx (x1.trans' (by norm_num)) (x2.trans (by norm_num))
    have l := nx.norm_le
    rw [turned_norm z] at l
    have s : ‖exactly t + exactly (q * x)‖ ≤ ‖exactly t‖ + (‖exactly x‖ + 1 / 2 ^ 16 * ‖exactly x‖) :=
      (norm_add_le _ _).trans (by linarith)
    have m := near_add3d ht nx.1 (s.trans (by norm_num at *; linarith))
    refine ⟨m.1, ?_⟩
    have e : exactly (t + q * x) - (exactly t + turned (exactQ q) (exactly x)) =
      (exactly (t + q * x) - (exactly t + exactly (q * x))) + (exactly (q * x) - turned (exactQ q) (exactly x)) := by abel
    rw [e]
    refine (norm_add_le _ _).trans ((add_le_add m.2 nx.2).trans ?_)
    have : (1 : ℝ) / 2 ^ 24 * ‖exactly t + exactly (q * x)‖ ≤ 1 / 2 ^ 24 * (‖exactly t‖ + (‖exactly x‖ + 1 / 2 ^ 16 * ‖exactly x‖)) := by gcongr
    have := norm_nonneg (exactly x)
    norm_num at *
    linarith
  have ma := moved a ha a1 a2
  have mb := moved b hb b1 b2
  have e : (exactly (t + q * a) - exactly (t + q * b)) - (turned (exactQ q) (exactly a) - turned (exactQ q) (exactly b)) =
      (exactly (t + q * a) - (exactly t + turned (exactQ q) (exactly a))) - (exactly (t + q * b) - (exactly t + turned (exactQ q) (exactly b))) := by abel
  have d : |exactDistance (coord (t + q * a)) (coord (t + q * b)) - exactDistance (coord a) (coord b)| ≤
      (1 / 2 ^ 16 + 1.1 / 2 ^ 24) * (‖exactly a‖ + ‖exactly b‖) + 2 / 2 ^ 24 * ‖exactly t‖ := by
    have k := abs_norm_sub_norm_le (exactly (t + q * a) - exactly (t + q * b)) (turned (exactQ q) (exactly a) - turned (exactQ q) (exactly b))
    rw [← turned_sub, turned_norm z, turned_sub, e, ← dist, ← dist] at k
    refine k.trans ((norm_sub_le _ _).trans ((add_le_add ma.2 mb.2).trans (le_of_eq ?_)))
    ring
  have D : exactDistance (coord a) (coord b) ≤ ‖exactly a‖ + ‖exactly b‖ := by rw [dist]; exact norm_sub_le _ _
  have d' := abs_le.1 d
  have n1 := norm_nonneg (exactly a)
  have n2 := norm_nonneg (exactly b)
  have n3 := norm_nonneg (exactly t)
  generalize ‖exactly a‖ = x at *
  generalize ‖exactly b‖ = y at *
  generalize ‖exactly t‖ = w at *
  have c := C82_distance_vec3 (t + q * a) (t + q * b) ma.1 mb.1 (by norm_num at *; linarith) (by norm_num at *; linarith)
  refine ⟨c.1, ?_⟩
  have := abs_sub_le ((V3.distance (t + q * a) (t + q * b)).val : ℝ) (exactDistance (coord (t + q * a)) (coord (t + q * b)))
    (exactDistance (coord a) (coord b))
  refine this.trans ((add_le_add c.2 d).trans ?_)
  have u := d'.2
  generalize exactDistance (coord (t + q * a)) (coord (t + q * b)) = E at *
  generalize exactDistance (coord a) (coord b) = F at *
  norm_num at *
  linarith

end

/-- Non-vacuity: 120 degrees about (1, 1, 1), the points (1, 2, 2) and (4, 0, 3), moved by (100, 0, 0). -/
example : (third.Finite ∧ |‖exactQ third‖ - 1| ≤ 1 / 2 ^ 20) ∧ ‖exactly ⟨lit 1, lit 2, lit 2⟩‖ = 3 ∧ ‖exactly ⟨lit 4, lit 0, lit 3⟩‖ = 5 ∧
    ‖exactly ⟨lit 100, lit 0, lit 0⟩‖ = 100 ∧
    3 ≤ exactDistance (coord (⟨lit 1, lit 2, lit 2⟩ : V3 F32)) (coord (⟨lit 4, lit 0, lit 3⟩ : V3 F32)) := by
  have v0 : ((lit 0 : F32).val : ℝ) = 0 := by rw [show (lit 0 : F32).val = 0 by decide +kernel]; norm_num
  have v1 : ((lit 1 : F32).val : ℝ) = 1 := by rw [show (lit 1 : F32).val = 1 by decide +kernel]; norm_num
  have v2 : ((lit 2 : F32).val : ℝ) = 2 := by rw [show (lit 2 : F32).val = 2 by decide +kernel]; norm_num
  have v3 : ((lit 3 : F32).val : ℝ) = 3 := by rw [show (lit 3 : F32).val = 3 by decide +kernel]; norm_num
  have v4 : ((lit 4 : F32).val : ℝ) = 4 := by rw [show (lit 4 : F32).val = 4 by decide +kernel]; norm_num
  have v5 : ((lit 100 : F32).val : ℝ) = 100 := by rw [show (lit 100 : F32).val = 100 by decide +kernel]; norm_num
  obtain ⟨f, n⟩ := third_norm
  refine ⟨⟨f, by rw [n]; norm_num⟩, ?_, ?_, ?_, ?_⟩
  · rw [norm_exactly, exactLength, Fin.sum_univ_three, Real.sqrt_eq_iff_mul_self_eq (by positivity) (by norm_num)]
    show ((lit 1 : F32).val : ℝ) ^ 2 + ((lit 2 : F32).val : ℝ) ^ 2 + ((lit 2 : F32).val : ℝ) ^ 2 = (3 : ℝ) * 3
    rw [v1, v2]; norm_num
  · rw [norm_exactly, exactLength, Fin.sum_univ_three, Real.sqrt_eq_iff_mul_self_eq (by positivity) (by norm_num)]
    show ((lit 4 : F32).val : ℝ) ^ 2 + ((lit 0 : F32).val : ℝ) ^ 2 + ((lit 3 : F32).val : ℝ) ^ 2 = (5 : ℝ) * 5
    rw [v4, v0, v3]; norm_num
  · rw [norm_exactly, exactLength, Fin.sum_univ_three, Real.sqrt_eq_iff_mul_self_eq (by positivity) (by norm_num)]
    show ((lit 100 : F32).val : ℝ) ^ 2 + ((lit 0 : F32).val : ℝ) ^ 2 + ((lit 0 : F32).val : ℝ) ^ 2 = (100 : ℝ) * 100
    rw [v5, v0]; norm_num
  · rw [exactDistance, Fin.sum_univ_three]
    refine Real.le_sqrt_of_sq_le ?_
    show (3 : ℝ) ^ 2 ≤ (((lit 1 : F32).val : ℝ) - (lit 4 : F32).val) ^ 2 + (((lit 2 : F32).val : ℝ) - (lit 0 : F32).val) ^ 2 +
      (((lit 2 : F32).val : ℝ) - (lit 3 : F32).val) ^ 2
    rw [v0, v1, v2, v3, v4]; norm_num

end Zcm
