import Verif.Lemmas.F32Place
import Verif.Props.C106

/-!
# C125  Points placed by scale, rotation and translation in IEEE arithmetic

`placeAt t q s p w` (Spec/Place) is `p` scaled by `s`, turned by `q` and moved by `w t`, in exact arithmetic;
`∑ c, |stretched s p c|` is the sum of the magnitudes `|s.x p.x| + |s.y p.y| + |s.z p.z|`.
-/

set_option exponentiation.threshold 300

namespace Zcm

open Quaternion F32

/-- C125: the computed `translate(mat4(), t) * mat4_cast(q) * scale(mat4(), s) * vec4(p, w)`, for `q` of norm 1 up to `2^-20` and
`|w| ≤ 1` (points have `w = 1`, directions `w = 0`): coordinate `r` is finite and right up to `2^-16` of the size of the scaled
vector and `5/2^24` of the coordinate of the translation (and an underflow term). -/
theorem C125_matrix (t s p : V3 F32) (q : Quat F32) (w : F32) (hq : q.Finite) (hu : |‖exactQ q‖ - 1| ≤ 1 / 2 ^ 20) (ht : t.Finite)
    (hs : s.Finite) (hp : p.Finite) (hw : w.IsFin = true) (bt : ∀ c, |((coord t c).val : ℝ)| ≤ 2 ^ 120)
    (bs : ∀ c, |((coord s c).val : ℝ)| ≤ 2 ^ 59) (bp : ∀ c, |((coord p c).val : ℝ)| ≤ 2 ^ 59) (bw : |(w.val : ℝ)| ≤ 1) (r : Fin 3) :
    Near (coord (M4.translate M4.default t * Quat.mat4_cast q * M4.scale M4.default s * V4.ofXYZ_W p w) r.castSucc)
      (placeAt t q s p w.val r)
      (1 / 2 ^ 16 * ∑ c, |stretched s p c| + 5 / 2 ^ 24 * |(w.val : ℝ) * (coord t r).val| +
        (1 + ∑ c, |((coord p c).val : ℝ)|) / 2 ^ 147) :=
  place_matrix hq hu ht hs hp hw bt bs bp bw r

/-- C125: and the fourth component is `w` without error, so points stay points and directions stay directions. -/
theorem C125_last (t s p : V3 F32) (q : Quat F32) (w : F32) (hq : q.Finite) (hu : |‖exactQ q‖ - 1| ≤ 1 / 2 ^ 20) (ht : t.Finite)
    (hs : s.Finite) (hp : p.Finite) (hw : w.IsFin = true) :
    (coord (M4.translate M4.default t * Quat.mat4_cast q * M4.scale M4.default s * V4.ofXYZ_W p w) 3 == w) = true :=
  place_last hq hu ht hs hp hw

/-- C125: the same through the quaternion and vectors: `t + q * (s * p)`, unless the scaled vector is extremely short. -/
theorem C125_direct (t s p : V3 F32) (q : Quat F32) (hq : q.Finite) (hu : |‖exactQ q‖ - 1| ≤ 1 / 2 ^ 20) (ht : t.Finite)
    (hs : s.Finite) (hp : p.Finite) (bt : ∀ c, |((coord t c).val : ℝ)| ≤ 2 ^ 120)
    (bs : ∀ c, |((coord s c).val : ℝ)| ≤ 2 ^ 59) (bp : ∀ c, |((coord p c).val : ℝ)| ≤ 2 ^ 59)
    (low : 1 / 2 ^ 99 ≤ ∑ c, |stretched s p c|) (r : Fin 3) :
    Near (coord (t + q * (s * p)) r) (placeAt t q s p 1 r)
      (1 / 2 ^ 15 * ∑ c, |stretched s p c| + 2 / 2 ^ 24 * |((coord t r).val : ℝ)|) :=
  place_direct hq hu ht hs hp bt bs bp low r

/-- C125: so the two ways of placing a point agree. -/
theorem C125_agree (t s p : V3 F32) (q : Quat F32) (hq : q.Finite) (hu : |‖exactQ q‖ - 1| ≤ 1 / 2 ^ 20) (ht : t.Finite)
    (hs : s.Finite) (hp : p.Finite) (bt : ∀ c, |((coord t c).val : ℝ)| ≤ 2 ^ 120)
    (bs : ∀ c, |((coord s c).val : ℝ)| ≤ 2 ^ 59) (bp : ∀ c, |((coord p c).val : ℝ)| ≤ 2 ^ 59)
    (low : 1 / 2 ^ 99 ≤ ∑ c, |stretched s p c|) (r : Fin 3) :
    |((coord (M4.translate M4.default t * Quat.mat4_cast q * M4.scale M4.default s * V4.ofXYZ_W p (lit 1)) r.castSucc).val : ℝ) -
        (coord (t + q * (s * p)) r).val| ≤
      3 / 2 ^ 16 * ∑ c, |stretched s p c| + 7 / 2 ^ 24 * |((coord t r).val : ℝ)| + (1 + ∑ c, |((coord p c).val : ℝ)|) / 2 ^ 147 := by
  have l1 : ((lit 1 : F32).val : ℝ) = 1 := lit_one_cast
  have a := (C125_matrix t s p q (lit 1) hq hu ht hs hp isFin_lit_one bt bs bp (by rw [l1, abs_one]) r).2
  have b := (C125_direct t s p q hq hu ht hs hp bt bs bp low r).2
  rw [l1, one_mul] at a
  rw [abs_sub_comm] at b
  refine (abs_sub_le _ (placeAt t q s p 1 r) _).trans ?_
  generalize |((coord t r).val : ℝ)| = y at *
  norm_num at *
  linarith

/-! ### The hypotheses are met -/

private theorem small3 (a b c : F32) (A B C : ℚ) (ha : a.val = A) (hb : b.val = B) (hc : c.val = C) (h : |A| ≤ 100 ∧ |B| ≤ 100 ∧ |C| ≤ 100) (i : Fin 3) :
    |((coord (⟨a, b, c⟩ : V3 F32) i).val : ℝ)| ≤ 100 := by
  obtain ⟨h0, h1, h2⟩ := h
  fin_cases i
  · change |(a.val : ℝ)| ≤ _; rw [ha]; exact_mod_cast h0
  · change |(b.val : ℝ)| ≤ _; rw [hb]; exact_mod_cast h1
  · change |(c.val : ℝ)| ≤ _; rw [hc]; exact_mod_cast h2

/-- Non-vacuity: the point (1, 2, 3), scaled by (2, 3, 4), turned by a third of a turn about (1, 1, 1) and moved by (5, 6, 7). -/
example := C125_agree ⟨lit 5, lit 6, lit 7⟩ ⟨lit 2, lit 3, lit 4⟩ ⟨lit 1, lit 2, lit 3⟩ third third_norm.1
  (by rw [third_norm.2]; norm_num) (fun i => by fin_cases i <;> decide +kernel) (fun i => by fin_cases i <;> decide +kernel)
  (fun i => by fin_cases i <;> decide +kernel)
  (fun c => (small3 _ _ _ 5 6 7 (by decide +kernel) (by decide +kernel) (by decide +kernel) (by norm_num) c).trans (by norm_num))
  (fun c => (small3 _ _ _ 2 3 4 (by decide +kernel) (by decide +kernel) (by decide +kernel) (by norm_num) c).trans (by norm_num))
  (fun c => (small3 _ _ _ 1 2 3 (by decide +kernel) (by decide +kernel) (by decide +kernel) (by norm_num) c).trans (by norm_num))
  (by
    rw [Fin.sum_univ_three]
    have : stretched (⟨lit 2, lit 3, lit 4⟩ : V3 F32) ⟨lit 1, lit 2, lit 3⟩ 0 = 2 := by
      change ((lit 2 : F32).val : ℝ) * ((lit 1 : F32).val : ℝ) = 2
      rw [show (lit 2 : F32).val = 2 by decide +kernel, lit_one_cast]; norm_num
    rw [this, abs_two]
    have h1 := abs_nonneg (stretched (⟨lit 2, lit 3, lit 4⟩ : V3 F32) ⟨lit 1, lit 2, lit 3⟩ 1)
    have h2 := abs_nonneg (stretched (⟨lit 2, lit 3, lit 4⟩ : V3 F32) ⟨lit 1, lit 2, lit 3⟩ 2)
    norm_num
    linarith)

end Zcm
