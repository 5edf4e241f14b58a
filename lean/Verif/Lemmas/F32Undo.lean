import Verif.Lemmas.F32Mix
import Verif.Lemmas.F32Accumulate
import Verif.Spec.Undo

/-!
# Undoing sums and products of floats
-/

set_option exponentiation.threshold 300

namespace Zcm

open F32

theorem uround_neg (x : ℚ) : uround (-x) = -uround x := by
  unfold uround
  rw [abs_neg]
  rcases lt_trichotomy x 0 with h | h | h
  · rw [if_neg (by linarith), if_pos h, neg_neg]
  · subst h
    have : roundUnits (|(0 : ℚ)| * 2 ^ 149) = 0 := by decide +kernel
    rw [neg_zero]; simp only [this]; simp
  · rw [if_pos (by linarith), if_neg (by linarith)]

/-- a sum whose first term is the larger one is exact, or within a factor of two of that term -/
theorem two_sum_key {A B : ℤ} (ra : Rep' A.natAbs) (rb : Rep' B.natAbs) (hA : 0 ≤ A) (hB : |B| ≤ A) :
    uround (((A + B : ℤ) : ℚ) / 2 ^ 149) = A + B ∨
      (A ≤ 2 * uround (((A + B : ℤ) : ℚ) / 2 ^ 149) ∧ uround (((A + B : ℤ) : ℚ) / 2 ^ 149) ≤ 2 * A) := by
  have hb := abs_le.1 hB
  have mono : ∀ {m n : ℤ}, m ≤ n → uround ((m : ℚ) / 2 ^ 149) ≤ uround ((n : ℚ) / 2 ^ 149) := fun h =>
    uround_mono (by gcongr)
  have double : Rep' (2 * A).natAbs := by
    obtain ⟨m, hm, lt⟩ := ra.exists_mul
    have : (2 * A).natAbs = m * 2 ^ (ulpExp A.natAbs + 1) := by rw [Int.natAbs_mul, pow_succ, ← mul_assoc, ← hm]; exact mul_comm _ _
    rw [this]
    exact rep'_mul_pow lt.le
  have up : uround (((A + B : ℤ) : ℚ) / 2 ^ 149) ≤ 2 * A := by
    rw [← uround_of_rep double]
    exact mono (by omega)
  rcases le_or_gt 0 B with s | s
  · right
    refine ⟨?_, up⟩
    have : A ≤ uround (((A + B : ℤ) : ℚ) / 2 ^ 149) := by
      rw (occs := .pos [1]) [← uround_of_rep ra]
      exact mono (by omega)
    omega
  rcases le_or_gt A (-(2 * B)) with c | c
  · left
    refine uround_of_rep ?_
    have : (A + B).natAbs = A.natAbs - B.natAbs := by omega
    rw [this]
    have e : ulpExp (A.natAbs - B.natAbs) ≤ ulpExp B.natAbs := ulpExp_mono (by omega)
    exact Nat.dvd_sub ((pow_dvd_pow 2 (e.trans (ulpExp_mono (by omega)))).trans ra) ((pow_dvd_pow 2 e).trans rb)
  · rcases lt_or_ge A.natAbs (2 ^ 24) with l | l
    · left
      exact uround_of_rep (rep'_of_lt (by omega))
    · right
      refine ⟨?_, up⟩
      obtain ⟨m, hm, lt⟩ := ra.exists_mul
      obtain ⟨e, he⟩ : ∃ e, ulpExp A.natAbs = e + 1 := by
        refine ⟨ulpExp A.natAbs - 1, ?_⟩
        have : ulpExp A.natAbs ≠ 0 := fun z => by rw [z, pow_zero, mul_one] at hm; omega
        omega
      have half : A = 2 * ((m * 2 ^ e : ℕ) : ℤ) := by
        rw [he, pow_succ] at hm
        have : (A.natAbs : ℤ) = A := Int.natAbs_of_nonneg hA
        rw [← this, hm]
        push_cast
        ring
      have r : Rep' (((m * 2 ^ e : ℕ) : ℤ)).natAbs := by rw [Int.natAbs_natCast]; exact rep'_mul_pow lt.le
      have : ((m * 2 ^ e : ℕ) : ℤ) ≤ uround (((A + B : ℤ) : ℚ) / 2 ^ 149) := by
        rw (occs := .pos [1]) [← uround_of_rep r]
        exact mono (by omega)
      omega

/-- reading back the smaller term of a sum makes no further rounding error -/
theorem readback {a b : F32} (hf : (a + b).IsFin = true) (h : |b.val| ≤ |a.val|) :
    ((a + b) - a).IsFin = true ∧ ((a + b) - a).val = (a + b).val - a.val := by
  obtain ⟨fa, fb⟩ := isFin_of_add hf
  have e : a.val + b.val = ((a.key + b.key : ℤ) : ℚ) / 2 ^ 149 := by unfold F32.val; push_cast; ring
  have S : (a + b).key = uround (((a.key + b.key : ℤ) : ℚ) / 2 ^ 149) := by
    rw [add_fin fa fb] at hf ⊢
    rw [← e]
    exact uround_of_fin hf
  have hk : |b.key| ≤ |a.key| := by
    have va : a.val = (a.key : ℚ) / 2 ^ 149 := rfl
    have vb : b.val = (b.key : ℚ) / 2 ^ 149 := rfl
    rw [va, vb, abs_div, abs_div, div_le_div_iff_of_pos_right (by positivity)] at h
    exact_mod_cast h
  have main : (a + b).key = a.key + b.key ∨
      (|a.key| ≤ 2 * |(a + b).key| ∧ |(a + b).key| ≤ 2 * |a.key| ∧ 0 ≤ (a + b).key * a.key) := by
    rw [S]
    rcases le_total 0 a.key with p | p
    · have k := two_sum_key (rep_of_isFin fa).1 (rep_of_isFin fb).1 p (by rwa [abs_of_nonneg p] at hk)
      refine k.imp id fun ⟨k1, k2⟩ => ?_
      have q : 0 ≤ uround (((a.key + b.key : ℤ) : ℚ) / 2 ^ 149) := by omega
      rw [abs_of_nonneg p, abs_of_nonneg q]
      exact ⟨k1, k2, mul_nonneg q p⟩
    · have k := two_sum_key (A := -a.key) (B := -b.key) (by rw [Int.natAbs_neg]; exact (rep_of_isFin fa).1)
        (by rw [Int.natAbs_neg]; exact (rep_of_isFin fb).1) (by omega) (by rwa [abs_neg, ← abs_of_nonpos p])
      have t : (((-a.key + -b.key : ℤ) : ℚ) / 2 ^ 149) = -(((a.key + b.key : ℤ) : ℚ) / 2 ^ 149) := by push_cast; ring
      rw [t, uround_neg] at k
      refine k.imp (fun k => by omega) fun ⟨k1, k2⟩ => ?_
      have q : uround (((a.key + b.key : ℤ) : ℚ) / 2 ^ 149) ≤ 0 := by omega
      rw [abs_of_nonpos p, abs_of_nonpos q]
      exact ⟨k1, k2, mul_nonneg_of_nonpos_of_nonpos q p⟩
  have vs : (a + b).val = ((a + b).key : ℚ) / 2 ^ 149 := rfl
  have va : a.val = (a.key : ℚ) / 2 ^ 149 := rfl
  rcases main with m | ⟨m1, m2, m3⟩
  · have d : (a + b).val - a.val = ((b.key : ℤ) : ℚ) / 2 ^ 149 := by rw [vs, va, m]; push_cast; ring
    rw [sub_fin hf fa, d]
    exact val_round_of_rep (rep_of_isFin fb) _
  · refine sterbenz hf fa ?_ ?_ ?_
    · rw [vs, va, div_mul_div_comm]
      have : (0 : ℚ) ≤ (a + b).key * a.key := by exact_mod_cast m3
      positivity
    · rw [vs, va, abs_div, abs_div, ← mul_div_assoc, div_le_div_iff_of_pos_right (by positivity)]
      exact_mod_cast m2
    · rw [vs, va, abs_div, abs_div, ← mul_div_assoc, div_le_div_iff_of_pos_right (by positivity)]
      exact_mod_cast m1

/-- a finite number other than zero divided by itself is exactly 1 -/
theorem quotient_self {x : F32} (h : x.IsFin = true) (h0 : x.val ≠ 0) : x / x = lit 1 := by
  rw [div_fin h h h0, div_self h0, Bool.xor_self]
  decide +kernel

theorem growth_half {k : ℕ} (hk : k ≤ 2 ^ 20) : (1 + 1 / 2 ^ 24 : ℝ) ^ k ≤ 3 / 2 :=
  calc (1 + 1 / 2 ^ 24 : ℝ) ^ k ≤ (1 + 1 / 2 ^ 24) ^ (2 ^ 20) := pow_le_pow_right₀ (by norm_num) hk
    _ ≤ Real.exp (1 / 2 ^ 24) ^ (2 ^ 20) := by
      gcongr
      have := Real.add_one_le_exp ((1 : ℝ) / 2 ^ 24)
      linarith
    _ = Real.exp (1 / 16) := by rw [← Real.exp_nat_mul]; norm_num
    _ ≤ 3 / 2 := by
      have := Real.abs_exp_sub_one_sub_id_le (x := 1 / 16) (by norm_num)
      have := (abs_le.1 this).2
      norm_num at *
      linarith

/-- one multiplication or division -/
theorem scaling_step {p : F32} {r : ℝ} {k : ℕ} (hp : Rel p r ((1 + 1 / 2 ^ 24) ^ k - 1)) (hk : k ≤ 2 ^ 20) (c : Scaling)
    (fc : c.number.IsFin = true) (h0 : c.number.val ≠ 0)
    (hl : 1 / 2 ^ 100 ≤ |r * c.factor|) (hu : |r * c.factor| ≤ 2 ^ 100) :
    Rel (c.run (· * ·) (· / ·) p) (r * c.factor) ((1 + 1 / 2 ^ 24) ^ (k + 1) - 1) := by
  have g := growth_half hk
  have g1 : (1 : ℝ) ≤ (1 + 1 / 2 ^ 24) ^ k := one_le_pow₀ (by norm_num)
  cases c with
  | times s =>
    exact hp.mul (y := s) (g := (1 + 1 / 2 ^ 24) ^ (k + 1) - 1) (Rel.exact fc) (by linarith)
      (by rw [pow_succ ((1 : ℝ) + 1 / 2 ^ 24) k]; linarith) (le_trans (by norm_num) hl) (hu.trans (by norm_num))
  | over s =>
    have e : r * (Scaling.over s).factor = r / s.val := by
      unfold Scaling.factor; push_cast; ring
    rw [e] at hl hu ⊢
    exact hp.div (y := s) (d := (1 + 1 / 2 ^ 24) ^ k - 1) (g := (1 + 1 / 2 ^ 24) ^ (k + 1) - 1) (Rel.exact fc) (by linarith)
      le_rfl (by norm_num) (by exact_mod_cast h0) (by linarith) (by linarith)
      (by rw [pow_succ ((1 : ℝ) + 1 / 2 ^ 24) k]; linarith) (le_trans (by norm_num) hl) (hu.trans (by norm_num))

/-- any history of multiplications and divisions -/
theorem scalings_rel (l : List Scaling) : ∀ (p : F32) (r : ℝ) (k : ℕ), Rel p r ((1 + 1 / 2 ^ 24) ^ k - 1) → k + l.length ≤ 2 ^ 20 →
    (∀ c ∈ l, c.number.IsFin = true ∧ c.number.val ≠ 0) →
    (∀ j ≤ l.length, 1 / 2 ^ 100 ≤ |r * totalFactor (l.take j)| ∧ |r * totalFactor (l.take j)| ≤ 2 ^ 100) →
    Rel (l.foldl (Scaling.run (· * ·) (· / ·)) p) (r * totalFactor l) ((1 + 1 / 2 ^ 24) ^ (k + l.length) - 1) := by
  induction l with
  | nil => intro p r k h _ _ _; simpa [totalFactor] using h
  | cons a l ih =>
    intro p r k h hk hf hb
    have b1 := hb 1 (by simp)
    have e1 : ((totalFactor ((a :: l).take 1) : ℚ) : ℝ) = a.factor := by simp [totalFactor]
    rw [e1] at b1
    have m := scaling_step h (by omega) a (hf a (by simp)).1 (hf a (by simp)).2 b1.1 b1.2
    have ex : ∀ l' : List Scaling, ((totalFactor (a :: l') : ℚ) : ℝ) = a.factor * totalFactor l' := fun l' => by simp [totalFactor]
    have := ih _ (r * a.factor) (k + 1) m (by simp at hk; omega) (fun q hq => hf q (by simp [hq])) (fun j hj => by
      have := hb (j + 1) (by simp; omega)
      rw [List.take_succ_cons, ex] at this
      rw [mul_assoc]
      exact this)
    rw [List.foldl_cons, ex, ← mul_assoc, List.length_cons, show k + (l.length + 1) = k + 1 + l.length by ring]
    exact this

end Zcm
