import Verif.Spec.Accumulate
import Verif.Spec.IntValued
import Verif.Lemmas.F32Approx
import Verif.Lemmas.F32Exact
import Verif.Lemmas.F32Rel

/-!
# Lemmas: long sums and products in float arithmetic
-/

set_option exponentiation.threshold 300

namespace Zcm.F32

theorem totalSize_nonneg (l : List F32) : 0 ≤ totalSize l := by
  induction l with
  | nil => exact le_rfl
  | cons a l ih =>
    have : totalSize (a :: l) = |a.val| + totalSize l := by simp [totalSize]
    rw [this]
    positivity

theorem fold_fin {l : List F32} : ∀ {p : F32}, (l.foldl (· + ·) p).IsFin = true → p.IsFin = true := by
  induction l with
  | nil => exact fun h => h
  | cons a l ih => exact fun h => (isFin_of_add (ih h)).1

/-- the sum of a list, one number after the other -/
theorem fold_add (l : List F32) : ∀ p : F32, AccurateTotal (l.foldl (· + ·) p) (p :: l) := by
  induction l with
  | nil =>
    intro p
    refine ⟨fun h _ => h p (by simp), fun _ => ?_⟩
    simp [exactTotal]
  | cons a l ih =>
    intro p
    obtain ⟨i1, i2⟩ := ih (p + a)
    have t1 : ∀ q, totalSize (q :: l) = |q.val| + totalSize l := fun q => by simp [totalSize]
    have t2 : totalSize (p :: a :: l) = |p.val| + |a.val| + totalSize l := by simp [totalSize]; ring
    have e1 : exactTotal ((p + a) :: l) = (p + a).val + exactTotal l := by simp [exactTotal]
    have e2 : exactTotal (p :: a :: l) = p.val + a.val + exactTotal l := by simp [exactTotal]; ring
    have s0 := totalSize_nonneg l
    have l1 : ((p + a) :: l).length - 1 = l.length := by simp
    have l2 : (p :: a :: l).length - 1 = l.length + 1 := by simp
    rw [l1, t1] at i1 i2
    rw [e1] at i2
    have g1 : (1 : ℚ) ≤ (1 + 1 / 2 ^ 24) ^ l.length := one_le_pow₀ (by norm_num)
    unfold AccurateTotal
    rw [l2, t2, e2, pow_succ]
    generalize ((1 : ℚ) + 1 / 2 ^ 24) ^ l.length = g at *
    generalize totalSize l = S at *
    have tri := abs_add_le p.val a.val
    have p0 := abs_nonneg p.val
    have a0 := abs_nonneg a.val
    have step : (p + a).IsFin = true → |(p + a).val| ≤ (1 + 1 / 2 ^ 24) * (|p.val| + |a.val|) := fun f => by
      have := add_error_rel f
      have := abs_sub_abs_le_abs_sub (p + a).val (p.val + a.val)
      linarith
    constructor
    · intro h hb
      have fp := h p (by simp)
      have fa := h a (by simp)
      have f : (p + a).IsFin = true := by
        rw [add_fin fp fa]
        apply isFin_round
        norm_num at *
        nlinarith
      refine i1 (fun q hq => ?_) ?_
      · rcases List.mem_cons.1 hq with rfl | hq
        · exact f
        · exact h q (by simp [hq])
      · have := step f
        norm_num at *
        nlinarith
    · intro f
      have fpa : (p + a).IsFin = true := fold_fin (l := l) f
      have e := add_error_rel fpa
      have k := i2 f
      have b := step fpa
      have t := abs_sub_le ((a :: l).foldl (· + ·) p).val ((p + a).val + exactTotal l) (p.val + a.val + exactTotal l)
      rw [show (p + a).val + exactTotal l - (p.val + a.val + exactTotal l) = (p + a).val - (p.val + a.val) by ring] at t
      refine t.trans ?_
      have k' : |((a :: l).foldl (· + ·) p).val - ((p + a).val + exactTotal l)| ≤ (g - 1) * (|(p + a).val| + S) := k
      have b' : (g - 1) * (|(p + a).val| + S) ≤ (g - 1) * ((1 + 1 / 2 ^ 24) * (|p.val| + |a.val|) + S) := by
        have : 0 ≤ g - 1 := by linarith
        gcongr
      norm_num at *
      nlinarith

/-- the product of a list, one number after the other -/
theorem fold_mul (l : List F32) : ∀ (p : F32) (r : ℝ) (k : ℕ), Rel p r ((1 + 1 / 2 ^ 24) ^ k - 1) → k + l.length ≤ 2 ^ 20 →
    (∀ a ∈ l, a.IsFin = true) →
    (∀ j ≤ l.length, 1 / 2 ^ 100 ≤ |r * exactProduct (l.take j)| ∧ |r * exactProduct (l.take j)| ≤ 2 ^ 100) →
    Rel (l.foldl (· * ·) p) (r * exactProduct l) ((1 + 1 / 2 ^ 24) ^ (k + l.length) - 1) := by
  induction l with
  | nil => intro p r k h _ _ _; simpa [exactProduct] using h
  | cons a l ih =>
    intro p r k h hk hf hb
    have fa := hf a (by simp)
    have grow : (1 + 1 / 2 ^ 24 : ℝ) ^ k ≤ 3 / 2 := by
      have : k ≤ 2 ^ 20 := by omega
      calc (1 + 1 / 2 ^ 24 : ℝ) ^ k ≤ (1 + 1 / 2 ^ 24) ^ (2 ^ 20) := pow_le_pow_right₀ (by norm_num) this
        _ ≤ Real.exp (1 / 2 ^ 24) ^ (2 ^ 20) := by
          gcongr
          have := Real.add_one_le_exp ((1 : ℝ) / 2 ^ 24)
          linarith
        _ = Real.exp (1 / 16) := by rw [← Real.exp_nat_mul]; norm_num
        _ ≤ 3 / 2 := by
          have := Real.abs_exp_sub_one_sub_id_le (x := 1 / 16) (by norm_num)
          have := (abs_le.1 this).2
          norm_num at *
          linarith
    have b1 := hb 1 (by simp)
    have e1 : ((exactProduct ((a :: l).take 1) : ℚ) : ℝ) = a.val := by simp [exactProduct]
    rw [e1] at b1
    have m := h.mul (y := a) (g := (1 + 1 / 2 ^ 24) ^ (k + 1) - 1) (Rel.exact fa) (by linarith)
      (by rw [pow_succ ((1 : ℝ) + 1 / 2 ^ 24) k]; linarith) (le_trans (by norm_num) b1.1) (b1.2.trans (by norm_num))
    have ex : ∀ l' : List F32, ((exactProduct (a :: l') : ℚ) : ℝ) = a.val * exactProduct l' := fun l' => by simp [exactProduct]
    have := ih (p * a) (r * a.val) (k + 1) m (by simp at hk; omega) (fun q hq => hf q (by simp [hq])) (fun j hj => by
      have := hb (j + 1) (by simp; omega)
      rw [List.take_succ_cons, ex] at this
      rw [mul_assoc]
      exact this)
    rw [ex, ← mul_assoc, show k + (a :: l).length = k + 1 + l.length by simp; omega]
    exact this

/-- a counter: adding 1 again and again -/
theorem counter (n : ℕ) : IsInt ((fun x : F32 => x + lit 1)^[n] (lit 0)) (min n (2 ^ 24) : ℕ) := by
  induction n with
  | zero => exact ⟨isFin_lit_zero, by rw [Function.iterate_zero, id, val_lit_zero]; simp⟩
  | succ n ih =>
    rw [Function.iterate_succ_apply']
    generalize (fun x : F32 => x + lit 1)^[n] (lit 0) = x at *
    have l1 : (lit 1 : F32).val = 1 := by decide +kernel
    rcases Nat.lt_or_ge n (2 ^ 24) with h | h
    · rw [min_eq_left (by omega)] at ih ⊢
      have e : x + lit 1 = round (x.sgn && (lit 1 : F32).sgn) (x.val + (lit 1 : F32).val) := add_fin ih.1 isFin_lit_one
      rw [e, ih.2, l1, show (((n : ℕ) : ℤ) : ℚ) + 1 = (((n + 1 : ℕ) : ℤ) : ℚ) by push_cast; ring]
      exact isInt_round (by rw [abs_of_nonneg (by positivity)]; exact_mod_cast h) _
    · rw [min_eq_right (by omega)] at ih ⊢
      have e : x + lit 1 = round (x.sgn && (lit 1 : F32).sgn) (x.val + (lit 1 : F32).val) := add_fin ih.1 isFin_lit_one
      rw [e, ih.2, l1]
      have s : (lit 1 : F32).sgn = false := by decide +kernel
      rw [s, Bool.and_false]
      exact ⟨by decide +kernel, by decide +kernel⟩

end Zcm.F32
