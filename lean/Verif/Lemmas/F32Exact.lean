import Verif.Spec.IntValued
import Verif.Lemmas.F32Int
import Verif.Lemmas.F32Error
import Mathlib.Data.Rat.Cast.Order

/-!
# Exact binary32 arithmetic on integers
-/

set_option exponentiation.threshold 300

namespace Zcm.F32

theorem isInt_round {n : ℤ} (h : |n| ≤ 2 ^ 24) (s : Bool) : IsInt (round s n) n := by
  have hb := abs_le.1 h
  have hn : n.natAbs ≤ 2 ^ 24 := by omega
  have r := rep_natAbs_mul hn
  have u := uround_of_rep r
  have e : ((n * 2 ^ 149 : ℤ) : ℚ) / 2 ^ 149 = n := by
    push_cast; exact mul_div_cancel_right₀ _ (by positivity)
  rw [e] at u
  have k : (round s n).key = n * 2 ^ 149 := by
    rw [key_round, u]
    exact cut_of (by omega) (by omega)
  refine ⟨?_, ?_⟩
  · rw [isFin_iff (round_ne_nan _ _), k]
    norm_num
    omega
  · unfold val
    rw [k]
    exact e

/-- `x` is exactly the real `r`, which is an integer of magnitude at most `B`. -/
structure Ex (x : F32) (r : ℝ) (B : ℤ) : Prop where
  fin : x.IsFin = true
  int : ∃ n : ℤ, x.val = n ∧ r = n ∧ |n| ≤ B

theorem IsInt.ex {x : F32} {n B : ℤ} (h : IsInt x n) (hb : |n| ≤ B) : Ex x n B := ⟨h.1, n, h.2, rfl, hb⟩

theorem Ex.isInt {x : F32} {n B : ℤ} (h : Ex x n B) : IsInt x n ∧ |n| ≤ B := by
  obtain ⟨m, h1, h2, h3⟩ := h.int
  have : n = m := by exact_mod_cast h2
  subst this
  exact ⟨⟨h.fin, h1⟩, h3⟩

theorem Ex.mono {x : F32} {r : ℝ} {B C : ℤ} (h : Ex x r B) (hc : B ≤ C) : Ex x r C := by
  obtain ⟨n, h1, h2, h3⟩ := h.int
  exact ⟨h.fin, n, h1, h2, h3.trans hc⟩

theorem Ex.add {x y : F32} {r t : ℝ} {B C : ℤ} (h : Ex x r B) (g : Ex y t C) (hb : B + C ≤ 2 ^ 24) :
    Ex (x + y) (r + t) (B + C) := by
  obtain ⟨n, h1, h2, h3⟩ := h.int
  obtain ⟨m, g1, g2, g3⟩ := g.int
  have b : |n + m| ≤ B + C := (abs_add_le n m).trans (add_le_add h3 g3)
  have i := isInt_round (b.trans hb) (x.sgn && y.sgn)
  rw [add_fin h.fin g.fin, h1, g1, h2, g2]
  rw [Int.cast_add] at i
  exact ⟨i.1, n + m, by rw [i.2], by push_cast; rfl, b⟩

theorem Ex.neg {x : F32} {r : ℝ} {B : ℤ} (h : Ex x r B) : Ex (-x) (-r) B := by
  obtain ⟨n, h1, h2, h3⟩ := h.int
  exact ⟨by rw [isFin_neg]; exact h.fin, -n, by rw [val_neg, h1]; push_cast; rfl, by rw [h2]; push_cast; rfl, by rwa [abs_neg]⟩

theorem Ex.sub {x y : F32} {r t : ℝ} {B C : ℤ} (h : Ex x r B) (g : Ex y t C) (hb : B + C ≤ 2 ^ 24) :
    Ex (x - y) (r - t) (B + C) := by
  rw [sub_eq, sub_eq_add_neg]
  exact h.add g.neg hb

theorem Ex.mul {x y : F32} {r t : ℝ} {B C : ℤ} (h : Ex x r B) (g : Ex y t C) (hb : B * C ≤ 2 ^ 24) :
    Ex (x * y) (r * t) (B * C) := by
  obtain ⟨n, h1, h2, h3⟩ := h.int
  obtain ⟨m, g1, g2, g3⟩ := g.int
  have b : |n * m| ≤ B * C := by
    rw [abs_mul]
    exact mul_le_mul h3 g3 (abs_nonneg _) ((abs_nonneg _).trans h3)
  have i := isInt_round (b.trans hb) (x.sgn ^^ y.sgn)
  rw [mul_fin h.fin g.fin, h1, g1, h2, g2]
  rw [Int.cast_mul] at i
  exact ⟨i.1, n * m, by rw [i.2], by push_cast; rfl, b⟩

/-- dividing by 1 or -1 -/
theorem Ex.div {x y : F32} {r t : ℝ} {B C : ℤ} (h : Ex x r B) (g : Ex y t C) (ht : t = 1 ∨ t = -1)
    (hb : B ≤ 2 ^ 24) : Ex (x / y) (r / t) B := by
  obtain ⟨n, h1, h2, h3⟩ := h.int
  obtain ⟨m, g1, g2, g3⟩ := g.int
  have hm : m = 1 ∨ m = -1 := by
    rcases ht with h | h
    · left; rw [g2] at h; exact_mod_cast h
    · right; rw [g2] at h; exact_mod_cast h
  have v0 : y.val ≠ 0 := by rw [g1]; rcases hm with h | h <;> rw [h] <;> norm_num
  rw [div_fin h.fin g.fin v0, h1, g1, h2, g2]
  have b : |n * m| ≤ B := by rcases hm with h | h <;> rw [h] <;> simpa using h3
  have i := isInt_round (b.trans hb) (x.sgn ^^ y.sgn)
  have e : (n : ℚ) / m = (n * m : ℤ) := by rcases hm with h | h <;> rw [h] <;> push_cast <;> ring
  have e' : (n : ℝ) / m = (n * m : ℤ) := by rcases hm with h | h <;> rw [h] <;> push_cast <;> ring
  rw [e, e']
  exact ⟨i.1, n * m, i.2, rfl, b⟩

theorem Ex.ofLit {n : ℤ} (h : |n| ≤ 2 ^ 24) : Ex (lit (n : ℚ)) (n : ℝ) |n| := by
  have i := isInt_round h false
  exact ⟨i.1, n, i.2, rfl, le_rfl⟩

theorem Ex.zero : Ex (Zcm.lit 0) (Zcm.lit 0) 0 := by simpa using Ex.ofLit (n := 0) (by norm_num)
theorem Ex.one : Ex (Zcm.lit 1) (Zcm.lit 1) 1 := by simpa using Ex.ofLit (n := 1) (by norm_num)
theorem Ex.neg_one : Ex (Zcm.lit (-1)) (Zcm.lit (-1)) 1 := by simpa using Ex.ofLit (n := -1) (by norm_num)

theorem Ex.ops {x y z : F32} {p q r : ℤ} (hx : Ex x p |p|) (hy : Ex y q |q|) (hz : Ex z r |r|) :
    (|p| + |q| ≤ 2 ^ 24 → IsInt (x + y) (p + q) ∧ IsInt (x - y) (p - q)) ∧
    (|p| + |r| ≤ 2 ^ 24 → IsInt (x + z) (p + r) ∧ IsInt (x - z) (p - r) ∧ IsInt (z - x) (r - p)) ∧
    (|p| * |q| ≤ 2 ^ 24 → IsInt (x * y) (p * q)) ∧
    (|p| * |r| ≤ 2 ^ 24 → IsInt (x * z) (p * r) ∧ IsInt (z * x) (r * p)) ∧ IsInt (-x) (-p) := by
  refine ⟨fun h => ⟨?_, ?_⟩, fun h => ⟨?_, ?_, ?_⟩, fun h => ?_, fun h => ⟨?_, ?_⟩, ?_⟩
  · exact (show Ex _ ((p + q : ℤ) : ℝ) _ by push_cast; exact hx.add hy h).isInt.1
  · exact (show Ex _ ((p - q : ℤ) : ℝ) _ by push_cast; exact hx.sub hy h).isInt.1
  · exact (show Ex _ ((p + r : ℤ) : ℝ) _ by push_cast; exact hx.add hz h).isInt.1
  · exact (show Ex _ ((p - r : ℤ) : ℝ) _ by push_cast; exact hx.sub hz h).isInt.1
  · exact (show Ex _ ((r - p : ℤ) : ℝ) _ by push_cast; exact hz.sub hx (by rw [add_comm]; exact h)).isInt.1
  · exact (show Ex _ ((p * q : ℤ) : ℝ) _ by push_cast; exact hx.mul hy h).isInt.1
  · exact (show Ex _ ((p * r : ℤ) : ℝ) _ by push_cast; exact hx.mul hz h).isInt.1
  · exact (show Ex _ ((r * p : ℤ) : ℝ) _ by push_cast; exact hz.mul hx (by rw [mul_comm]; exact h)).isInt.1
  · exact (show Ex _ ((-p : ℤ) : ℝ) _ by push_cast; exact hx.neg).isInt.1

theorem Ex.prod {x y : F32} {n m : ℤ} (h : IsInt x n) (g : IsInt y m) (hb : |n * m| ≤ 2 ^ 24) :
    Ex (x * y) ((n * m : ℤ) : ℝ) |n * m| := by
  rw [abs_mul] at hb ⊢
  push_cast
  exact (h.ex le_rfl).mul (g.ex le_rfl) hb

theorem Ex.sum {x y : F32} {n m B C : ℤ} (h : Ex x n B) (g : Ex y m C) (hb : B + C ≤ 2 ^ 24) :
    Ex (x + y) ((n + m : ℤ) : ℝ) (B + C) := by
  push_cast
  exact h.add g hb

theorem exactSum2 (a0 a1 b0 b1 : F32) : ExactSum (a0 * b0 + a1 * b1) ![a0, a1] ![b0, b1] := by
  intro m n hm hn h
  rw [Fin.sum_univ_two] at h ⊢
  have p0 := abs_nonneg (m 0 * n 0)
  have p1 := abs_nonneg (m 1 * n 1)
  have e0 := Ex.prod (hm 0) (hn 0) (by omega)
  have e1 := Ex.prod (hm 1) (hn 1) (by omega)
  exact (e0.sum e1 (by omega)).isInt.1

theorem exactSum3 (a0 a1 a2 b0 b1 b2 : F32) : ExactSum (a0 * b0 + a1 * b1 + a2 * b2) ![a0, a1, a2] ![b0, b1, b2] := by
  intro m n hm hn h
  rw [Fin.sum_univ_three] at h ⊢
  have p0 := abs_nonneg (m 0 * n 0)
  have p1 := abs_nonneg (m 1 * n 1)
  have p2 := abs_nonneg (m 2 * n 2)
  have e0 := Ex.prod (hm 0) (hn 0) (by omega)
  have e1 := Ex.prod (hm 1) (hn 1) (by omega)
  have e2 := Ex.prod (hm 2) (hn 2) (by omega)
  exact ((e0.sum e1 (by omega)).sum e2 (by omega)).isInt.1

theorem exactSum4 (a0 a1 a2 a3 b0 b1 b2 b3 : F32) : ExactSum (a0 * b0 + a1 * b1 + a2 * b2 + a3 * b3) ![a0, a1, a2, a3] ![b0, b1, b2, b3] := by
  intro m n hm hn h
  rw [Fin.sum_univ_four] at h ⊢
  have p0 := abs_nonneg (m 0 * n 0)
  have p1 := abs_nonneg (m 1 * n 1)
  have p2 := abs_nonneg (m 2 * n 2)
  have p3 := abs_nonneg (m 3 * n 3)
  have e0 := Ex.prod (hm 0) (hn 0) (by omega)
  have e1 := Ex.prod (hm 1) (hn 1) (by omega)
  have e2 := Ex.prod (hm 2) (hn 2) (by omega)
  have e3 := Ex.prod (hm 3) (hn 3) (by omega)
  exact (((e0.sum e1 (by omega)).sum e2 (by omega)).sum e3 (by omega)).isInt.1

theorem exactSum4' (a0 a1 a2 a3 b0 b1 b2 b3 : F32) : ExactSum (a0 * b0 + a1 * b1 + (a2 * b2 + a3 * b3)) ![a0, a1, a2, a3] ![b0, b1, b2, b3] := by
  intro m n hm hn h
  rw [Fin.sum_univ_four] at h ⊢
  rw [add_assoc (_ + _)] at h ⊢
  have p0 := abs_nonneg (m 0 * n 0)
  have p1 := abs_nonneg (m 1 * n 1)
  have p2 := abs_nonneg (m 2 * n 2)
  have p3 := abs_nonneg (m 3 * n 3)
  have e0 := Ex.prod (hm 0) (hn 0) (by omega)
  have e1 := Ex.prod (hm 1) (hn 1) (by omega)
  have e2 := Ex.prod (hm 2) (hn 2) (by omega)
  have e3 := Ex.prod (hm 3) (hn 3) (by omega)
  exact ((e0.sum e1 (by omega)).sum (e2.sum e3 (by omega)) (by omega)).isInt.1

theorem exactSum_cross (a b c d : F32) : ExactSum (a * b - c * d) ![a, -c] ![b, d] := by
  rw [sub_eq, ← neg_mul']
  exact exactSum2 a (-c) b d

theorem ExactSum.swap {x : F32} {n : ℕ} {a b : Fin n → F32} (h : ExactSum x a b) : ExactSum x b a := by
  intro m k hm hk hb
  rw [Finset.sum_congr rfl fun i _ => mul_comm (m i) (k i)]
  refine h k m hk hm ?_
  rw [← Finset.sum_congr rfl fun i _ => congrArg _ (mul_comm (m i) (k i))]
  exact hb

theorem IsInt.beq {x y : F32} {n : ℤ} (h : IsInt x n) (g : IsInt y n) : (x == y) = true := by
  have k : x.key = y.key := by
    have := h.2.trans g.2.symm
    exact le_antisymm (key_le_iff.2 this.le) (key_le_iff.2 this.ge)
  show decide _ = true
  rw [decide_eq_true_iff]
  exact ⟨isFin_ne_nan h.1, isFin_ne_nan g.1, k⟩

theorem inv_of_det {k : ℕ} {N : Matrix (Fin k) (Fin k) ℤ} (h : N.det = 1 ∨ N.det = -1) :
    N⁻¹ = N.det • N.adjugate := by
  rw [Matrix.inv_def]
  rcases h with h | h <;> rw [h]
  · simp
  · congr 1
    simpa using Ring.inverse_unit (-1 : ℤˣ)

/-- Proves an exactness goal by following the expression. -/
macro "exact_ints" : tactic => `(tactic|
  (apply Ex.mono <;> (repeat' (first
    | assumption | exact Ex.one | exact Ex.neg_one | exact Ex.zero
    | apply Ex.add | apply Ex.sub | apply Ex.mul | apply Ex.neg | apply Ex.div))))

end Zcm.F32
