import Mathlib.Data.Real.Basic
import Mathlib.Tactic.FieldSimp
import Mathlib.Tactic.Linarith
import Mathlib.Tactic.Positivity
import Mathlib.Tactic.Ring

/-!
# A polynomial that is not negative on an interval

A polynomial is the list of its coefficients, constant one first. If after the substitution that sends the interval to
`[0, ∞)` no coefficient is negative, the polynomial is not negative on the interval.
-/

namespace Zcm

/-- the value of the polynomial at `x` -/
noncomputable def polyAt : List ℚ → ℝ → ℝ
  | [], _ => 0
  | a :: l, x => a + x * polyAt l x

def polyAdd : List ℚ → List ℚ → List ℚ
  | [], m => m
  | l, [] => l
  | a :: l, b :: m => (a + b) :: polyAdd l m

/-- `P(c + x)` as a polynomial in `x` -/
def polyShift (c : ℚ) : List ℚ → List ℚ
  | [] => []
  | a :: l => polyAdd [a] (polyAdd ((polyShift c l).map (c * ·)) (0 :: polyShift c l))

theorem polyAt_add (l m : List ℚ) (x : ℝ) : polyAt (polyAdd l m) x = polyAt l x + polyAt m x := by
  induction l generalizing m with
  | nil => simp [polyAdd, polyAt]
  | cons a l ih =>
    cases m with
    | nil => simp [polyAdd, polyAt]
    | cons b m =>
      simp only [polyAdd, polyAt, ih]
      push_cast
      ring

theorem polyAt_map (c : ℚ) (l : List ℚ) (x : ℝ) : polyAt (l.map (c * ·)) x = c * polyAt l x := by
  induction l with
  | nil => simp [polyAt]
  | cons a l ih =>
    simp only [List.map_cons, polyAt, ih]
    push_cast
    ring

theorem polyAt_shift (c : ℚ) (l : List ℚ) (x : ℝ) : polyAt (polyShift c l) x = polyAt l (c + x) := by
  induction l with
  | nil => rfl
  | cons a l ih =>
    simp only [polyShift, polyAt_add, polyAt_map, polyAt, ih]
    push_cast
    ring

theorem polyAt_append (l m : List ℚ) (x : ℝ) : polyAt (l ++ m) x = polyAt l x + x ^ l.length * polyAt m x := by
  induction l with
  | nil => simp [polyAt]
  | cons a l ih =>
    simp only [List.cons_append, polyAt, ih, List.length_cons]
    ring

theorem polyAt_reverse (l : List ℚ) {x : ℝ} (hx : x ≠ 0) : polyAt l x * x = x ^ l.length * polyAt l.reverse (1 / x) := by
  induction l with
  | nil => simp [polyAt]
  | cons a l ih =>
    simp only [List.reverse_cons, polyAt_append, polyAt, List.length_reverse, List.length_cons, mul_zero, add_zero]
    have : x ^ (l.length + 1) * (polyAt l.reverse (1 / x) + (1 / x) ^ l.length * a) =
        x * (x ^ l.length * polyAt l.reverse (1 / x)) + x * a * (x * (1 / x)) ^ l.length := by
      rw [mul_pow]; ring
    rw [this, ← ih, mul_one_div_cancel hx, one_pow]
    ring

theorem polyAt_nonneg {l : List ℚ} (h : ∀ a ∈ l, 0 ≤ a) {x : ℝ} (hx : 0 ≤ x) : 0 ≤ polyAt l x := by
  induction l with
  | nil => exact le_rfl
  | cons a l ih =>
    have a0 : (0 : ℝ) ≤ a := by exact_mod_cast h a (by simp)
    have := ih fun b hb => h b (by simp [hb])
    simp only [polyAt]
    positivity

/-- The test: no coefficient is negative after `u = a + 1 / (y + 1 / (b - a))`. -/
def polyTest (a b : ℚ) (l : List ℚ) : Bool :=
  (polyShift (1 / (b - a)) (polyShift a l).reverse).all (0 ≤ ·) && ((polyShift a l).headD 0 ≥ 0)

theorem polyAt_nonneg_on {a b : ℚ} {l : List ℚ} (h : polyTest a b l = true) {u : ℝ} (h0 : a ≤ u) (h1 : u ≤ b) :
    0 ≤ polyAt l u := by
  simp only [polyTest, Bool.and_eq_true, List.all_eq_true, decide_eq_true_eq] at h
  have e : polyAt l u = polyAt (polyShift a l) (u - a) := by rw [polyAt_shift]; ring_nf
  rw [e]
  rcases h0.eq_or_lt with r | r
  · rw [← r, sub_self]
    generalize polyShift a l = m at h
    cases m with
    | nil => exact le_rfl
    | cons c m =>
      have : 0 ≤ c := h.2
      simp only [polyAt, zero_mul, add_zero]
      exact_mod_cast this
  · have x0 : 0 < u - a := by linarith
    have ab : (0 : ℝ) < b - a := by linarith
    have y0 : 0 ≤ 1 / (u - a) - 1 / ((b : ℝ) - a) := by
      rw [sub_nonneg]
      exact one_div_le_one_div_of_le x0 (by linarith)
    have k := polyAt_nonneg h.1 y0
    rw [polyAt_shift] at k
    push_cast at k
    rw [add_sub_cancel] at k
    have r := polyAt_reverse (polyShift a l) x0.ne'
    have : 0 ≤ polyAt (polyShift a l) (u - a) * (u - a) := by rw [r]; positivity
    exact nonneg_of_mul_nonneg_left this x0

end Zcm
