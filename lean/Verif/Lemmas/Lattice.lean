import Verif.Spec.Lattice
import Verif.Lemmas.Line
import Mathlib.RingTheory.Coprime.Lemmas
import Mathlib.RingTheory.Int.Basic

/-!
# The greatest common divisor and the whole-numbered points of a segment
-/

namespace Zcm

open I32

theorem beq_zero (x : I32) : (x == I32.lit 0) = decide (x.toInt = 0) := by
  have z : (I32.lit 0).toInt = 0 := by decide
  rw [Bool.eq_iff_iff, beq_iff_eq, decide_eq_true_iff, ← I32.toInt_inj, z]

theorem tdiv_fits {a b : ℤ} (ha : |a| < 2 ^ 31) : FitsInt32 (a.tdiv b) := by
  have : |a.tdiv b| ≤ |a| := by
    have := Int.natAbs_tdiv_le_natAbs a b
    rw [Int.abs_eq_natAbs, Int.abs_eq_natAbs]
    omega
  have := abs_lt.1 (lt_of_le_of_lt this ha)
  constructor <;> omega

theorem I32.mod_ok {a b : I32} (ha : |a.toInt| < 2 ^ 31) (hb : b.toInt ≠ 0) :
    ∃ x, I32.mod a b = .ok x ∧ x.toInt = a.toInt - b.toInt * a.toInt.tdiv b.toInt := by
  have := isInt_mod a b
  unfold intMod at this
  rw [if_neg (by push Not; exact ⟨hb, tdiv_fits ha⟩)] at this
  exact this

theorem I32.div_ok {a b : I32} (ha : |a.toInt| < 2 ^ 31) (hb : b.toInt ≠ 0) :
    ∃ x, I32.div a b = .ok x ∧ x.toInt = a.toInt.tdiv b.toInt := by
  have := isInt_div a b
  unfold intDiv Zcm.fits at this
  rw [if_neg hb, if_pos (tdiv_fits ha)] at this
  exact this

theorem rem_lt {a b : ℤ} (hb : b ≠ 0) : |a - b * a.tdiv b| < |b| := by
  have h := Int.tmod_add_mul_tdiv a b
  have e : a - b * a.tdiv b = a.tmod b := by linarith
  rw [e, Int.abs_eq_natAbs, Int.abs_eq_natAbs]
  have := Int.natAbs_tmod a b
  have := Nat.mod_lt a.natAbs (Int.natAbs_pos.2 hb)
  omega

theorem rem_le {a b : ℤ} (h : |b| ≤ |a|) : |a - b * a.tdiv b| ≤ |a| - |b| := by
  have h' := Int.tmod_add_mul_tdiv a b
  have e : a - b * a.tdiv b = a.tmod b := by linarith
  rw [Int.abs_eq_natAbs, Int.abs_eq_natAbs] at h
  rw [e, Int.abs_eq_natAbs, Int.abs_eq_natAbs, Int.abs_eq_natAbs]
  have h1 := Int.natAbs_tmod a b
  have h2 : a.natAbs % b.natAbs ≤ a.natAbs - b.natAbs := by
    rw [Nat.mod_eq_sub_mod (by omega)]
    exact Nat.mod_le _ _
  omega

theorem gcdLoop_ok : ∀ (k n : ℕ) (p : V2 I32), |p.x.toInt| < 2 ^ 31 → |p.y.toInt| < 2 ^ 31 → |p.y.toInt| < 2 ^ k → 2 * k ≤ n →
    ∃ g, gcdLoop n p = .ok (some g) ∧ g.toInt.natAbs = Int.gcd p.x.toInt p.y.toInt ∧ |g.toInt| < 2 ^ 31 := by
  have done : ∀ (n : ℕ) (p : V2 I32), p.y.toInt = 0 → gcdLoop n p = .ok (some p.x) := by
    intro n p h
    cases n <;> rw [gcdLoop, if_pos (by rw [beq_zero]; exact decide_eq_true h)] <;> rfl
  have fin : ∀ (n : ℕ) (p : V2 I32), |p.x.toInt| < 2 ^ 31 → p.y.toInt = 0 →
      ∃ g, gcdLoop n p = .ok (some g) ∧ g.toInt.natAbs = Int.gcd p.x.toInt p.y.toInt ∧ |g.toInt| < 2 ^ 31 :=
    fun n p hx h => ⟨p.x, done n p h, by rw [h, Int.gcd_zero_right], hx⟩
  have go : ∀ (n : ℕ) (p : V2 I32) (m : I32), p.y.toInt ≠ 0 → I32.mod p.x p.y = .ok m → gcdLoop (n + 1) p = gcdLoop n ⟨p.y, m⟩ := by
    intro n p m h hm
    rw [gcdLoop, if_neg (by rw [beq_zero]; simpa using h)]
    exact ok_step hm rfl
  intro k
  induction k with
  | zero =>
    intro n p hx hy h0 _
    exact fin n p hx (by rw [pow_zero] at h0; exact abs_eq_zero.1 (by have := abs_nonneg p.y.toInt; omega))
  | succ k ih =>
    intro n p hx hy hk hn
    by_cases h0 : p.y.toInt = 0
    · exact fin n p hx h0
    obtain ⟨n, rfl⟩ : ∃ m, n = m + 1 := ⟨n - 1, by omega⟩
    obtain ⟨m, m1, m2⟩ := I32.mod_ok hx h0
    have l1 := rem_lt (a := p.x.toInt) h0
    rw [← m2] at l1
    have g1 : Int.gcd p.y.toInt m.toInt = Int.gcd p.x.toInt p.y.toInt := by
      rw [m2, Int.gcd_sub_mul_left_right, Int.gcd_comm]
    rw [go n p m h0 m1, ← g1]
    by_cases h1 : m.toInt = 0
    · exact fin n ⟨p.y, m⟩ hy h1
    obtain ⟨n, rfl⟩ : ∃ m, n = m + 1 := ⟨n - 1, by omega⟩
    obtain ⟨r, r1, r2⟩ := I32.mod_ok (a := p.y) (b := m) hy h1
    have l2 := rem_lt (a := p.y.toInt) h1
    have l3 := rem_le l1.le
    rw [← r2] at l2 l3
    have g2 : Int.gcd m.toInt r.toInt = Int.gcd p.y.toInt m.toInt := by
      rw [r2, Int.gcd_sub_mul_left_right, Int.gcd_comm]
    rw [go n ⟨p.y, m⟩ r h1 r1, ← g2]
    refine ih n ⟨m, r⟩ (by show |m.toInt| < _; omega) (by show |r.toInt| < _; omega) ?_ (by omega)
    show |r.toInt| < _
    rw [pow_succ] at hk
    omega

/-- the multiples of a shortest step are the whole-numbered points of its line -/
theorem multiple_of_cross {a b x y : ℤ} (hc : Int.gcd a b = 1) (h : a * y = b * x) : ∃ k, x = k * a ∧ y = k * b := by
  have co : IsCoprime a b := Int.isCoprime_iff_gcd_eq_one.2 hc
  obtain ⟨u, v, huv⟩ := co
  refine ⟨u * x + v * y, ?_, ?_⟩
  · calc x = (u * a + v * b) * x := by rw [huv, one_mul]
      _ = u * a * x + v * (b * x) := by ring
      _ = u * a * x + v * (a * y) := by rw [h]
      _ = _ := by ring
  · calc y = (u * a + v * b) * y := by rw [huv, one_mul]
      _ = u * (a * y) + v * b * y := by ring
      _ = u * (b * x) + v * b * y := by rw [h]
      _ = _ := by ring

end Zcm
