import Verif.Lemmas.Lattice

/-!
# C166  The greatest common divisor and the whole-numbered points of a segment

The caller's code is in `Spec/Lattice`.
-/

namespace Zcm

/-- C166: for all coordinates other than the smallest `int`, whatever their signs, the loop ends after at most 62 turns, nothing is undefined,
and the result is the greatest common divisor up to sign. -/
theorem C166_ivec2_gcd (d : V2 I32) (hx : d.x.toInt ≠ -2 ^ 31) (hy : d.y.toInt ≠ -2 ^ 31) (n : ℕ) (hn : 62 ≤ n) :
    ∃ g, gcdLoop n d = .ok (some g) ∧ g.toInt.natAbs = Int.gcd d.x.toInt d.y.toInt := by
  have h1 := d.x.toInt_range
  have h2 := d.y.toInt_range
  obtain ⟨g, g1, g2, -⟩ := gcdLoop_ok 31 n d (by rw [abs_lt]; constructor <;> omega) (by rw [abs_lt]; constructor <;> omega)
    (by rw [abs_lt]; constructor <;> omega) (by omega)
  exact ⟨g, g1, g2⟩

/-- C166: the step is defined unless both coordinates are zero; the divisor is the greatest common divisor, it divides both coordinates without
remainder, and the step is the shortest in its direction: its coordinates have no common divisor. -/
theorem C166_ivec2_shortest (d : V2 I32) (hx : d.x.toInt ≠ -2 ^ 31) (hy : d.y.toInt ≠ -2 ^ 31) (h0 : d.x.toInt ≠ 0 ∨ d.y.toInt ≠ 0) :
    ∃ g q, (∀ n, 62 ≤ n → shortestStep n d = .ok (some (g, q))) ∧ 0 < g.toInt ∧ g.toInt = Int.gcd d.x.toInt d.y.toInt ∧
      d.x.toInt = g.toInt * q.x.toInt ∧ d.y.toInt = g.toInt * q.y.toInt ∧ Int.gcd q.x.toInt q.y.toInt = 1 := by
  have r1 := d.x.toInt_range
  have r2 := d.y.toInt_range
  have b1 : |d.x.toInt| < 2 ^ 31 := by rw [abs_lt]; constructor <;> omega
  have b2 : |d.y.toInt| < 2 ^ 31 := by rw [abs_lt]; constructor <;> omega
  have run : ∀ n, 62 ≤ n → ∃ g q, shortestStep n d = .ok (some (g, q)) ∧ g.toInt = Int.gcd d.x.toInt d.y.toInt ∧
      q.x.toInt = d.x.toInt.tdiv g.toInt ∧ q.y.toInt = d.y.toInt.tdiv g.toInt := by
    intro n hn
    obtain ⟨g, g1, g2, g3⟩ := gcdLoop_ok 31 n d b1 b2 b2 (by omega)
    have ab := isInt_abs g
    unfold intAbs Zcm.fits at ab
    rw [if_pos (by have := abs_nonneg g.toInt; constructor <;> omega)] at ab
    obtain ⟨g', k1, k2⟩ := ab
    have k3 : g'.toInt = Int.gcd d.x.toInt d.y.toInt := by rw [k2, Int.abs_eq_natAbs, g2]
    have gz : g'.toInt ≠ 0 := by
      rw [k3]
      intro h
      have := Int.gcd_eq_zero_iff.1 (show Int.gcd d.x.toInt d.y.toInt = 0 by exact_mod_cast h)
      omega
    obtain ⟨x, x1, x2⟩ := I32.div_ok b1 gz
    obtain ⟨y, y1, y2⟩ := I32.div_ok b2 gz
    refine ⟨g', ⟨x, y⟩, ?_, k3, x2, y2⟩
    unfold shortestStep
    refine ok_step g1 (ok_step k1 ?_)
    have D : IV2.divS d g' = .ok ⟨x, y⟩ := by
      unfold IV2.divS V2.macroVS
      exact ok_step x1 (ok_step y1 rfl)
    exact ok_step D rfl
  obtain ⟨g, q, s1, s2, s3, s4⟩ := run 62 le_rfl
  have gpos : 0 < g.toInt := by
    rw [s2]
    have : 0 < Int.gcd d.x.toInt d.y.toInt := Nat.pos_of_ne_zero fun h => by
      have := Int.gcd_eq_zero_iff.1 h
      omega
    exact_mod_cast this
  have e1 : d.x.toInt = g.toInt * q.x.toInt := by
    rw [s3, Int.mul_tdiv_cancel' (by rw [s2]; exact Int.gcd_dvd_left ..)]
  have e2 : d.y.toInt = g.toInt * q.y.toInt := by
    rw [s4, Int.mul_tdiv_cancel' (by rw [s2]; exact Int.gcd_dvd_right ..)]
  refine ⟨g, q, fun n hn => ?_, gpos, s2, e1, e2, ?_⟩
  · obtain ⟨g', q', t1, t2, t3, t4⟩ := run n hn
    have eg : g' = g := I32.toInt_inj.1 (by rw [t2, s2])
    have eq : q' = q := by
      have ex : q'.x = q.x := I32.toInt_inj.1 (by rw [t3, s3, eg])
      have ey : q'.y = q.y := I32.toInt_inj.1 (by rw [t4, s4, eg])
      exact V2.ext ex ey
    rw [t1, eg, eq]
  · have m := Int.gcd_mul_left g.toInt q.x.toInt q.y.toInt
    rw [← e1, ← e2] at m
    have : (Int.gcd d.x.toInt d.y.toInt : ℤ) = g.toInt * Int.gcd q.x.toInt q.y.toInt := by
      rw [m]
      push_cast
      rw [abs_of_pos gpos]
    rw [← s2] at this
    have : (Int.gcd q.x.toInt q.y.toInt : ℤ) = 1 := by
      have h : g.toInt * ((Int.gcd q.x.toInt q.y.toInt : ℤ) - 1) = 0 := by linarith
      have := (mul_eq_zero.1 h).resolve_left gpos.ne'
      omega
    exact_mod_cast this

private theorem step_ok {a b q : V2 I32} {g k : I32} (hx : b.x.toInt = a.x.toInt + g.toInt * q.x.toInt)
    (hy : b.y.toInt = a.y.toInt + g.toInt * q.y.toInt) (h1 : |b.x.toInt - a.x.toInt| < 2 ^ 31) (h2 : |b.y.toInt - a.y.toInt| < 2 ^ 31)
    (k0 : 0 ≤ k.toInt) (k1 : k.toInt ≤ g.toInt) :
    ∃ p, stepFrom a q k = .ok p ∧ p.x.toInt = a.x.toInt + k.toInt * q.x.toInt ∧ p.y.toInt = a.y.toInt + k.toInt * q.y.toInt := by
  have one : ∀ {a b q : I32}, b.toInt = a.toInt + g.toInt * q.toInt → |b.toInt - a.toInt| < 2 ^ 31 →
      ∃ m p, I32.mul q k = .ok m ∧ I32.add a m = .ok p ∧ p.toInt = a.toInt + k.toInt * q.toInt := by
    intro a b q e hb
    have ra := a.toInt_range
    have rb := b.toInt_range
    rw [e, add_sub_cancel_left] at hb
    have hb := abs_lt.1 hb
    have bounds : (0 ≤ k.toInt * q.toInt ∧ k.toInt * q.toInt ≤ g.toInt * q.toInt) ∨ (g.toInt * q.toInt ≤ k.toInt * q.toInt ∧ k.toInt * q.toInt ≤ 0) := by
      rcases le_total 0 q.toInt with hq | hq
      · exact .inl ⟨mul_nonneg k0 hq, mul_le_mul_of_nonneg_right k1 hq⟩
      · exact .inr ⟨mul_le_mul_of_nonpos_right k1 hq, mul_nonpos_of_nonneg_of_nonpos k0 hq⟩
    obtain ⟨m, m1, m2⟩ := I32.mul_ok (a := q) (b := k) (by rw [mul_comm]; constructor <;> omega)
    rw [mul_comm] at m2
    obtain ⟨p, p1, p2⟩ := I32.add_ok (a := a) (b := m) (by rw [m2]; constructor <;> omega)
    exact ⟨m, p, m1, p1, by rw [p2, m2]⟩
  obtain ⟨m, x, m1, x1, x2⟩ := one hx h1
  obtain ⟨m', y, n1, y1, y2⟩ := one hy h2
  refine ⟨⟨x, y⟩, ?_, x2, y2⟩
  unfold stepFrom
  have M : IV2.mulS q k = .ok ⟨m, m'⟩ := by
    unfold IV2.mulS V2.macroVS
    exact ok_step m1 (ok_step n1 rfl)
  have A : IV2.add a ⟨m, m'⟩ = .ok ⟨x, y⟩ := by
    unfold IV2.add V2.macroVV
    exact ok_step x1 (ok_step y1 rfl)
  exact ok_step M A

/-- C166: the whole-numbered points of the segment from `a` to `b` are exactly `a + q * k` for `k` from 0 to the greatest common divisor, all
of them defined; so there are that many plus one. -/
theorem C166_ivec2_points (a b : V2 I32) (h1 : |b.x.toInt - a.x.toInt| < 2 ^ 31) (h2 : |b.y.toInt - a.y.toInt| < 2 ^ 31) (ne : a ≠ b) :
    ∃ d g q, IV2.sub b a = .ok d ∧ (∀ n, 62 ≤ n → shortestStep n d = .ok (some (g, q))) ∧
      (∀ k : I32, 0 ≤ k.toInt → k.toInt ≤ g.toInt → ∃ p, stepFrom a q k = .ok p ∧ OnSegment a b p) ∧
      ∀ p, OnSegment a b p → ∃! k : I32, (0 ≤ k.toInt ∧ k.toInt ≤ g.toInt) ∧ stepFrom a q k = .ok p := by
  have f1 := abs_lt.1 h1
  have f2 := abs_lt.1 h2
  obtain ⟨dx, x1, x2⟩ := I32.sub_ok (a := b.x) (b := a.x) (by constructor <;> omega)
  obtain ⟨dy, y1, y2⟩ := I32.sub_ok (a := b.y) (b := a.y) (by constructor <;> omega)
  have ne' : dx.toInt ≠ 0 ∨ dy.toInt ≠ 0 := by
    by_contra hc
    push Not at hc
    apply ne
    have h1 : a.x = b.x := I32.toInt_inj.1 (by omega)
    have h2 : a.y = b.y := I32.toInt_inj.1 (by omega)
    cases a; cases b; simp_all
  obtain ⟨g, q, s1, s2, s3, s4, s5, s6⟩ := C166_ivec2_shortest ⟨dx, dy⟩ (by show dx.toInt ≠ _; omega) (by show dy.toInt ≠ _; omega) ne'
  have bx : b.x.toInt = a.x.toInt + g.toInt * q.x.toInt := by
    have : dx.toInt = g.toInt * q.x.toInt := s4
    omega
  have by' : b.y.toInt = a.y.toInt + g.toInt * q.y.toInt := by
    have : dy.toInt = g.toInt * q.y.toInt := s5
    omega
  refine ⟨⟨dx, dy⟩, g, q, ?_, s1, fun k k0 k1 => ?_, fun p hp => ?_⟩
  · unfold IV2.sub V2.macroVV
    exact ok_step x1 (ok_step y1 rfl)
  · obtain ⟨p, p1, p2, p3⟩ := step_ok bx by' h1 h2 k0 k1
    refine ⟨p, p1, ?_, ?_, ?_⟩
    · unfold areaZ
      rw [p2, p3, bx, by']
      ring
    · unfold BetweenZ
      rw [p2, bx]
      rcases le_total 0 q.x.toInt with hq | hq
      · have := mul_nonneg k0 hq; have := mul_le_mul_of_nonneg_right k1 hq; omega
      · have := mul_le_mul_of_nonpos_right k1 hq; have := mul_nonpos_of_nonneg_of_nonpos k0 hq; omega
    · unfold BetweenZ
      rw [p3, by']
      rcases le_total 0 q.y.toInt with hq | hq
      · have := mul_nonneg k0 hq; have := mul_le_mul_of_nonneg_right k1 hq; omega
      · have := mul_le_mul_of_nonpos_right k1 hq; have := mul_nonpos_of_nonneg_of_nonpos k0 hq; omega
  · obtain ⟨c, c1, c2⟩ := hp
    unfold areaZ at c
    rw [bx, by', add_sub_cancel_left, add_sub_cancel_left] at c
    have cr : q.x.toInt * (p.y.toInt - a.y.toInt) = q.y.toInt * (p.x.toInt - a.x.toInt) := by
      have : g.toInt * (q.x.toInt * (p.y.toInt - a.y.toInt) - q.y.toInt * (p.x.toInt - a.x.toInt)) = 0 := by linarith
      have := (mul_eq_zero.1 this).resolve_left s2.ne'
      linarith
    obtain ⟨k, kx, ky⟩ := multiple_of_cross s6 cr
    have range : ∀ {a b p q : ℤ}, q ≠ 0 → b = a + g.toInt * q → p - a = k * q → BetweenZ a b p → 0 ≤ k ∧ k ≤ g.toInt := by
      intro a b p q hq hb hp ⟨m1, m2⟩
      have gq : min 0 (g.toInt * q) ≤ k * q ∧ k * q ≤ max 0 (g.toInt * q) := by omega
      rcases lt_or_gt_of_ne hq with hq | hq
      · have : g.toInt * q < 0 := mul_neg_of_pos_of_neg s2 hq
        rw [min_eq_right this.le, max_eq_left this.le] at gq
        exact ⟨by by_contra hc; have := mul_pos_of_neg_of_neg (not_le.1 hc) hq; omega, by by_contra hc; have := mul_lt_mul_of_neg_right (not_le.1 hc) hq; omega⟩
      · have : 0 < g.toInt * q := mul_pos s2 hq
        rw [min_eq_left this.le, max_eq_right this.le] at gq
        exact ⟨by by_contra hc; have := mul_neg_of_neg_of_pos (not_le.1 hc) hq; omega, (mul_le_mul_iff_of_pos_right hq).1 gq.2⟩
    have qne : q.x.toInt ≠ 0 ∨ q.y.toInt ≠ 0 := by
      by_contra hc
      push Not at hc
      rw [hc.1, hc.2] at s6
      exact absurd s6 (by decide)
    have hk : 0 ≤ k ∧ k ≤ g.toInt := by
      rcases qne with hq | hq
      · exact range hq bx kx c1
      · exact range hq by' ky c2
    have gr := g.toInt_range
    obtain ⟨K, hK⟩ := I32.exists_of_fits (z := k) (by constructor <;> omega)
    obtain ⟨p', p1, p2, p3⟩ := step_ok bx by' h1 h2 (k := K) (by omega) (by omega)
    have pe : p' = p := by
      have h1 : p'.x = p.x := I32.toInt_inj.1 (by rw [p2, hK]; omega)
      have h2 : p'.y = p.y := I32.toInt_inj.1 (by rw [p3, hK]; omega)
      exact V2.ext h1 h2
    refine ⟨K, ⟨⟨by omega, by omega⟩, pe ▸ p1⟩, fun J hJ => ?_⟩
    obtain ⟨p'', r1, r2, r3⟩ := step_ok bx by' h1 h2 hJ.1.1 hJ.1.2
    have e : p'' = p := by
      have := r1.symm.trans hJ.2
      injection this
    rw [e] at r2 r3
    apply I32.toInt_inj.1
    rw [hK]
    rcases qne with hq | hq
    · exact mul_right_cancel₀ hq (by omega)
    · exact mul_right_cancel₀ hq (by omega)

/-- The two exclusions are needed: the loop is undefined for (-2^31, -1), and there is no step without a direction. -/
theorem C166_ivec2_undefined : (∀ n, gcdLoop (n + 1) ⟨I32.lit (-2 ^ 31), I32.lit (-1)⟩ = .ub) ∧ ∀ n, shortestStep (n + 1) ⟨I32.lit 0, I32.lit 0⟩ = .ub :=
  ⟨fun _ => rfl, fun _ => rfl⟩

/-- From (3,-2) to (-9,16): twelve to the left and eighteen up, so six steps of (-2,3). -/
example : shortestStep 62 ⟨I32.lit (-12), I32.lit 18⟩ = .ok (some (I32.lit 6, ⟨I32.lit (-2), I32.lit 3⟩)) ∧
    stepFrom ⟨I32.lit 3, I32.lit (-2)⟩ ⟨I32.lit (-2), I32.lit 3⟩ (I32.lit 6) = .ok ⟨I32.lit (-9), I32.lit 16⟩ := by
  constructor <;> decide

end Zcm
