import Verif.Spec.Line
import Verif.Lemmas.Raster

/-!
# Drawing a line of pixels
-/

namespace Zcm

open I32

theorem I32.add_ok {a b : I32} (h : FitsInt32 (a.toInt + b.toInt)) : ∃ x, I32.add a b = .ok x ∧ x.toInt = a.toInt + b.toInt := by
  have := isInt_add a b
  unfold intAdd Zcm.fits at this
  rw [if_pos h] at this
  exact this

/-- what does not change during the loop, on integers -/
structure LineData (a b step d : V2 I32) (D E sx sy : ℤ) : Prop where
  D0 : 0 ≤ D
  E0 : 0 ≤ E
  D1 : D ≤ 2 ^ 29
  E1 : E ≤ 2 ^ 29
  dx : d.x.toInt = D
  dy : d.y.toInt = E
  stx : step.x.toInt = sx
  sty : step.y.toInt = sy
  sgx : sx = 1 ∨ sx = -1
  sgy : sy = 1 ∨ sy = -1
  bx : b.x.toInt = a.x.toInt + sx * D
  by' : b.y.toInt = a.y.toInt + sy * E
  ax : |a.x.toInt| ≤ 2 ^ 28
  ay : |a.y.toInt| ≤ 2 ^ 28
  bx' : |b.x.toInt| ≤ 2 ^ 28
  by'' : |b.y.toInt| ≤ 2 ^ 28

/-- where the loop is after `n` turns -/
def LineAt (a : V2 I32) (D E sx sy : ℤ) (n : ℕ) (p : V2 I32) (err : I32) : Prop :=
  ∃ i j F : ℤ, 0 ≤ i ∧ i ≤ D ∧ 0 ≤ j ∧ j ≤ E ∧ p.x.toInt = a.x.toInt + sx * i ∧ p.y.toInt = a.y.toInt + sy * j ∧
    F = D * j - E * i ∧ err.toInt = F + D - E ∧ -max D E ≤ 2 * F ∧ 2 * F ≤ max D E ∧ (E ≤ D → i = n ∧ j ≤ n) ∧ (D < E → j = n ∧ i ≤ n)

variable {a b step d : V2 I32} {D E sx sy : ℤ}

theorem short_le {D E i j F : ℤ} (hD : 0 < D) (hE : 0 ≤ E) (hi : i ≤ D) (hF : F = D * j - E * i) (h : 2 * F ≤ D) : j ≤ E := by
  by_contra hc
  have h1 : D * (E + 1) ≤ D * j := mul_le_mul_of_nonneg_left (by omega) hD.le
  have h2 : E * i ≤ E * D := mul_le_mul_of_nonneg_left hi hE
  nlinarith

theorem sum_le {z D i s : ℤ} (h0 : 0 ≤ i) (h1 : i ≤ D) (hs : s = 1 ∨ s = -1) (ha : |z| ≤ 2 ^ 28) (hb : |z + s * D| ≤ 2 ^ 28) :
    |z + s * i| ≤ 2 ^ 28 := by
  rw [abs_le] at *
  rcases hs with rfl | rfl <;> constructor <;> omega

theorem turn_bounds {D E F : ℤ} (D0 : 0 ≤ D) (E0 : 0 ≤ E) (f0 : -max D E ≤ 2 * F) (f1 : 2 * F ≤ max D E) :
    -max D E ≤ 2 * (F + (if D < 2 * (F + D - E) then 0 else D) - if 2 * (F + D - E) + E < 0 then 0 else E) ∧
      2 * (F + (if D < 2 * (F + D - E) then 0 else D) - if 2 * (F + D - E) + E < 0 then 0 else E) ≤ max D E := by
  split_ifs <;> omega

theorem line_inv {a p : V2 I32} {err : I32} {D E sx sy i j F : ℤ} {n : ℕ} {mx my x' y' err' : I32} (D0 : 0 ≤ D) (E0 : 0 ≤ E) (i0 : 0 ≤ i) (j0 : 0 ≤ j)
    (i1 : i ≤ D) (j1 : j ≤ E) (hx : p.x.toInt = a.x.toInt + sx * i) (hy : p.y.toInt = a.y.toInt + sy * j) (hF : F = D * j - E * i)
    (he : err.toInt = F + D - E) (f0 : -max D E ≤ 2 * F) (f1 : 2 * F ≤ max D E) (c1 : E ≤ D → i = n ∧ j ≤ n) (c2 : D < E → j = n ∧ i ≤ n)
    (hn : (n : ℤ) < max D E) (hmx' : mx.toInt = if 2 * (F + D - E) + E < 0 then 0 else 1) (hmy' : my.toInt = if D < 2 * (F + D - E) then 0 else 1)
    (m1b : 0 ≤ mx.toInt ∧ mx.toInt ≤ 1) (m2b : 0 ≤ my.toInt ∧ my.toInt ≤ 1) (x2 : x'.toInt = p.x.toInt + sx * mx.toInt)
    (y2 : y'.toInt = p.y.toInt + sy * my.toInt)
    (r2 : err'.toInt = F + D - E + ((if D < 2 * (F + D - E) then 0 else D) - if 2 * (F + D - E) + E < 0 then 0 else E)) :
    LineAt a D E sx sy (n + 1) ⟨x', y'⟩ err' := by
  have hF' : F + D * my.toInt - E * mx.toInt = D * (j + my.toInt) - E * (i + mx.toInt) := by rw [hF]; ring
  have hr : err'.toInt = (F + D * my.toInt - E * mx.toInt) + D - E := by
    rw [r2, hmx', hmy']; split_ifs <;> ring
  have tX : x'.toInt = a.x.toInt + sx * (i + mx.toInt) := by rw [x2, hx]; ring
  have tY : y'.toInt = a.y.toInt + sy * (j + my.toInt) := by rw [y2, hy]; ring
  have vx : E * mx.toInt = if 2 * (F + D - E) + E < 0 then 0 else E := by rw [hmx']; split_ifs <;> ring
  have vy : D * my.toInt = if D < 2 * (F + D - E) then 0 else D := by rw [hmy']; split_ifs <;> ring
  have fb : -max D E ≤ 2 * (F + D * my.toInt - E * mx.toInt) ∧ 2 * (F + D * my.toInt - E * mx.toInt) ≤ max D E := by
    rw [vx, vy]; exact turn_bounds D0 E0 f0 f1
  rcases le_or_gt E D with hc | hc
  · obtain ⟨rfl, hj⟩ := c1 hc
    rw [max_eq_left hc] at hn fb
    have mx1 : mx.toInt = 1 := by rw [hmx', if_neg]; rw [max_eq_left hc] at f0; omega
    have jb := short_le (by omega) E0 (show (n : ℤ) + mx.toInt ≤ D by omega) hF' fb.2
    refine ⟨_, _, _, by omega, by omega, by omega, jb, tX, tY, hF', hr, by rw [max_eq_left hc]; exact fb.1,
      by rw [max_eq_left hc]; exact fb.2, fun _ => ⟨?_, ?_⟩, fun h => absurd hc (by omega)⟩
    · push_cast; omega
    · push_cast; omega
  · obtain ⟨rfl, hj⟩ := c2 hc
    rw [max_eq_right hc.le] at hn fb
    have my1 : my.toInt = 1 := by rw [hmy', if_neg]; rw [max_eq_right hc.le] at f1; omega
    have ib := short_le (D := E) (E := D) (F := -(F + D * my.toInt - E * mx.toInt)) (i := n + my.toInt) (j := i + mx.toInt) (by omega) D0
      (by omega) (by rw [hF']; ring) (by omega)
    refine ⟨_, _, _, by omega, ib, by omega, by omega, tX, tY, hF', hr, by rw [max_eq_right hc.le]; exact fb.1,
      by rw [max_eq_right hc.le]; exact fb.2, fun h => absurd hc (by omega), fun _ => ⟨?_, ?_⟩⟩
    · push_cast; omega
    · push_cast; omega

theorem lineTurn_ok (g : LineData a b step d D E sx sy) {n : ℕ} {p : V2 I32} {err : I32} (h : LineAt a D E sx sy n p err)
    (hn : (n : ℤ) < max D E) : ∃ r, lineTurn step d p err = .ok r ∧ LineAt a D E sx sy (n + 1) r.1 r.2 ∧
      (∃ m1 m2 : ℤ, 0 ≤ m1 ∧ m1 ≤ 1 ∧ 0 ≤ m2 ∧ m2 ≤ 1 ∧ r.1.x.toInt = p.x.toInt + sx * m1 ∧ r.1.y.toInt = p.y.toInt + sy * m2) := by
  obtain ⟨i, j, F, i0, i1, j0, j1, hx, hy, hF, he, f0, f1, c1, c2⟩ := h
  have D0 := g.D0; have E0 := g.E0; have D1 := g.D1; have E1 := g.E1
  obtain ⟨e, e1, e2⟩ := I32.add_ok (a := err) (b := err) (by rw [he]; constructor <;> omega)
  obtain ⟨t, t1, t2⟩ := I32.add_ok (a := e) (b := d.y) (by rw [e2, he, g.dy]; constructor <;> omega)
  have z : (I32.lit 0).toInt = 0 := by decide
  have o : (I32.lit 1).toInt = 1 := by decide
  obtain ⟨mx, hmx⟩ : ∃ m, m = if t < I32.lit 0 then I32.lit 0 else I32.lit 1 := ⟨_, rfl⟩
  obtain ⟨my, hmy⟩ : ∃ m, m = if d.x < e then I32.lit 0 else I32.lit 1 := ⟨_, rfl⟩
  have lt1 : ∀ x y : I32, (x < y) ↔ x.toInt < y.toInt := fun _ _ => Iff.rfl
  have hmx' : mx.toInt = if 2 * (F + D - E) + E < 0 then 0 else 1 := by
    rw [hmx, apply_ite I32.toInt, z, o]
    refine if_congr ?_ rfl rfl
    rw [lt1, t2, e2, he, g.dy, z]
    omega
  have hmy' : my.toInt = if D < 2 * (F + D - E) then 0 else 1 := by
    rw [hmy, apply_ite I32.toInt, z, o]
    refine if_congr ?_ rfl rfl
    rw [lt1, e2, he, g.dx]
    omega
  have gx : d.x.toInt * my.toInt = if D < 2 * (F + D - E) then 0 else D := by
    rw [g.dx, hmy']; split_ifs <;> ring
  have gy : d.y.toInt * mx.toInt = if 2 * (F + D - E) + E < 0 then 0 else E := by
    rw [g.dy, hmx']; split_ifs <;> ring
  obtain ⟨g1, g1', g1''⟩ := I32.mul_ok (a := d.x) (b := my) (by rw [gx]; constructor <;> split_ifs <;> omega)
  obtain ⟨g2, g2', g2''⟩ := I32.mul_ok (a := d.y) (b := mx) (by rw [gy]; constructor <;> split_ifs <;> omega)
  rw [gx] at g1''
  rw [gy] at g2''
  obtain ⟨c, k1, k2⟩ := I32.sub_ok (a := g1) (b := g2) (by rw [g1'', g2'']; constructor <;> split_ifs <;> omega)
  rw [g1'', g2''] at k2
  obtain ⟨err', r1, r2⟩ := I32.add_ok (a := err) (b := c) (by
    have := turn_bounds D0 E0 f0 f1
    rw [he, k2]; constructor <;> omega)
  rw [he, k2] at r2
  have m1b : 0 ≤ mx.toInt ∧ mx.toInt ≤ 1 := by rw [hmx']; split_ifs <;> omega
  have m2b : 0 ≤ my.toInt ∧ my.toInt ≤ 1 := by rw [hmy']; split_ifs <;> omega
  have sgx := g.sgx; have sgy := g.sgy
  obtain ⟨s1, s1', s1''⟩ := I32.mul_ok (a := step.x) (b := mx) (by rw [g.stx]; rcases sgx with h | h <;> rw [h] <;> constructor <;> omega)
  obtain ⟨s2, s2', s2''⟩ := I32.mul_ok (a := step.y) (b := my) (by rw [g.sty]; rcases sgy with h | h <;> rw [h] <;> constructor <;> omega)
  rw [g.stx] at s1''
  rw [g.sty] at s2''
  have px := sum_le i0 i1 sgx g.ax (by rw [← g.bx]; exact g.bx')
  have py := sum_le j0 j1 sgy g.ay (by rw [← g.by']; exact g.by'')
  rw [← hx, abs_le] at px
  rw [← hy, abs_le] at py
  obtain ⟨x', x1, x2⟩ := I32.add_ok (a := p.x) (b := s1) (by rw [s1'']; rcases sgx with h | h <;> rw [h] <;> constructor <;> omega)
  obtain ⟨y', y1, y2⟩ := I32.add_ok (a := p.y) (b := s2) (by rw [s2'']; rcases sgy with h | h <;> rw [h] <;> constructor <;> omega)
  rw [s1''] at x2
  rw [s2''] at y2
  refine ⟨(⟨x', y'⟩, err'), ?_, ?_, ⟨mx.toInt, my.toInt, m1b.1, m1b.2, m2b.1, m2b.2, x2, y2⟩⟩
  · unfold lineTurn
    refine ok_step e1 (ok_step t1 ?_)
    rw [← hmx, ← hmy]
    have G : IV2.mul d ⟨my, mx⟩ = .ok ⟨g1, g2⟩ := by
      unfold IV2.mul V2.macroVV
      exact ok_step g1' (ok_step g2' rfl)
    have S : IV2.mul step ⟨mx, my⟩ = .ok ⟨s1, s2⟩ := by
      unfold IV2.mul V2.macroVV
      exact ok_step s1' (ok_step s2' rfl)
    have P : IV2.add p ⟨s1, s2⟩ = .ok ⟨x', y'⟩ := by
      unfold IV2.add V2.macroVV
      exact ok_step x1 (ok_step y1 rfl)
    exact ok_step G (ok_step k1 (ok_step r1 (ok_step S (ok_step P rfl))))
  · exact line_inv g.D0 g.E0 i0 j0 i1 j1 hx hy hF he f0 f1 c1 c2 hn hmx' hmy' m1b m2b x2 y2 r2

theorem IV2.eq_iff' (p q : V2 I32) : IV2.eq p q = true ↔ p.x.toInt = q.x.toInt ∧ p.y.toInt = q.y.toInt := by
  unfold IV2.eq
  rw [Bool.and_eq_true, beq_iff_eq, beq_iff_eq, I32.toInt_inj, I32.toInt_inj]

/-- the loop is at the end exactly after as many turns as the longer side is long -/
theorem line_end (g : LineData a b step d D E sx sy) {n : ℕ} {p : V2 I32} {err : I32} (h : LineAt a D E sx sy n p err)
    : IV2.eq p b = true ↔ (n : ℤ) = max D E := by
  obtain ⟨i, j, F, i0, i1, j0, j1, hx, hy, hF, he, f0, f1, c1, c2⟩ := h
  have D0 := g.D0; have E0 := g.E0
  rw [IV2.eq_iff', hx, hy, g.bx, g.by']
  have tx : a.x.toInt + sx * i = a.x.toInt + sx * D ↔ i = D := by rcases g.sgx with h | h <;> rw [h] <;> omega
  have ty : a.y.toInt + sy * j = a.y.toInt + sy * E ↔ j = E := by rcases g.sgy with h | h <;> rw [h] <;> omega
  rw [tx, ty]
  rcases le_or_gt E D with hc | hc
  · obtain ⟨rfl, -⟩ := c1 hc
    rw [max_eq_left hc] at *
    refine ⟨fun h => h.1, fun h => ⟨h, ?_⟩⟩
    rw [h] at hF
    rcases D0.lt_or_eq with hD | hD
    · by_contra hne
      have : D * j + D ≤ D * E := by
        have := mul_le_mul_of_nonneg_left (show j + 1 ≤ E by omega) D0
        linarith
      nlinarith
    · omega
  · obtain ⟨rfl, -⟩ := c2 hc
    rw [max_eq_right hc.le] at *
    refine ⟨fun h => h.2, fun h => ⟨?_, h⟩⟩
    rw [h] at hF
    by_contra hne
    have : E * i + E ≤ E * D := by
      have := mul_le_mul_of_nonneg_left (show i + 1 ≤ D by omega) E0
      linarith
    nlinarith

/-- what the loop plots from its state after `n` turns on -/
theorem lineLoop_ok (g : LineData a b step d D E sx sy) : ∀ (m n : ℕ) (p : V2 I32) (err : I32), LineAt a D E sx sy n p err →
    ((n + m : ℕ) : ℤ) = max D E →
    ∃ l, (∀ fuel, m + 1 ≤ fuel → lineLoop b step d fuel p err = .ok l) ∧ l.length = m + 1 ∧ l.head? = some p ∧ l.getLast? = some b ∧
      l.IsChain (fun p q => |q.x.toInt - p.x.toInt| ≤ 1 ∧ |q.y.toInt - p.y.toInt| ≤ 1) ∧
      ∀ k q, l[k]? = some q → ∃ err, LineAt a D E sx sy (n + k) q err
  | 0, n, p, err, h, hn => by
    have e := (line_end g h).2 (by simpa using hn)
    have pb : p = b := by
      have := (IV2.eq_iff' p b).1 e
      have h1 := I32.toInt_inj.1 this.1
      have h2 := I32.toInt_inj.1 this.2
      cases p; cases b; simp_all
    refine ⟨[p], fun fuel hf => ?_, rfl, rfl, by rw [pb]; rfl, List.isChain_singleton _, fun k q hk => ?_⟩
    · obtain ⟨f, rfl⟩ : ∃ f, fuel = f + 1 := ⟨fuel - 1, by omega⟩
      rw [lineLoop, if_pos e]
      rfl
    · cases k with
      | zero => simp only [List.getElem?_cons_zero, Option.some.injEq] at hk; exact ⟨err, by rw [← hk]; exact h⟩
      | succ k => simp at hk
  | m + 1, n, p, err, h, hn => by
    have e : ¬ IV2.eq p b = true := by rw [line_end g h]; omega
    obtain ⟨r, t1, t2, m1, m2, b1, b2, b3, b4, q1, q2⟩ := lineTurn_ok g h (by omega)
    obtain ⟨l, l1, l2, l3, l4, l5, l6⟩ := lineLoop_ok g m (n + 1) r.1 r.2 t2 (by rw [← hn]; push_cast; ring)
    refine ⟨p :: l, fun fuel hf => ?_, by rw [List.length_cons, l2], rfl, ?_, ?_, fun k q hk => ?_⟩
    · obtain ⟨f, rfl⟩ : ∃ f, fuel = f + 1 := ⟨fuel - 1, by omega⟩
      rw [lineLoop, if_neg e]
      exact ok_step t1 (ok_step (l1 f (by omega)) rfl)
    · cases l with
      | nil => simp at l2
      | cons x l => rw [List.getLast?_cons_cons]; exact l4
    · cases l with
      | nil => simp at l2
      | cons x l =>
        simp only [List.head?_cons, Option.some.injEq] at l3
        subst l3
        refine List.isChain_cons_cons.2 ⟨⟨?_, ?_⟩, l5⟩
        · rw [q1, abs_le]; rcases g.sgx with h | h <;> rw [h] <;> constructor <;> omega
        · rw [q2, abs_le]; rcases g.sgy with h | h <;> rw [h] <;> constructor <;> omega
    · cases k with
      | zero => simp only [List.getElem?_cons_zero, Option.some.injEq] at hk; exact ⟨err, by rw [← hk]; exact h⟩
      | succ k =>
        rw [List.getElem?_cons_succ] at hk
        obtain ⟨err, h⟩ := l6 k q hk
        exact ⟨err, by rw [show n + (k + 1) = n + 1 + k by omega]; exact h⟩

end Zcm
