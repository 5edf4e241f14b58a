import Verif.Lemmas.Line

/-!
# C163  Drawing a line of pixels with integers only

The caller's code is in `Spec/Line`.
-/

namespace Zcm

private theorem abs_sub_ok {a b : I32} (ha : |a.toInt| ≤ 2 ^ 28) (hb : |b.toInt| ≤ 2 ^ 28) :
    ∃ x y, I32.sub b a = .ok x ∧ I.abs x = .ok y ∧ y.toInt = |b.toInt - a.toInt| := by
  rw [abs_le] at ha hb
  obtain ⟨x, h1, h2⟩ := I32.sub_ok (a := b) (b := a) (by constructor <;> omega)
  have := isInt_abs x
  unfold intAbs Zcm.fits at this
  rw [if_pos (by rw [h2]; constructor <;> rcases abs_cases (b.toInt - a.toInt) with h | h <;> omega)] at this
  obtain ⟨y, k1, k2⟩ := this
  exact ⟨x, y, h1, k1, by rw [k2, h2]⟩

private theorem sign_side {a b : I32} : ∃ s : ℤ, (s = 1 ∨ s = -1) ∧ (if b < a then I32.lit (-1) else I32.lit 1 : I32).toInt = s ∧
    b.toInt = a.toInt + s * |b.toInt - a.toInt| := by
  by_cases h : b < a
  · have h' : b.toInt < a.toInt := h
    refine ⟨-1, .inr rfl, by rw [if_pos h]; decide, ?_⟩
    rw [abs_of_neg (by omega)]; ring
  · have h' : ¬ b.toInt < a.toInt := h
    refine ⟨1, .inl rfl, by rw [if_neg h]; decide, ?_⟩
    rw [abs_of_nonneg (by omega)]; ring

/-- C163: for all end points with coordinates from -2^28 to 2^28 the loop ends, nothing overflows, and the list of pixels it plots begins with
`a`, ends with `b`, has one pixel for each step along the longer side, goes from each pixel to a neighbour (also diagonally), stays in the
rectangle of `a` and `b`, and no pixel is further from the exact line than half a pixel, measured along the shorter side. -/
theorem C163_ivec2 (a b : V2 I32) (ha : LinePixel a) (hb : LinePixel b) :
    ∃ l, (∀ n, lineSteps a b + 1 ≤ n → drawLine n a b = .ok l) ∧ l.length = lineSteps a b + 1 ∧ l.head? = some a ∧ l.getLast? = some b ∧
      l.IsChain (fun p q => |q.x.toInt - p.x.toInt| ≤ 1 ∧ |q.y.toInt - p.y.toInt| ≤ 1) ∧
      ∀ k p, l[k]? = some p → lineSteps a p = k ∧ BetweenZ a.x.toInt b.x.toInt p.x.toInt ∧ BetweenZ a.y.toInt b.y.toInt p.y.toInt ∧
        2 * |areaZ a b p| ≤ lineSteps a b := by
  obtain ⟨x0, D, h1, h2, h3⟩ := abs_sub_ok ha.1 hb.1
  obtain ⟨y0, E, k1, k2, k3⟩ := abs_sub_ok ha.2 hb.2
  obtain ⟨sx, s1, s2, s3⟩ := sign_side (a := a.x) (b := b.x)
  obtain ⟨sy, t1, t2, t3⟩ := sign_side (a := a.y) (b := b.y)
  have D0 : 0 ≤ D.toInt := by rw [h3]; exact abs_nonneg _
  have E0 : 0 ≤ E.toInt := by rw [k3]; exact abs_nonneg _
  have D1 : D.toInt ≤ 2 ^ 29 := by
    have := abs_le.1 ha.1; have := abs_le.1 hb.1
    rw [h3, abs_le]; constructor <;> omega
  have E1 : E.toInt ≤ 2 ^ 29 := by
    have := abs_le.1 ha.2; have := abs_le.1 hb.2
    rw [k3, abs_le]; constructor <;> omega
  rw [← h3] at s3
  rw [← k3] at t3
  have g : LineData a b ⟨if b.x < a.x then I32.lit (-1) else I32.lit 1, if b.y < a.y then I32.lit (-1) else I32.lit 1⟩ ⟨D, E⟩ D.toInt E.toInt sx sy :=
    { D0, E0, D1, E1, dx := rfl, dy := rfl, stx := s2, sty := t2, sgx := s1, sgy := t1, bx := s3, by' := t3, ax := ha.1, ay := ha.2,
      bx' := hb.1, by'' := hb.2 }
  have M : ((lineSteps a b : ℕ) : ℤ) = max D.toInt E.toInt := by
    unfold lineSteps
    rw [h3, k3]
    push_cast
    rfl
  obtain ⟨err, e1, e2⟩ := I32.sub_ok (a := D) (b := E) (by constructor <;> omega)
  have start : LineAt a D.toInt E.toInt sx sy 0 a err :=
    ⟨0, 0, 0, le_refl _, D0, le_refl _, E0, by ring, by ring, by ring, by rw [e2]; ring, by omega, by omega, by simp, by simp⟩
  obtain ⟨l, l1, l2, l3, l4, l5, l6⟩ := lineLoop_ok g (lineSteps a b) 0 a err start (by rw [zero_add, M])
  refine ⟨l, fun n hn => ?_, l2, l3, l4, l5, fun k p hk => ?_⟩
  · unfold drawLine
    have S : IV2.sub b a = .ok ⟨x0, y0⟩ := by
      unfold IV2.sub V2.macroVV
      exact ok_step h1 (ok_step k1 rfl)
    have A : IV2.abs ⟨x0, y0⟩ = .ok ⟨D, E⟩ := by
      unfold IV2.abs
      exact ok_step h2 (ok_step k2 rfl)
    exact ok_step S (ok_step A (ok_step e1 (l1 n hn)))
  · obtain ⟨err', i, j, F, i0, i1, j0, j1, hx, hy, hF, -, f0, f1, c1, c2⟩ := l6 k p hk
    rw [zero_add] at c1 c2
    refine ⟨?_, ?_, ?_, ?_⟩
    · have : ((lineSteps a p : ℕ) : ℤ) = k := by
        unfold lineSteps
        push_cast
        rw [hx, hy, add_sub_cancel_left, add_sub_cancel_left]
        have ai : |sx * i| = i := by rcases s1 with h | h <;> rw [h] <;> simp [abs_of_nonneg i0]
        have aj : |sy * j| = j := by rcases t1 with h | h <;> rw [h] <;> simp [abs_of_nonneg j0]
        rw [ai, aj]
        rcases le_or_gt E.toInt D.toInt with hc | hc
        · obtain ⟨h, h'⟩ := c1 hc; omega
        · obtain ⟨h, h'⟩ := c2 hc; omega
      exact_mod_cast this
    · unfold BetweenZ
      rw [hx, s3]
      rcases s1 with h | h <;> rw [h] <;> omega
    · unfold BetweenZ
      rw [hy, t3]
      rcases t1 with h | h <;> rw [h] <;> omega
    · have ar : areaZ a b p = sx * sy * F := by
        unfold areaZ
        rw [hx, hy, s3, t3, hF]
        ring
      rw [ar, M]
      have : |sx * sy * F| = |F| := by rcases s1 with h | h <;> rcases t1 with h' | h' <;> rw [h, h'] <;> simp
      rw [this]
      rcases abs_cases F with h | h <;> omega

/-- With coordinates up to 2^29 the loop can overflow: on the level line from (-2^29, 0) to (2^29, 0) in its first turn. -/
theorem C163_ivec2_overflow : ∃ a b : V2 I32, (∀ q ∈ [a, b], |q.x.toInt| ≤ 2 ^ 29 ∧ |q.y.toInt| ≤ 2 ^ 29) ∧ ∀ n, drawLine (n + 1) a b = .ub :=
  ⟨⟨I32.lit (-2 ^ 29), I32.lit 0⟩, ⟨I32.lit (2 ^ 29), I32.lit 0⟩, by decide, fun _ => rfl⟩

/-- The line from (1,2) to (-4,4) and its six pixels. -/
example : LinePixel ⟨I32.lit 1, I32.lit 2⟩ ∧ LinePixel ⟨I32.lit (-4), I32.lit 4⟩ ∧
    drawLine 6 ⟨I32.lit 1, I32.lit 2⟩ ⟨I32.lit (-4), I32.lit 4⟩ =
      .ok [⟨I32.lit 1, I32.lit 2⟩, ⟨I32.lit 0, I32.lit 2⟩, ⟨I32.lit (-1), I32.lit 3⟩, ⟨I32.lit (-2), I32.lit 3⟩, ⟨I32.lit (-3), I32.lit 4⟩,
        ⟨I32.lit (-4), I32.lit 4⟩] :=
  ⟨by unfold LinePixel; decide, by unfold LinePixel; decide, by decide⟩

end Zcm
