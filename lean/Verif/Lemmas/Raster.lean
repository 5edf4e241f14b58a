import Verif.Spec.Raster
import Verif.Lemmas.Int
import Verif.Lemmas.Morton
import Verif.Lemmas.Chunk
import Mathlib.Tactic.Linarith
import Mathlib.Tactic.Ring

/-!
# Drawing a polygon as a fan of triangles
-/

namespace Zcm

open I32

theorem I32.sub_ok {a b : I32} (h : FitsInt32 (a.toInt - b.toInt)) : ∃ x, I32.sub a b = .ok x ∧ x.toInt = a.toInt - b.toInt := by
  have := isInt_sub a b
  unfold intSub Zcm.fits at this
  rw [if_pos h] at this
  exact this

theorem I32.mul_ok {a b : I32} (h : FitsInt32 (a.toInt * b.toInt)) : ∃ x, I32.mul a b = .ok x ∧ x.toInt = a.toInt * b.toInt := by
  have := isInt_mul a b
  unfold intMul Zcm.fits at this
  rw [if_pos h] at this
  exact this

/-- which side of the edge a pixel belongs to, on integers -/
def ownsZ (a b p : V2 I32) : Prop :=
  0 < areaZ a b p ∨ areaZ a b p = 0 ∧ (b.y.toInt - a.y.toInt < 0 ∨ b.y.toInt - a.y.toInt = 0 ∧ 0 < b.x.toInt - a.x.toInt)

instance (a b p : V2 I32) : Decidable (ownsZ a b p) := by unfold ownsZ; infer_instance

theorem areaZ_bound {a b p : V2 I32} (ha : SmallPixel a) (hb : SmallPixel b) (hp : SmallPixel p) : |areaZ a b p| ≤ 2147395600 := by
  obtain ⟨a1, a2⟩ := ha
  obtain ⟨b1, b2⟩ := hb
  obtain ⟨p1, p2⟩ := hp
  have s : areaZ a b p = a.x.toInt * (b.y.toInt - p.y.toInt) + b.x.toInt * (p.y.toInt - a.y.toInt) + p.x.toInt * (a.y.toInt - b.y.toInt) := by
    unfold areaZ; ring
  have m : ∀ {x : ℤ} (k : ℤ), |x| ≤ 23170 → |x * k| ≤ 23170 * |k| := fun k hx => by
    rw [abs_mul]; exact mul_le_mul_of_nonneg_right hx (abs_nonneg k)
  have m1 := m (b.y.toInt - p.y.toInt) a1
  have m2 := m (p.y.toInt - a.y.toInt) b1
  have m3 := m (a.y.toInt - b.y.toInt) p1
  have t : |b.y.toInt - p.y.toInt| + |p.y.toInt - a.y.toInt| + |a.y.toInt - b.y.toInt| ≤ 92680 := by
    rw [abs_le] at a2 b2 p2
    rcases abs_cases (b.y.toInt - p.y.toInt) with h | h <;> rcases abs_cases (p.y.toInt - a.y.toInt) with h' | h' <;>
      rcases abs_cases (a.y.toInt - b.y.toInt) with h'' | h'' <;> omega
  have u1 := abs_add_le (a.x.toInt * (b.y.toInt - p.y.toInt) + b.x.toInt * (p.y.toInt - a.y.toInt)) (p.x.toInt * (a.y.toInt - b.y.toInt))
  have u2 := abs_add_le (a.x.toInt * (b.y.toInt - p.y.toInt)) (b.x.toInt * (p.y.toInt - a.y.toInt))
  rw [s]
  linarith

theorem ownsEdge_ok {a b p : V2 I32} (ha : SmallPixel a) (hb : SmallPixel b) (hp : SmallPixel p) :
    ∃ e, edgeFunction a b p = .ok e ∧ e.toInt = areaZ a b p ∧ ownsEdge a b p = .ok (decide (ownsZ a b p)) := by
  obtain ⟨a1, a2⟩ := ha
  obtain ⟨b1, b2⟩ := hb
  obtain ⟨p1, p2⟩ := hp
  have bound := areaZ_bound ⟨a1, a2⟩ ⟨b1, b2⟩ ⟨p1, p2⟩
  rw [abs_le] at a1 a2 b1 b2 p1 p2 bound
  have sub : ∀ x y : I32, -23170 ≤ x.toInt ∧ x.toInt ≤ 23170 → -23170 ≤ y.toInt ∧ y.toInt ≤ 23170 →
      ∃ z, I32.sub x y = .ok z ∧ z.toInt = x.toInt - y.toInt ∧ |z.toInt| ≤ 46340 := by
    intro x y hx hy
    obtain ⟨z, h1, h2⟩ := I32.sub_ok (a := x) (b := y) (by constructor <;> omega)
    exact ⟨z, h1, h2, by rw [h2, abs_le]; constructor <;> omega⟩
  obtain ⟨dx, d1, d1', d1''⟩ := sub b.x a.x b1 a1
  obtain ⟨dy, d2, d2', d2''⟩ := sub b.y a.y b2 a2
  obtain ⟨qx, q1, q1', q1''⟩ := sub p.x a.x p1 a1
  obtain ⟨qy, q2, q2', q2''⟩ := sub p.y a.y p2 a2
  have mul : ∀ x y : I32, |x.toInt| ≤ 46340 → |y.toInt| ≤ 46340 → ∃ z, I32.mul x y = .ok z ∧ z.toInt = x.toInt * y.toInt ∧ |z.toInt| ≤ 2147395600 := by
    intro x y hx hy
    have m : |x.toInt * y.toInt| ≤ 2147395600 := by
      rw [abs_mul]
      calc |x.toInt| * |y.toInt| ≤ 46340 * 46340 := mul_le_mul hx hy (abs_nonneg _) (by norm_num)
        _ = _ := by norm_num
    have m' := abs_le.1 m
    obtain ⟨z, h1, h2⟩ := I32.mul_ok (a := x) (b := y) (by constructor <;> omega)
    exact ⟨z, h1, h2, by rw [h2]; exact m⟩
  obtain ⟨m1, e1, e1', e1''⟩ := mul dx qy d1'' q2''
  obtain ⟨m2, e2, e2', e2''⟩ := mul dy qx d2'' q1''
  rw [abs_le] at e1'' e2''
  have area : m1.toInt - m2.toInt = areaZ a b p := by
    unfold areaZ
    rw [e1', e2', d1', d2', q1', q2']
  obtain ⟨e, e3, e3'⟩ := I32.sub_ok (a := m1) (b := m2) (by rw [area]; constructor <;> omega)
  rw [← e3'] at area
  have sd : IV2.sub b a = .ok ⟨dx, dy⟩ := by
    unfold IV2.sub V2.macroVV; rw [d1, d2]; rfl
  have sq : IV2.sub p a = .ok ⟨qx, qy⟩ := by
    unfold IV2.sub V2.macroVV; rw [q1, q2]; rfl
  have sm : IV2.mul ⟨dx, dy⟩ ⟨qy, qx⟩ = .ok ⟨m1, m2⟩ := by
    unfold IV2.mul V2.macroVV
    show (do let a ← I32.mul dx qy; let b ← I32.mul dy qx; pure (⟨a, b⟩ : V2 I32)) = _
    rw [e1, e2]; rfl
  have ef : edgeFunction a b p = .ok e := by
    unfold edgeFunction
    refine ok_step sd (ok_step sq (ok_step sm e3))
  refine ⟨e, ef, area, ?_⟩
  unfold ownsEdge
  refine ok_step sd (ok_step ef ?_)
  have z : (I32.lit 0).toInt = 0 := by decide
  have lt1 : ∀ x y : I32, (x < y) ↔ x.toInt < y.toInt := fun _ _ => Iff.rfl
  have beq : ∀ x : I32, (x == I32.lit 0) = decide (x.toInt = 0) := by
    intro x
    rw [Bool.eq_iff_iff, beq_iff_eq, decide_eq_true_iff, ← I32.toInt_inj, z]
  show Res.ok _ = Res.ok _
  congr 1
  rw [Bool.eq_iff_iff]
  simp only [beq, lt1, z, Bool.or_eq_true, Bool.and_eq_true, decide_eq_true_iff]
  unfold ownsZ
  rw [area, d1', d2']

theorem areaZ_swap (a b p : V2 I32) : areaZ b a p = -areaZ a b p := by unfold areaZ; ring

theorem ownsZ_swap {a b p : V2 I32} (h : a ≠ b) : ownsZ b a p ↔ ¬ ownsZ a b p := by
  have ne : b.x.toInt - a.x.toInt ≠ 0 ∨ b.y.toInt - a.y.toInt ≠ 0 := by
    by_contra hc
    push Not at hc
    apply h
    have h1 : a.x = b.x := I32.toInt_inj.1 (by omega)
    have h2 : a.y = b.y := I32.toInt_inj.1 (by omega)
    cases a; cases b; simp_all
  unfold ownsZ
  rw [areaZ_swap]
  omega

theorem ownsZ_excl {a b p : V2 I32} (h : ownsZ b a p) : ¬ ownsZ a b p := by
  unfold ownsZ at *
  rw [areaZ_swap] at h
  omega

/-- a corner between two corners that have the pixel on their left has it on its left -/
theorem ownsZ_between {v x a b p : V2 I32} (h1 : 0 < areaZ v x a) (h2 : 0 < areaZ v a b) (h3 : 0 < areaZ v x b)
    (hx : ownsZ v x p) (hb : ownsZ v b p) : ownsZ v a p := by
  unfold ownsZ at *
  have i1 : areaZ v x b * areaZ v a p = areaZ v a b * areaZ v x p + areaZ v x a * areaZ v b p := by unfold areaZ; ring
  have i2 : areaZ v x b * (a.y.toInt - v.y.toInt) = areaZ v a b * (x.y.toInt - v.y.toInt) + areaZ v x a * (b.y.toInt - v.y.toInt) := by
    unfold areaZ; ring
  have i3 : areaZ v x b * (a.x.toInt - v.x.toInt) = areaZ v a b * (x.x.toInt - v.x.toInt) + areaZ v x a * (b.x.toInt - v.x.toInt) := by
    unfold areaZ; ring
  generalize areaZ v x b = m at *
  generalize areaZ v a b = α at *
  generalize areaZ v x a = β at *
  generalize areaZ v x p = e1 at *
  generalize areaZ v b p = e2 at *
  generalize areaZ v a p = e at *
  generalize x.y.toInt - v.y.toInt = y1 at *
  generalize b.y.toInt - v.y.toInt = y2 at *
  generalize a.y.toInt - v.y.toInt = y at *
  generalize x.x.toInt - v.x.toInt = x1 at *
  generalize b.x.toInt - v.x.toInt = x2 at *
  generalize a.x.toInt - v.x.toInt = x at *
  have n1 : 0 ≤ e1 := by omega
  have n2 : 0 ≤ e2 := by omega
  have p1 : 0 ≤ α * e1 := mul_nonneg h2.le n1
  have p2 : 0 ≤ β * e2 := mul_nonneg h1.le n2
  by_cases he : 0 < e1 ∨ 0 < e2
  · left
    have : 0 < m * e := by
      rw [i1]
      rcases he with he | he
      · have := mul_pos h2 he; omega
      · have := mul_pos h1 he; omega
    exact (mul_pos_iff_of_pos_left h3).1 this
  · push Not at he
    obtain rfl : e1 = 0 := by omega
    obtain rfl : e2 = 0 := by omega
    have e0 : e = 0 := by
      rw [mul_zero, mul_zero, add_zero] at i1
      exact (mul_eq_zero.1 i1).resolve_left h3.ne'
    right
    refine ⟨e0, ?_⟩
    have y1n : y1 ≤ 0 := by omega
    have y2n : y2 ≤ 0 := by omega
    have q1 : α * y1 ≤ 0 := mul_nonpos_of_nonneg_of_nonpos h2.le y1n
    have q2 : β * y2 ≤ 0 := mul_nonpos_of_nonneg_of_nonpos h1.le y2n
    by_cases hy : y1 < 0 ∨ y2 < 0
    · left
      have : m * y < 0 := by
        rw [i2]
        rcases hy with hy | hy
        · have := mul_neg_of_pos_of_neg h2 hy; omega
        · have := mul_neg_of_pos_of_neg h1 hy; omega
      exact (pos_iff_neg_of_mul_neg this).1 h3
    · push Not at hy
      obtain rfl : y1 = 0 := by omega
      obtain rfl : y2 = 0 := by omega
      right
      have y0 : y = 0 := by
        rw [mul_zero, mul_zero, add_zero] at i2
        exact (mul_eq_zero.1 i2).resolve_left h3.ne'
      refine ⟨y0, ?_⟩
      have r1 : 0 < x1 := by omega
      have r2 : 0 < x2 := by omega
      have : 0 < m * x := by
        rw [i3]
        have := mul_pos h2 r1
        have := mul_pos h1 r2
        omega
      exact (mul_pos_iff_of_pos_left h3).1 this

/-- the fan, on integers -/
def fanZ (v : V2 I32) : List (V2 I32) → V2 I32 → ℕ
  | a :: b :: l, p => fanZ v (b :: l) p + if ownsZ v a p ∧ ownsZ a b p ∧ ownsZ b v p then 1 else 0
  | _, _ => 0

theorem fanDraws_ok {v p : V2 I32} (hv : SmallPixel v) (hp : SmallPixel p) :
    ∀ l : List (V2 I32), (∀ a ∈ l, SmallPixel a) → fanDraws v l p = .ok (fanZ v l p)
  | [], _ => rfl
  | [_], _ => rfl
  | a :: b :: l, h => by
    have ha := h a (by simp)
    have hb := h b (by simp)
    obtain ⟨-, -, -, o1⟩ := ownsEdge_ok hv ha hp
    obtain ⟨-, -, -, o2⟩ := ownsEdge_ok ha hb hp
    obtain ⟨-, -, -, o3⟩ := ownsEdge_ok hb hv hp
    have t : drawsTriangle v a b p = .ok (decide (ownsZ v a p) && decide (ownsZ a b p) && decide (ownsZ b v p)) := by
      unfold drawsTriangle
      exact ok_step o1 (ok_step o2 (ok_step o3 rfl))
    have ih := fanDraws_ok hv hp (b :: l) fun x hx => h x (List.mem_cons_of_mem _ hx)
    rw [fanDraws]
    refine ok_step t (ok_step ih ?_)
    show Res.ok _ = _
    congr 1
    rw [fanZ]
    congr 1
    simp only [Bool.and_eq_true, decide_eq_true_iff, and_assoc]

/-- the path, on integers -/
def pathZ : List (V2 I32) → V2 I32 → Prop
  | a :: b :: l, p => ownsZ a b p ∧ pathZ (b :: l) p
  | _, _ => True

instance decPathZ : (l : List (V2 I32)) → (p : V2 I32) → Decidable (pathZ l p)
  | [], _ => isTrue trivial
  | [_], _ => isTrue trivial
  | a :: b :: l, p => by unfold pathZ; exact @instDecidableAnd _ _ _ (decPathZ (b :: l) p)

theorem ownsPath_ok {p : V2 I32} (hp : SmallPixel p) :
    ∀ l : List (V2 I32), (∀ a ∈ l, SmallPixel a) → ownsPath l p = .ok (decide (pathZ l p))
  | [], _ => by rw [ownsPath]; rfl; simp
  | [_], _ => by rw [ownsPath]; rfl; simp
  | a :: b :: l, h => by
    obtain ⟨-, -, -, o1⟩ := ownsEdge_ok (h a (by simp)) (h b (by simp)) hp
    have ih := ownsPath_ok hp (b :: l) fun x hx => h x (List.mem_cons_of_mem _ hx)
    rw [ownsPath]
    refine ok_step o1 (ok_step ih ?_)
    show Res.ok _ = _
    congr 1
    rw [Bool.eq_iff_iff, Bool.and_eq_true, decide_eq_true_iff, decide_eq_true_iff, decide_eq_true_iff]
    exact Iff.rfl

variable {v p : V2 I32}

/-- once the pixel is on the right of a corner after one that had it on its left, no triangle after that draws it -/
theorem fanZ_zero {x : V2 I32} (hx : ownsZ v x p) : ∀ (a : V2 I32) (l : List (V2 I32)), ¬ ownsZ v a p →
    (x :: a :: l).Pairwise (fun a b => 0 < areaZ v a b) → fanZ v (a :: l) p = 0
  | a, [], _, _ => rfl
  | a, b :: l, ha, hl => by
    rw [List.pairwise_cons, List.pairwise_cons] at hl
    obtain ⟨h1, h2, h3⟩ := hl
    have hb : ¬ ownsZ v b p := fun hb =>
      ha (ownsZ_between (h1 a (by simp)) (h2 b (by simp)) (h1 b (by simp)) hx hb)
    rw [fanZ, if_neg fun h => ha h.1, fanZ_zero hx b l hb (List.pairwise_cons.2 ⟨fun y hy => h1 y (List.mem_cons_of_mem _ hy), h3⟩)]

theorem fanZ_le : ∀ l : List (V2 I32), l.Pairwise (fun a b => 0 < areaZ v a b) → fanZ v l p ≤ 1
  | [], _ => Nat.zero_le _
  | [_], _ => Nat.zero_le _
  | a :: b :: l, h => by
    rw [fanZ]
    split_ifs with t
    · rw [fanZ_zero t.1 b l (ownsZ_excl t.2.2) h]
    · exact fanZ_le (b :: l) (List.pairwise_cons.1 h).2

theorem ne_of_area {v a b : V2 I32} (h : 0 < areaZ v a b) : v ≠ b := by
  rintro rfl
  have : areaZ v a v = 0 := by unfold areaZ; ring
  omega

theorem fanZ_one : ∀ (a : V2 I32) (l : List (V2 I32)), ownsZ v a p → pathZ (a :: (l ++ [v])) p →
    (a :: l).Pairwise (fun a b => 0 < areaZ v a b) → fanZ v (a :: l) p = 1
  | a, [], ha, hp, _ => absurd ha (ownsZ_excl hp.1)
  | a, b :: l, ha, hp, hl => by
    rw [fanZ]
    have hl' := List.pairwise_cons.1 hl
    have ne := ne_of_area (hl'.1 b (by simp))
    by_cases hb : ownsZ v b p
    · rw [if_neg fun h => ownsZ_excl h.2.2 hb]
      exact fanZ_one b l hb hp.2 hl'.2
    · rw [if_pos ⟨ha, hp.1, (ownsZ_swap ne).2 hb⟩, fanZ_zero ha b l hb hl]

/-- a pixel some triangle of the fan draws is drawn by a triangle of corners of the list -/
theorem fanZ_pos : ∀ l : List (V2 I32), l.Pairwise (fun a b => 0 < areaZ v a b) → 0 < fanZ v l p →
    ∃ a ∈ l, ∃ b ∈ l, 0 < areaZ v a b ∧ ownsZ v a p ∧ ownsZ a b p ∧ ownsZ b v p
  | [], _, h => absurd h (lt_irrefl _)
  | [_], _, h => absurd h (lt_irrefl _)
  | a :: b :: l, hl, h => by
    have hl' := List.pairwise_cons.1 hl
    rw [fanZ] at h
    split_ifs at h with t
    · exact ⟨a, by simp, b, by simp, hl'.1 b (by simp), t⟩
    · obtain ⟨x, hx, y, hy, r⟩ := fanZ_pos (b :: l) hl'.2 h
      exact ⟨x, List.mem_cons_of_mem _ hx, y, List.mem_cons_of_mem _ hy, r⟩

theorem lex_sum {a b c e1 e2 e3 y1 y2 y3 x1 x2 x3 m e y x : ℤ} (hm : 0 < m) (ha : 0 ≤ a) (hb : 0 ≤ b) (hc : 0 ≤ c)
    (he : m * e = a * e1 + b * e2 + c * e3) (hy : m * y = a * y1 + b * y2 + c * y3) (hx : m * x = a * x1 + b * x2 + c * x3)
    (h1 : 0 < e1 ∨ e1 = 0 ∧ (y1 < 0 ∨ y1 = 0 ∧ 0 < x1)) (h2 : 0 < e2 ∨ e2 = 0 ∧ (y2 < 0 ∨ y2 = 0 ∧ 0 < x2))
    (h3 : 0 < e3 ∨ e3 = 0 ∧ (y3 < 0 ∨ y3 = 0 ∧ 0 < x3)) (ne : y ≠ 0 ∨ x ≠ 0) :
    0 < e ∨ e = 0 ∧ (y < 0 ∨ y = 0 ∧ 0 < x) := by
  have e1' := mul_nonneg ha (show 0 ≤ e1 by omega)
  have e2' := mul_nonneg hb (show 0 ≤ e2 by omega)
  have e3' := mul_nonneg hc (show 0 ≤ e3 by omega)
  have en : 0 ≤ e := (mul_nonneg_iff_of_pos_left hm).1 (by omega)
  rcases en.lt_or_eq with h | rfl
  · exact .inl h
  right
  refine ⟨rfl, ?_⟩
  have z1 : a * e1 = 0 := by omega
  have z2 : b * e2 = 0 := by omega
  have z3 : c * e3 = 0 := by omega
  have step : ∀ {k e y x : ℤ}, 0 ≤ k → k * e = 0 → (0 < e ∨ e = 0 ∧ (y < 0 ∨ y = 0 ∧ 0 < x)) → k * y ≤ 0 ∧ (k * y = 0 → 0 ≤ k * x) := by
    intro k e y x hk hz h
    rcases mul_eq_zero.1 hz with rfl | rfl
    · simp
    · have yn : y ≤ 0 := by omega
      refine ⟨mul_nonpos_of_nonneg_of_nonpos hk yn, fun h0 => ?_⟩
      rcases mul_eq_zero.1 h0 with rfl | rfl
      · simp
      · exact mul_nonneg hk (by omega)
  have s1 := step ha z1 h1
  have s2 := step hb z2 h2
  have s3 := step hc z3 h3
  have yn : m * y ≤ 0 := by omega
  have yn : y ≤ 0 := by
    by_contra hc
    have := mul_pos hm (not_le.1 hc)
    omega
  rcases yn.lt_or_eq with h | rfl
  · exact .inl h
  right
  refine ⟨rfl, ?_⟩
  rw [mul_zero] at hy
  have t1 := s1.2 (by omega)
  have t2 := s2.2 (by omega)
  have t3 := s3.2 (by omega)
  have xn : 0 ≤ x := (mul_nonneg_iff_of_pos_left hm).1 (by omega)
  omega

/-- a pixel of a triangle lies on the inner side of every edge that has the triangle's corners on its inner side or on it -/
theorem ownsZ_convex {a b c d : V2 I32} (hm : 0 < areaZ v a b) (h1 : ownsZ v a p) (h2 : ownsZ a b p) (h3 : ownsZ b v p)
    (ne : c ≠ d) (k1 : 0 ≤ areaZ c d v) (k2 : 0 ≤ areaZ c d a) (k3 : 0 ≤ areaZ c d b) : ownsZ c d p := by
  unfold ownsZ at *
  refine lex_sum hm k1 k2 k3 (e1 := areaZ a b p) (e2 := areaZ b v p) (e3 := areaZ v a p) ?_ ?_ ?_ h2 h3 h1 ?_
  · unfold areaZ; ring
  · unfold areaZ; ring
  · unfold areaZ; ring
  · by_contra hc
    push Not at hc
    apply ne
    have h1 : c.x = d.x := I32.toInt_inj.1 (by omega)
    have h2 : c.y = d.y := I32.toInt_inj.1 (by omega)
    cases c; cases d; simp_all

theorem pathZ_of : ∀ l : List (V2 I32), (∀ e ∈ l.zip l.tail, ownsZ e.1 e.2 p) → pathZ l p
  | [], _ => trivial
  | [_], _ => trivial
  | a :: b :: l, h => ⟨h (a, b) (by simp), pathZ_of (b :: l) fun e he => h e (by
      simp only [List.tail_cons, List.zip_cons_cons] at he ⊢
      exact List.mem_cons_of_mem _ he)⟩

theorem pathZ_mem : ∀ l : List (V2 I32), pathZ l p → ∀ e ∈ l.zip l.tail, ownsZ e.1 e.2 p
  | [], _, e, he => by simp at he
  | [_], _, e, he => by simp at he
  | a :: b :: l, h, e, he => by
    simp only [List.tail_cons, List.zip_cons_cons, List.mem_cons] at he
    rcases he with rfl | he
    · exact h.1
    · exact pathZ_mem (b :: l) h.2 e he

end Zcm
