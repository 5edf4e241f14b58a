import Verif.Spec.Coord
import Verif.Spec.Grid
import Verif.Spec.IntValued
import Verif.Spec.Accuracy
import Verif.Lemmas.F32Adjacent
import Mathlib.Tactic.FinCases

/-!
# C153  Points sorted into the cells of a grid

The caller's code is in `Spec/Grid`: the cell of `p` is `floor(p / s)`.
-/

set_option exponentiation.threshold 300

namespace Zcm

open F32

private theorem coord_cell2 (s : F32) (p : V2 F32) (i : Fin 2) : coord (cell2 s p) i = F.floor (coord p i / s) := by
  fin_cases i <;> rfl

private theorem within2_iff (lo hi p : V2 F32) : within2 lo hi p = true ↔ ∀ i, coord lo i ≤ coord p i ∧ coord p i ≤ coord hi i := by
  have e : (∀ i : Fin 2, coord lo i ≤ coord p i ∧ coord p i ≤ coord hi i) ↔
      (lo.x ≤ p.x ∧ p.x ≤ hi.x) ∧ (lo.y ≤ p.y ∧ p.y ≤ hi.y) := by
    constructor
    · intro h; exact ⟨h 0, h 1⟩
    · rintro ⟨h0, h1⟩ i
      fin_cases i
      · exact h0
      · exact h1
  rw [e]
  simp only [within2, BV2.all, V2.lessThanEqual, Bool.and_eq_true, decide_eq_true_eq]
  tauto

/-- C153, `vec2`: cells are ordered like points. For finite points and any finite cell size `s > 0`, `p <= q` in a component gives
`cell(p) <= cell(q)` in it. No rounding error can reverse this, and it holds also if `p / s` overflows. -/
theorem C153_vec2_ordered (s : F32) (p q : V2 F32) (fs : s.IsFin = true) (hs : lit 0 < s) (i : Fin 2)
    (fp : (coord p i).IsFin = true) (fq : (coord q i).IsFin = true) (h : coord p i ≤ coord q i) :
    coord (cell2 s p) i ≤ coord (cell2 s q) i := by
  rw [coord_cell2, coord_cell2]
  exact cell_le fs hs fp fq h

/-- C153, `vec2`: a search by cells misses nothing. For any list of finite points and any box from `lo` to `hi`, keeping the points in
the cells from that of `lo` to that of `hi`, and of these the points in the box, gives the same list as testing every point. -/
theorem C153_vec2_search (s : F32) (lo hi : V2 F32) (ps : List (V2 F32)) (fs : s.IsFin = true) (hs : lit 0 < s)
    (fl : ∀ i, (coord lo i).IsFin = true) (fh : ∀ i, (coord hi i).IsFin = true) (fp : ∀ p ∈ ps, ∀ i, (coord p i).IsFin = true) :
    (ps.filter fun p => within2 (cell2 s lo) (cell2 s hi) (cell2 s p)).filter (within2 lo hi) = ps.filter (within2 lo hi) := by
  rw [List.filter_filter]
  refine List.filter_congr fun p m => ?_
  rcases hw : within2 lo hi p with _ | _
  · rfl
  · rw [Bool.true_and, within2_iff]
    have w := (within2_iff lo hi p).1 hw
    exact fun i => ⟨C153_vec2_ordered s lo p fs hs i (fl i) (fp p m i) (w i).1,
      C153_vec2_ordered s p hi fs hs i (fp p m i) (fh i) (w i).2⟩

/-- C153, `vec2`: which points a cell has. If `|p| <= 2^24 s` in a component, the component of the cell is exactly an integer `n`, the
component of `p` is below `(n + 1) s`, and it is at least `n s` up to the rounding of one division. -/
theorem C153_vec2_cell (s : F32) (p : V2 F32) (fs : s.IsFin = true) (hs : lit 0 < s) (i : Fin 2) (fp : (coord p i).IsFin = true)
    (h : |(coord p i).val| ≤ 2 ^ 24 * s.val) :
    ∃ n : ℤ, IsInt (coord (cell2 s p) i) n ∧
      n * s.val - (|(coord p i).val| / 2 ^ 24 + s.val / 2 ^ 150) ≤ (coord p i).val ∧ (coord p i).val < (n + 1) * s.val := by
  rw [coord_cell2]
  exact cell_index fs hs fp h

/-- C153, `vec2`: cells whose size is a power of two are exact: the cell is `⌊p / s⌋` computed without any rounding, unless `p / s` is
below the normal range or out of range. -/
theorem C153_vec2_power (s : F32) (k : ℤ) (p : V2 F32) (fs : s.IsFin = true) (hs : s.val = 2 ^ k) (i : Fin 2)
    (fp : (coord p i).IsFin = true) (h : |(coord p i).val| ≤ 2 ^ 127 * s.val) (hu : NoUnderflow ((coord p i).val / s.val)) :
    IsInt (coord (cell2 s p) i) ⌊(coord p i).val / s.val⌋ := by
  rw [coord_cell2]
  have pos : 0 < s.val := by rw [hs]; positivity
  refine cell_exact fs hs fp h ?_
  rcases hu with hu | hu
  · exact .inl ((div_eq_zero_iff.1 hu).resolve_right pos.ne')
  · rw [abs_div, abs_of_pos pos, le_div_iff₀ pos] at hu
    exact .inr (by linarith)

/-- C153, `vec2`: near points are in the same or in neighbouring cells, exactly. If two points with components of magnitude at most
`2^23 s` differ in a component by at most `s` (in exact arithmetic), their cells differ in it by at most 1, in spite of the rounding of
both divisions. -/
theorem C153_vec2_neighbours (s : F32) (p q : V2 F32) (fs : s.IsFin = true) (hs : lit 0 < s) (i : Fin 2)
    (fp : (coord p i).IsFin = true) (fq : (coord q i).IsFin = true)
    (hp : |(coord p i).val| ≤ 2 ^ 23 * s.val) (hq : |(coord q i).val| ≤ 2 ^ 23 * s.val)
    (h : |(coord p i).val - (coord q i).val| ≤ s.val) :
    ∃ m n : ℤ, IsInt (coord (cell2 s p) i) m ∧ IsInt (coord (cell2 s q) i) n ∧ |m - n| ≤ 1 := by
  rw [coord_cell2, coord_cell2]
  obtain ⟨m, n, a, b, c, -⟩ := cell_adjacent fs hs fp fq hp hq h
  exact ⟨m, n, a, b, c⟩

/-- C153, `vec2`: the cells around the cell of `q` have every point at an exact distance of at most `s` from `q`: the test
`cell(q) - 1.0f <= cell(p) <= cell(q) + 1.0f` in every component is true for each of them. So a search of these cells finds all of them. -/
theorem C153_vec2_around (s : F32) (p q : V2 F32) (fs : s.IsFin = true) (hs : lit 0 < s)
    (fp : ∀ i, (coord p i).IsFin = true ∧ |(coord p i).val| ≤ 2 ^ 23 * s.val)
    (fq : ∀ i, (coord q i).IsFin = true ∧ |(coord q i).val| ≤ 2 ^ 23 * s.val)
    (h : exactDistance (coord p) (coord q) ≤ s.val) :
    within2 (cell2 s q - (lit 1 : F32)) (cell2 s q + (lit 1 : F32)) (cell2 s p) = true := by
  rw [within2_iff]
  intro i
  have d : |(coord p i).val - (coord q i).val| ≤ s.val := by
    have l : |((coord p i).val - (coord q i).val : ℝ)| ≤ exactDistance (coord p) (coord q) :=
      Real.abs_le_sqrt (Finset.single_le_sum (f := fun i => ((coord p i).val - (coord q i).val : ℝ) ^ 2) (fun i _ => sq_nonneg _) (Finset.mem_univ i))
    exact_mod_cast l.trans h
  have e1 : coord (cell2 s q - (lit 1 : F32)) i = F.floor (coord q i / s) - lit 1 := by fin_cases i <;> rfl
  have e2 : coord (cell2 s q + (lit 1 : F32)) i = F.floor (coord q i / s) + lit 1 := by fin_cases i <;> rfl
  rw [e1, e2, coord_cell2]
  exact cell_around fs hs (fp i).1 (fq i).1 (fp i).2 (fq i).2 d

/-- Non-vacuity: cells of size 3 with points on both sides of 0, and of size 1/4. -/
example : let p : V2 F32 := ⟨lit (-1), lit 6⟩
    let q : V2 F32 := ⟨lit 1, lit (9 / 2)⟩
    cell2 (lit 3) p = ⟨lit (-1), lit 2⟩ ∧
    cell2 (lit 3) q = ⟨lit 0, lit 1⟩ ∧
    within2 p q p = false ∧ within2 (V2.splat (lit (-2))) (V2.splat (lit 8)) q = true ∧
    (lit 0 : F32) < lit 3 ∧ (lit (1 / 4) : F32).val = 2 ^ (-2 : ℤ) ∧
    (∀ i, |(coord p i).val| ≤ 2 ^ 23 * (lit 3 : F32).val ∧ NoUnderflow ((coord p i).val / (lit (1 / 4) : F32).val)) ∧
|(coord p 0).val - (coord q 0).val| ≤ (lit 3 : F32).val := by
  unfold NoUnderflow
  decide +kernel

/-- Non-vacuity: these two points are less than 3 apart. -/
example : exactDistance (coord (⟨lit (-1), lit 6⟩ : V2 F32)) (coord (⟨lit 1, lit (9 / 2)⟩ : V2 F32)) ≤
    ((lit 3 : F32).val : ℝ) := by
  have v : ∀ x ∈ [(-1 : ℚ), 6, 3, 0, 1, 9 / 2, 2], (lit x : F32).val = x := by decide +kernel
  simp only [List.forall_mem_cons, List.not_mem_nil, IsEmpty.forall_iff, implies_true, and_true] at v
  obtain ⟨v1, v2, v3, v4, v5, v6, v7⟩ := v
  unfold exactDistance
  simp only [Fin.sum_univ_two, coord_v2_0, coord_v2_1, v1, v2, v3, v4, v5, v6, v7]
  rw [Real.sqrt_le_left (by norm_num)]
  norm_num

private theorem coord_cell3 (s : F32) (p : V3 F32) (i : Fin 3) : coord (cell3 s p) i = F.floor (coord p i / s) := by
  fin_cases i <;> rfl

private theorem within3_iff (lo hi p : V3 F32) : within3 lo hi p = true ↔ ∀ i, coord lo i ≤ coord p i ∧ coord p i ≤ coord hi i := by
  have e : (∀ i : Fin 3, coord lo i ≤ coord p i ∧ coord p i ≤ coord hi i) ↔
      (lo.x ≤ p.x ∧ p.x ≤ hi.x) ∧ (lo.y ≤ p.y ∧ p.y ≤ hi.y) ∧ (lo.z ≤ p.z ∧ p.z ≤ hi.z) := by
    constructor
    · intro h; exact ⟨h 0, h 1, h 2⟩
    · rintro ⟨h0, h1, h2⟩ i
      fin_cases i
      · exact h0
      · exact h1
      · exact h2
  rw [e]
  simp only [within3, BV3.all, V3.lessThanEqual, Bool.and_eq_true, decide_eq_true_eq]
  tauto

/-- C153, `vec3`: cells are ordered like points. For finite points and any finite cell size `s > 0`, `p <= q` in a component gives
`cell(p) <= cell(q)` in it. No rounding error can reverse this, and it holds also if `p / s` overflows. -/
theorem C153_vec3_ordered (s : F32) (p q : V3 F32) (fs : s.IsFin = true) (hs : lit 0 < s) (i : Fin 3)
    (fp : (coord p i).IsFin = true) (fq : (coord q i).IsFin = true) (h : coord p i ≤ coord q i) :
    coord (cell3 s p) i ≤ coord (cell3 s q) i := by
  rw [coord_cell3, coord_cell3]
  exact cell_le fs hs fp fq h

/-- C153, `vec3`: a search by cells misses nothing. For any list of finite points and any box from `lo` to `hi`, keeping the points in
the cells from that of `lo` to that of `hi`, and of these the points in the box, gives the same list as testing every point. -/
theorem C153_vec3_search (s : F32) (lo hi : V3 F32) (ps : List (V3 F32)) (fs : s.IsFin = true) (hs : lit 0 < s)
    (fl : ∀ i, (coord lo i).IsFin = true) (fh : ∀ i, (coord hi i).IsFin = true) (fp : ∀ p ∈ ps, ∀ i, (coord p i).IsFin = true) :
    (ps.filter fun p => within3 (cell3 s lo) (cell3 s hi) (cell3 s p)).filter (within3 lo hi) = ps.filter (within3 lo hi) := by
  rw [List.filter_filter]
  refine List.filter_congr fun p m => ?_
  rcases hw : within3 lo hi p with _ | _
  · rfl
  · rw [Bool.true_and, within3_iff]
    have w := (within3_iff lo hi p).1 hw
    exact fun i => ⟨C153_vec3_ordered s lo p fs hs i (fl i) (fp p m i) (w i).1,
      C153_vec3_ordered s p hi fs hs i (fp p m i) (fh i) (w i).2⟩

/-- C153, `vec3`: which points a cell has. If `|p| <= 2^24 s` in a component, the component of the cell is exactly an integer `n`, the
component of `p` is below `(n + 1) s`, and it is at least `n s` up to the rounding of one division. -/
theorem C153_vec3_cell (s : F32) (p : V3 F32) (fs : s.IsFin = true) (hs : lit 0 < s) (i : Fin 3) (fp : (coord p i).IsFin = true)
    (h : |(coord p i).val| ≤ 2 ^ 24 * s.val) :
    ∃ n : ℤ, IsInt (coord (cell3 s p) i) n ∧
      n * s.val - (|(coord p i).val| / 2 ^ 24 + s.val / 2 ^ 150) ≤ (coord p i).val ∧ (coord p i).val < (n + 1) * s.val := by
  rw [coord_cell3]
  exact cell_index fs hs fp h

/-- C153, `vec3`: cells whose size is a power of two are exact: the cell is `⌊p / s⌋` computed without any rounding, unless `p / s` is
below the normal range or out of range. -/
theorem C153_vec3_power (s : F32) (k : ℤ) (p : V3 F32) (fs : s.IsFin = true) (hs : s.val = 2 ^ k) (i : Fin 3)
    (fp : (coord p i).IsFin = true) (h : |(coord p i).val| ≤ 2 ^ 127 * s.val) (hu : NoUnderflow ((coord p i).val / s.val)) :
    IsInt (coord (cell3 s p) i) ⌊(coord p i).val / s.val⌋ := by
  rw [coord_cell3]
  have pos : 0 < s.val := by rw [hs]; positivity
  refine cell_exact fs hs fp h ?_
  rcases hu with hu | hu
  · exact .inl ((div_eq_zero_iff.1 hu).resolve_right pos.ne')
  · rw [abs_div, abs_of_pos pos, le_div_iff₀ pos] at hu
    exact .inr (by linarith)

/-- C153, `vec3`: near points are in the same or in neighbouring cells, exactly. If two points with components of magnitude at most
`2^23 s` differ in a component by at most `s` (in exact arithmetic), their cells differ in it by at most 1, in spite of the rounding of
both divisions. -/
theorem C153_vec3_neighbours (s : F32) (p q : V3 F32) (fs : s.IsFin = true) (hs : lit 0 < s) (i : Fin 3)
    (fp : (coord p i).IsFin = true) (fq : (coord q i).IsFin = true)
    (hp : |(coord p i).val| ≤ 2 ^ 23 * s.val) (hq : |(coord q i).val| ≤ 2 ^ 23 * s.val)
    (h : |(coord p i).val - (coord q i).val| ≤ s.val) :
    ∃ m n : ℤ, IsInt (coord (cell3 s p) i) m ∧ IsInt (coord (cell3 s q) i) n ∧ |m - n| ≤ 1 := by
  rw [coord_cell3, coord_cell3]
  obtain ⟨m, n, a, b, c, -⟩ := cell_adjacent fs hs fp fq hp hq h
  exact ⟨m, n, a, b, c⟩

/-- C153, `vec3`: the cells around the cell of `q` have every point at an exact distance of at most `s` from `q`: the test
`cell(q) - 1.0f <= cell(p) <= cell(q) + 1.0f` in every component is true for each of them. So a search of these cells finds all of them. -/
theorem C153_vec3_around (s : F32) (p q : V3 F32) (fs : s.IsFin = true) (hs : lit 0 < s)
    (fp : ∀ i, (coord p i).IsFin = true ∧ |(coord p i).val| ≤ 2 ^ 23 * s.val)
    (fq : ∀ i, (coord q i).IsFin = true ∧ |(coord q i).val| ≤ 2 ^ 23 * s.val)
    (h : exactDistance (coord p) (coord q) ≤ s.val) :
    within3 (cell3 s q - (lit 1 : F32)) (cell3 s q + (lit 1 : F32)) (cell3 s p) = true := by
  rw [within3_iff]
  intro i
  have d : |(coord p i).val - (coord q i).val| ≤ s.val := by
    have l : |((coord p i).val - (coord q i).val : ℝ)| ≤ exactDistance (coord p) (coord q) :=
      Real.abs_le_sqrt (Finset.single_le_sum (f := fun i => ((coord p i).val - (coord q i).val : ℝ) ^ 2) (fun i _ => sq_nonneg _) (Finset.mem_univ i))
    exact_mod_cast l.trans h
  have e1 : coord (cell3 s q - (lit 1 : F32)) i = F.floor (coord q i / s) - lit 1 := by fin_cases i <;> rfl
  have e2 : coord (cell3 s q + (lit 1 : F32)) i = F.floor (coord q i / s) + lit 1 := by fin_cases i <;> rfl
  rw [e1, e2, coord_cell3]
  exact cell_around fs hs (fp i).1 (fq i).1 (fp i).2 (fq i).2 d

/-- Non-vacuity: cells of size 3 with points on both sides of 0, and of size 1/4. -/
example : let p : V3 F32 := ⟨lit (-1), lit 6, lit 3⟩
    let q : V3 F32 := ⟨lit 1, lit (9 / 2), lit 2⟩
    cell3 (lit 3) p = ⟨lit (-1), lit 2, lit 1⟩ ∧
    cell3 (lit 3) q = ⟨lit 0, lit 1, lit 0⟩ ∧
    within3 p q p = false ∧ within3 (V3.splat (lit (-2))) (V3.splat (lit 8)) q = true ∧
    (lit 0 : F32) < lit 3 ∧ (lit (1 / 4) : F32).val = 2 ^ (-2 : ℤ) ∧
    (∀ i, |(coord p i).val| ≤ 2 ^ 23 * (lit 3 : F32).val ∧ NoUnderflow ((coord p i).val / (lit (1 / 4) : F32).val)) ∧
|(coord p 0).val - (coord q 0).val| ≤ (lit 3 : F32).val := by
  unfold NoUnderflow
  decide +kernel

/-- Non-vacuity: these two points are less than 3 apart. -/
example : exactDistance (coord (⟨lit (-1), lit 6, lit 3⟩ : V3 F32)) (coord (⟨lit 1, lit (9 / 2), lit 2⟩ : V3 F32)) ≤
    ((lit 3 : F32).val : ℝ) := by
  have v : ∀ x ∈ [(-1 : ℚ), 6, 3, 0, 1, 9 / 2, 2], (lit x : F32).val = x := by decide +kernel
  simp only [List.forall_mem_cons, List.not_mem_nil, IsEmpty.forall_iff, implies_true, and_true] at v
  obtain ⟨v1, v2, v3, v4, v5, v6, v7⟩ := v
  unfold exactDistance
  simp only [Fin.sum_univ_three, coord_v3_0, coord_v3_1, coord_v3_2, v1, v2, v3, v4, v5, v6, v7]
  rw [Real.sqrt_le_left (by norm_num)]
  norm_num

private theorem coord_cell4 (s : F32) (p : V4 F32) (i : Fin 4) : coord (cell4 s p) i = F.floor (coord p i / s) := by
  fin_cases i <;> rfl

private theorem within4_iff (lo hi p : V4 F32) : within4 lo hi p = true ↔ ∀ i, coord lo i ≤ coord p i ∧ coord p i ≤ coord hi i := by
  have e : (∀ i : Fin 4, coord lo i ≤ coord p i ∧ coord p i ≤ coord hi i) ↔
      (lo.x ≤ p.x ∧ p.x ≤ hi.x) ∧ (lo.y ≤ p.y ∧ p.y ≤ hi.y) ∧ (lo.z ≤ p.z ∧ p.z ≤ hi.z) ∧ (lo.w ≤ p.w ∧ p.w ≤ hi.w) := by
    constructor
    · intro h; exact ⟨h 0, h 1, h 2, h 3⟩
    · rintro ⟨h0, h1, h2, h3⟩ i
      fin_cases i
      · exact h0
      · exact h1
      · exact h2
      · exact h3
  rw [e]
  simp only [within4, BV4.all, V4.lessThanEqual, Bool.and_eq_true, decide_eq_true_eq]
  tauto

/-- C153, `vec4`: cells are ordered like points. For finite points and any finite cell size `s > 0`, `p <= q` in a component gives
`cell(p) <= cell(q)` in it. No rounding error can reverse this, and it holds also if `p / s` overflows. -/
theorem C153_vec4_ordered (s : F32) (p q : V4 F32) (fs : s.IsFin = true) (hs : lit 0 < s) (i : Fin 4)
    (fp : (coord p i).IsFin = true) (fq : (coord q i).IsFin = true) (h : coord p i ≤ coord q i) :
    coord (cell4 s p) i ≤ coord (cell4 s q) i := by
  rw [coord_cell4, coord_cell4]
  exact cell_le fs hs fp fq h

/-- C153, `vec4`: a search by cells misses nothing. For any list of finite points and any box from `lo` to `hi`, keeping the points in
the cells from that of `lo` to that of `hi`, and of these the points in the box, gives the same list as testing every point. -/
theorem C153_vec4_search (s : F32) (lo hi : V4 F32) (ps : List (V4 F32)) (fs : s.IsFin = true) (hs : lit 0 < s)
    (fl : ∀ i, (coord lo i).IsFin = true) (fh : ∀ i, (coord hi i).IsFin = true) (fp : ∀ p ∈ ps, ∀ i, (coord p i).IsFin = true) :
    (ps.filter fun p => within4 (cell4 s lo) (cell4 s hi) (cell4 s p)).filter (within4 lo hi) = ps.filter (within4 lo hi) := by
  rw [List.filter_filter]
  refine List.filter_congr fun p m => ?_
  rcases hw : within4 lo hi p with _ | _
  · rfl
  · rw [Bool.true_and, within4_iff]
    have w := (within4_iff lo hi p).1 hw
    exact fun i => ⟨C153_vec4_ordered s lo p fs hs i (fl i) (fp p m i) (w i).1,
      C153_vec4_ordered s p hi fs hs i (fp p m i) (fh i) (w i).2⟩

/-- C153, `vec4`: which points a cell has. If `|p| <= 2^24 s` in a component, the component of the cell is exactly an integer `n`, the
component of `p` is below `(n + 1) s`, and it is at least `n s` up to the rounding of one division. -/
theorem C153_vec4_cell (s : F32) (p : V4 F32) (fs : s.IsFin = true) (hs : lit 0 < s) (i : Fin 4) (fp : (coord p i).IsFin = true)
    (h : |(coord p i).val| ≤ 2 ^ 24 * s.val) :
    ∃ n : ℤ, IsInt (coord (cell4 s p) i) n ∧
      n * s.val - (|(coord p i).val| / 2 ^ 24 + s.val / 2 ^ 150) ≤ (coord p i).val ∧ (coord p i).val < (n + 1) * s.val := by
  rw [coord_cell4]
  exact cell_index fs hs fp h

/-- C153, `vec4`: cells whose size is a power of two are exact: the cell is `⌊p / s⌋` computed without any rounding, unless `p / s` is
below the normal range or out of range. -/
theorem C153_vec4_power (s : F32) (k : ℤ) (p : V4 F32) (fs : s.IsFin = true) (hs : s.val = 2 ^ k) (i : Fin 4)
    (fp : (coord p i).IsFin = true) (h : |(coord p i).val| ≤ 2 ^ 127 * s.val) (hu : NoUnderflow ((coord p i).val / s.val)) :
    IsInt (coord (cell4 s p) i) ⌊(coord p i).val / s.val⌋ := by
  rw [coord_cell4]
  have pos : 0 < s.val := by rw [hs]; positivity
  refine cell_exact fs hs fp h ?_
  rcases hu with hu | hu
  · exact .inl ((div_eq_zero_iff.1 hu).resolve_right pos.ne')
  · rw [abs_div, abs_of_pos pos, le_div_iff₀ pos] at hu
    exact .inr (by linarith)

/-- C153, `vec4`: near points are in the same or in neighbouring cells, exactly. If two points with components of magnitude at most
`2^23 s` differ in a component by at most `s` (in exact arithmetic), their cells differ in it by at most 1, in spite of the rounding of
both divisions. -/
theorem C153_vec4_neighbours (s : F32) (p q : V4 F32) (fs : s.IsFin = true) (hs : lit 0 < s) (i : Fin 4)
    (fp : (coord p i).IsFin = true) (fq : (coord q i).IsFin = true)
    (hp : |(coord p i).val| ≤ 2 ^ 23 * s.val) (hq : |(coord q i).val| ≤ 2 ^ 23 * s.val)
    (h : |(coord p i).val - (coord q i).val| ≤ s.val) :
    ∃ m n : ℤ, IsInt (coord (cell4 s p) i) m ∧ IsInt (coord (cell4 s q) i) n ∧ |m - n| ≤ 1 := by
  rw [coord_cell4, coord_cell4]
  obtain ⟨m, n, a, b, c, -⟩ := cell_adjacent fs hs fp fq hp hq h
  exact ⟨m, n, a, b, c⟩

/-- C153, `vec4`: the cells around the cell of `q` have every point at an exact distance of at most `s` from `q`: the test
`cell(q) - 1.0f <= cell(p) <= cell(q) + 1.0f` in every component is true for each of them. So a search of these cells finds all of them. -/
theorem C153_vec4_around (s : F32) (p q : V4 F32) (fs : s.IsFin = true) (hs : lit 0 < s)
    (fp : ∀ i, (coord p i).IsFin = true ∧ |(coord p i).val| ≤ 2 ^ 23 * s.val)
    (fq : ∀ i, (coord q i).IsFin = true ∧ |(coord q i).val| ≤ 2 ^ 23 * s.val)
    (h : exactDistance (coord p) (coord q) ≤ s.val) :
    within4 (cell4 s q - (lit 1 : F32)) (cell4 s q + (lit 1 : F32)) (cell4 s p) = true := by
  rw [within4_iff]
  intro i
  have d : |(coord p i).val - (coord q i).val| ≤ s.val := by
    have l : |((coord p i).val - (coord q i).val : ℝ)| ≤ exactDistance (coord p) (coord q) :=
      Real.abs_le_sqrt (Finset.single_le_sum (f := fun i => ((coord p i).val - (coord q i).val : ℝ) ^ 2) (fun i _ => sq_nonneg _) (Finset.mem_univ i))
    exact_mod_cast l.trans h
  have e1 : coord (cell4 s q - (lit 1 : F32)) i = F.floor (coord q i / s) - lit 1 := by fin_cases i <;> rfl
  have e2 : coord (cell4 s q + (lit 1 : F32)) i = F.floor (coord q i / s) + lit 1 := by fin_cases i <;> rfl
  rw [e1, e2, coord_cell4]
  exact cell_around fs hs (fp i).1 (fq i).1 (fp i).2 (fq i).2 d

/-- Non-vacuity: cells of size 3 with points on both sides of 0, and of size 1/4. -/
example : let p : V4 F32 := ⟨lit (-1), lit 6, lit 3, lit 0⟩
    let q : V4 F32 := ⟨lit 1, lit (9 / 2), lit 2, lit (-1)⟩
    cell4 (lit 3) p = ⟨lit (-1), lit 2, lit 1, lit 0⟩ ∧
    cell4 (lit 3) q = ⟨lit 0, lit 1, lit 0, lit (-1)⟩ ∧
    within4 p q p = false ∧ within4 (V4.splat (lit (-2))) (V4.splat (lit 8)) q = true ∧
    (lit 0 : F32) < lit 3 ∧ (lit (1 / 4) : F32).val = 2 ^ (-2 : ℤ) ∧
    (∀ i, |(coord p i).val| ≤ 2 ^ 23 * (lit 3 : F32).val ∧ NoUnderflow ((coord p i).val / (lit (1 / 4) : F32).val)) ∧
|(coord p 0).val - (coord q 0).val| ≤ (lit 3 : F32).val := by
  unfold NoUnderflow
  decide +kernel

/-- Non-vacuity: these two points are less than 3 apart. -/
example : exactDistance (coord (⟨lit (-1), lit 6, lit 3, lit 0⟩ : V4 F32)) (coord (⟨lit 1, lit (9 / 2), lit 2, lit (-1)⟩ : V4 F32)) ≤
    ((lit 3 : F32).val : ℝ) := by
  have v : ∀ x ∈ [(-1 : ℚ), 6, 3, 0, 1, 9 / 2, 2], (lit x : F32).val = x := by decide +kernel
  simp only [List.forall_mem_cons, List.not_mem_nil, IsEmpty.forall_iff, implies_true, and_true] at v
  obtain ⟨v1, v2, v3, v4, v5, v6, v7⟩ := v
  unfold exactDistance
  simp only [Fin.sum_univ_four, coord_v4_0, coord_v4_1, coord_v4_2, coord_v4_3, v1, v2, v3, v4, v5, v6, v7]
  rw [Real.sqrt_le_left (by norm_num)]
  norm_num

end Zcm
