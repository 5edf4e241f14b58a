import Mathlib.Analysis.Real.Pi.Bounds
import Verif.Lemmas.F32Persp

/-!
# C101: projection matrices in IEEE arithmetic

`Near x r e`: the float `x` is finite and within `e` of the exact number `r`.  `entry m c r` is column `c`, row `r`.
`boxMatrix`, `frustumMatrix`, `minusOneToOne`, `zeroToOne`, `depth01`, `depth11` are exact (Spec/Clip.lean).
-/

set_option exponentiation.threshold 300

namespace Zcm

open F32

private theorem sides_hi {lo hi : F32} (h : Sides lo hi) : hi.val ≤ 2 ^ 60 := by
  have : ((hi.val : ℚ) : ℝ) ≤ ((2 ^ 60 : ℚ) : ℝ) := (le_abs_self _).trans (h.2.2.2.1.trans (by norm_num))
  exact Rat.cast_le.1 this

private theorem coordinate_zero : Coordinate (lit 0 : F32) := ⟨isFin_lit_zero, by rw [val_lit_zero]; norm_num⟩

private theorem coordinate_zero_val : ((lit 0 : F32).val : ℝ) = 0 := by rw [val_lit_zero]; norm_num

private theorem coord_two (p : V3 F32) : coord p 2 = p.z := rfl

private theorem rel_one : Rel (lit 1) 1 0 := Rel.lit isFin_lit_one lit_one_cast

private theorem rel_neg_one : Rel (-(lit 1)) (-1) 0 := rel_one.neg

private theorem neg_one_mul' (x : F32) : -(lit 1) * x = -x := by rw [neg_mul', one_mul']

private theorem diag_ortho (left right bottom top : F32) : Diag (M4.ortho left right bottom top) := by
  constructor <;> exact isZ_lit

private theorem diag_orthoLH_ZO (left right bottom top zNear zFar : F32) : Diag (M4.orthoLH_ZO left right bottom top zNear zFar) := by
  constructor <;> exact isZ_lit

private theorem diag_orthoRH_ZO (left right bottom top zNear zFar : F32) : Diag (M4.orthoRH_ZO left right bottom top zNear zFar) := by
  constructor <;> exact isZ_lit

private theorem diag_orthoLH_NO (left right bottom top zNear zFar : F32) : Diag (M4.orthoLH_NO left right bottom top zNear zFar) := by
  constructor <;> exact isZ_lit

private theorem diag_orthoRH_NO (left right bottom top zNear zFar : F32) : Diag (M4.orthoRH_NO left right bottom top zNear zFar) := by
  constructor <;> exact isZ_lit

/-- C101, `ortho(left, right, bottom, top)`: the matrix. -/
theorem C101_ortho_matrix (left right bottom top : F32) (hx : Sides left right) (hy : Sides bottom top) (c r : Fin 4) :
    let E := boxMatrix (2 / (right.val - left.val)) (2 / (top.val - bottom.val)) (-1)
      (-(right.val + left.val) / (right.val - left.val)) (-(top.val + bottom.val) / (top.val - bottom.val)) 0
    Near (entry (M4.ortho left right bottom top) c r) (E r c) (4 / 2 ^ 24 * |E r c| + 1 / 2 ^ 150) := by
  obtain ⟨x0, x1, -⟩ := sides_minusOneToOne hx lit_two_real.1 lit_two_real.2 (.inl rfl) coordinate_zero (t := 0) (by simp [coordinate_zero_val])
  obtain ⟨y0, y1, -⟩ := sides_minusOneToOne hy lit_two_real.1 lit_two_real.2 (.inl rfl) coordinate_zero (t := 0) (by simp [coordinate_zero_val])
  obtain ⟨f, e⟩ := neg_fin_real isFin_lit_one lit_one_cast
  exact box_entries (diag_ortho left right bottom top) rfl x0 y0 (near_exact f e (by positivity)) x1 y1
    (near_z isZ_lit (by positivity)) c r

/-- C101, `ortho(left, right, bottom, top)`: points. -/
theorem C101_ortho (left right bottom top : F32) (hx : Sides left right) (hy : Sides bottom top) (p : V3 F32)
    (hp : ∀ i, Coordinate (coord p i)) :
    let q := M4.ortho left right bottom top * V4.ofXYZ_W p (lit 1)
    Near (coord q 0) (minusOneToOne left.val right.val p.x.val)
      (5 / 2 ^ 24 * ((2 * |(p.x.val : ℝ)| + |(right.val : ℝ) + left.val|) / |(right.val : ℝ) - left.val|) + 1 / 2 ^ 148) ∧
    Near (coord q 1) (minusOneToOne bottom.val top.val p.y.val)
      (5 / 2 ^ 24 * ((2 * |(p.y.val : ℝ)| + |(top.val : ℝ) + bottom.val|) / |(top.val : ℝ) - bottom.val|) + 1 / 2 ^ 148) ∧
    Near (coord q 2) (-p.z.val) 0 ∧ Near (coord q 3) 1 0 := by
  obtain ⟨-, -, x⟩ := sides_minusOneToOne hx lit_two_real.1 lit_two_real.2 (.inl rfl) (hp 0) rfl
  obtain ⟨-, -, y⟩ := sides_minusOneToOne hy lit_two_real.1 lit_two_real.2 (.inl rfl) (hp 1) rfl
  obtain ⟨a, b, c, d⟩ := box_point (diag_ortho left right bottom top) rfl (fun i => (hp i).1)
  refine ⟨x.same a, y.same b, Near.same (c.trans (SameNumber.addZ isZ_lit)) ?_, d⟩
  show Near (-(lit 1) * p.z) (-p.z.val) 0
  rw [neg_one_mul']
  obtain ⟨f, e⟩ := neg_fin_real (hp 2).1 rfl
  exact near_exact f e le_rfl

/-- C101, `orthoLH_ZO`: the matrix. -/
theorem C101_orthoLH_ZO_matrix (left right bottom top zNear zFar : F32) (hx : Sides left right) (hy : Sides bottom top)
    (hz : Sides zNear zFar) (c r : Fin 4) :
    let E := boxMatrix (2 / (right.val - left.val)) (2 / (top.val - bottom.val)) (1 / (zFar.val - zNear.val))
      (-(right.val + left.val) / (right.val - left.val)) (-(top.val + bottom.val) / (top.val - bottom.val))
      (-zNear.val / (zFar.val - zNear.val))
    Near (entry (M4.orthoLH_ZO left right bottom top zNear zFar) c r) (E r c) (4 / 2 ^ 24 * |E r c| + 1 / 2 ^ 150) := by
  obtain ⟨x0, x1, -⟩ := sides_minusOneToOne hx lit_two_real.1 lit_two_real.2 (.inl rfl) coordinate_zero (t := 0) (by simp [coordinate_zero_val])
  obtain ⟨y0, y1, -⟩ := sides_minusOneToOne hy lit_two_real.1 lit_two_real.2 (.inl rfl) coordinate_zero (t := 0) (by simp [coordinate_zero_val])
  obtain ⟨z0, z1, -⟩ := sides_zeroToOne hz isFin_lit_one lit_one_cast (.inl rfl) coordinate_zero (t := 0) (by simp [coordinate_zero_val])
  exact box_entries (diag_orthoLH_ZO left right bottom top zNear zFar) rfl x0 y0 z0 x1 y1 z1 c r

/-- C101, `orthoLH_ZO`: points. -/
theorem C101_orthoLH_ZO (left right bottom top zNear zFar : F32) (hx : Sides left right) (hy : Sides bottom top)
    (hz : Sides zNear zFar) (p : V3 F32) (hp : ∀ i, Coordinate (coord p i)) :
    let q := M4.orthoLH_ZO left right bottom top zNear zFar * V4.ofXYZ_W p (lit 1)
    Near (coord q 0) (minusOneToOne left.val right.val p.x.val)
      (5 / 2 ^ 24 * ((2 * |(p.x.val : ℝ)| + |(right.val : ℝ) + left.val|) / |(right.val : ℝ) - left.val|) + 1 / 2 ^ 148) ∧
    Near (coord q 1) (minusOneToOne bottom.val top.val p.y.val)
      (5 / 2 ^ 24 * ((2 * |(p.y.val : ℝ)| + |(top.val : ℝ) + bottom.val|) / |(top.val : ℝ) - bottom.val|) + 1 / 2 ^ 148) ∧
    Near (coord q 2) (zeroToOne zNear.val zFar.val p.z.val)
      (5 / 2 ^ 24 * ((|(p.z.val : ℝ)| + |(zNear.val : ℝ)|) / |(zFar.val : ℝ) - zNear.val|) + 1 / 2 ^ 148) ∧
    Near (coord q 3) 1 0 := by
  obtain ⟨-, -, x⟩ := sides_minusOneToOne hx lit_two_real.1 lit_two_real.2 (.inl rfl) (hp 0) rfl
  obtain ⟨-, -, y⟩ := sides_minusOneToOne hy lit_two_real.1 lit_two_real.2 (.inl rfl) (hp 1) rfl
  obtain ⟨-, -, z⟩ := sides_zeroToOne hz isFin_lit_one lit_one_cast (.inl rfl) (hp 2) (t := p.z.val) (by rw [coord_two]; ring)
  obtain ⟨a, b, c, d⟩ := box_point (diag_orthoLH_ZO left right bottom top zNear zFar) rfl (fun i => (hp i).1)
  exact ⟨x.same a, y.same b, z.same c, d⟩

/-- C101, `orthoRH_ZO`: the matrix. -/
theorem C101_orthoRH_ZO_matrix (left right bottom top zNear zFar : F32) (hx : Sides left right) (hy : Sides bottom top)
    (hz : Sides zNear zFar) (c r : Fin 4) :
    let E := boxMatrix (2 / (right.val - left.val)) (2 / (top.val - bottom.val)) ((-1) / (zFar.val - zNear.val))
      (-(right.val + left.val) / (right.val - left.val)) (-(top.val + bottom.val) / (top.val - bottom.val))
      (-zNear.val / (zFar.val - zNear.val))
    Near (entry (M4.orthoRH_ZO left right bottom top zNear zFar) c r) (E r c) (4 / 2 ^ 24 * |E r c| + 1 / 2 ^ 150) := by
  obtain ⟨x0, x1, -⟩ := sides_minusOneToOne hx lit_two_real.1 lit_two_real.2 (.inl rfl) coordinate_zero (t := 0) (by simp [coordinate_zero_val])
  obtain ⟨y0, y1, -⟩ := sides_minusOneToOne hy lit_two_real.1 lit_two_real.2 (.inl rfl) coordinate_zero (t := 0) (by simp [coordinate_zero_val])
  obtain ⟨f, e⟩ := neg_fin_real isFin_lit_one lit_one_cast
  obtain ⟨z0, z1, -⟩ := sides_zeroToOne hz f e (.inr rfl) coordinate_zero (t := 0) (by simp [coordinate_zero_val])
  exact box_entries (diag_orthoRH_ZO left right bottom top zNear zFar) rfl x0 y0 z0 x1 y1 z1 c r

/-- C101, `orthoRH_ZO`: points. -/
theorem C101_orthoRH_ZO (left right bottom top zNear zFar : F32) (hx : Sides left right) (hy : Sides bottom top)
    (hz : Sides zNear zFar) (p : V3 F32) (hp : ∀ i, Coordinate (coord p i)) :
    let q := M4.orthoRH_ZO left right bottom top zNear zFar * V4.ofXYZ_W p (lit 1)
    Near (coord q 0) (minusOneToOne left.val right.val p.x.val)
      (5 / 2 ^ 24 * ((2 * |(p.x.val : ℝ)| + |(right.val : ℝ) + left.val|) / |(right.val : ℝ) - left.val|) + 1 / 2 ^ 148) ∧
    Near (coord q 1) (minusOneToOne bottom.val top.val p.y.val)
      (5 / 2 ^ 24 * ((2 * |(p.y.val : ℝ)| + |(top.val : ℝ) + bottom.val|) / |(top.val : ℝ) - bottom.val|) + 1 / 2 ^ 148) ∧
    Near (coord q 2) (zeroToOne zNear.val zFar.val (-p.z.val))
      (5 / 2 ^ 24 * ((|(-p.z.val : ℝ)| + |(zNear.val : ℝ)|) / |(zFar.val : ℝ) - zNear.val|) + 1 / 2 ^ 148) ∧
    Near (coord q 3) 1 0 := by
  obtain ⟨-, -, x⟩ := sides_minusOneToOne hx lit_two_real.1 lit_two_real.2 (.inl rfl) (hp 0) rfl
  obtain ⟨-, -, y⟩ := sides_minusOneToOne hy lit_two_real.1 lit_two_real.2 (.inl rfl) (hp 1) rfl
  obtain ⟨f, e⟩ := neg_fin_real isFin_lit_one lit_one_cast
  obtain ⟨-, -, z⟩ := sides_zeroToOne hz f e (.inr rfl) (hp 2) (t := (-p.z.val)) (by rw [coord_two]; ring)
  obtain ⟨a, b, c, d⟩ := box_point (diag_orthoRH_ZO left right bottom top zNear zFar) rfl (fun i => (hp i).1)
  exact ⟨x.same a, y.same b, z.same c, d⟩

/-- C101, `orthoLH_NO`: the matrix. -/
theorem C101_orthoLH_NO_matrix (left right bottom top zNear zFar : F32) (hx : Sides left right) (hy : Sides bottom top)
    (hz : Sides zNear zFar) (c r : Fin 4) :
    let E := boxMatrix (2 / (right.val - left.val)) (2 / (top.val - bottom.val)) (2 / (zFar.val - zNear.val))
      (-(right.val + left.val) / (right.val - left.val)) (-(top.val + bottom.val) / (top.val - bottom.val))
      (-(zFar.val + zNear.val) / (zFar.val - zNear.val))
    Near (entry (M4.orthoLH_NO left right bottom top zNear zFar) c r) (E r c) (4 / 2 ^ 24 * |E r c| + 1 / 2 ^ 150) := by
  obtain ⟨x0, x1, -⟩ := sides_minusOneToOne hx lit_two_real.1 lit_two_real.2 (.inl rfl) coordinate_zero (t := 0) (by simp [coordinate_zero_val])
  obtain ⟨y0, y1, -⟩ := sides_minusOneToOne hy lit_two_real.1 lit_two_real.2 (.inl rfl) coordinate_zero (t := 0) (by simp [coordinate_zero_val])
  obtain ⟨z0, z1, -⟩ := sides_minusOneToOne hz lit_two_real.1 lit_two_real.2 (.inl rfl) coordinate_zero (t := 0) (by simp [coordinate_zero_val])
  exact box_entries (diag_orthoLH_NO left right bottom top zNear zFar) rfl x0 y0 z0 x1 y1 z1 c r

/-- C101, `orthoLH_NO`: points. -/
theorem C101_orthoLH_NO (left right bottom top zNear zFar : F32) (hx : Sides left right) (hy : Sides bottom top)
    (hz : Sides zNear zFar) (p : V3 F32) (hp : ∀ i, Coordinate (coord p i)) :
    let q := M4.orthoLH_NO left right bottom top zNear zFar * V4.ofXYZ_W p (lit 1)
    Near (coord q 0) (minusOneToOne left.val right.val p.x.val)
      (5 / 2 ^ 24 * ((2 * |(p.x.val : ℝ)| + |(right.val : ℝ) + left.val|) / |(right.val : ℝ) - left.val|) + 1 / 2 ^ 148) ∧
    Near (coord q 1) (minusOneToOne bottom.val top.val p.y.val)
      (5 / 2 ^ 24 * ((2 * |(p.y.val : ℝ)| + |(top.val : ℝ) + bottom.val|) / |(top.val : ℝ) - bottom.val|) + 1 / 2 ^ 148) ∧
    Near (coord q 2) (minusOneToOne zNear.val zFar.val p.z.val)
      (5 / 2 ^ 24 * ((2 * |(p.z.val : ℝ)| + |(zFar.val : ℝ) + zNear.val|) / |(zFar.val : ℝ) - zNear.val|) + 1 / 2 ^ 148) ∧
    Near (coord q 3) 1 0 := by
  obtain ⟨-, -, x⟩ := sides_minusOneToOne hx lit_two_real.1 lit_two_real.2 (.inl rfl) (hp 0) rfl
  obtain ⟨-, -, y⟩ := sides_minusOneToOne hy lit_two_real.1 lit_two_real.2 (.inl rfl) (hp 1) rfl
  obtain ⟨-, -, z⟩ := sides_minusOneToOne hz lit_two_real.1 lit_two_real.2 (.inl rfl) (hp 2) (t := p.z.val) (by rw [coord_two])
  obtain ⟨a, b, c, d⟩ := box_point (diag_orthoLH_NO left right bottom top zNear zFar) rfl (fun i => (hp i).1)
  exact ⟨x.same a, y.same b, z.same c, d⟩

/-- C101, `orthoRH_NO`: the matrix. -/
theorem C101_orthoRH_NO_matrix (left right bottom top zNear zFar : F32) (hx : Sides left right) (hy : Sides bottom top)
    (hz : Sides zNear zFar) (c r : Fin 4) :
    let E := boxMatrix (2 / (right.val - left.val)) (2 / (top.val - bottom.val)) ((-2) / (zFar.val - zNear.val))
      (-(right.val + left.val) / (right.val - left.val)) (-(top.val + bottom.val) / (top.val - bottom.val))
      (-(zFar.val + zNear.val) / (zFar.val - zNear.val))
    Near (entry (M4.orthoRH_NO left right bottom top zNear zFar) c r) (E r c) (4 / 2 ^ 24 * |E r c| + 1 / 2 ^ 150) := by
  obtain ⟨x0, x1, -⟩ := sides_minusOneToOne hx lit_two_real.1 lit_two_real.2 (.inl rfl) coordinate_zero (t := 0) (by simp [coordinate_zero_val])
  obtain ⟨y0, y1, -⟩ := sides_minusOneToOne hy lit_two_real.1 lit_two_real.2 (.inl rfl) coordinate_zero (t := 0) (by simp [coordinate_zero_val])
  obtain ⟨f, e⟩ := neg_fin_real lit_two_real.1 lit_two_real.2
  obtain ⟨z0, z1, -⟩ := sides_minusOneToOne hz f e (.inr rfl) coordinate_zero (t := 0) (by simp [coordinate_zero_val])
  exact box_entries (diag_orthoRH_NO left right bottom top zNear zFar) rfl x0 y0 z0 x1 y1 z1 c r

/-- C101, `orthoRH_NO`: points. -/
theorem C101_orthoRH_NO (left right bottom top zNear zFar : F32) (hx : Sides left right) (hy : Sides bottom top)
    (hz : Sides zNear zFar) (p : V3 F32) (hp : ∀ i, Coordinate (coord p i)) :
    let q := M4.orthoRH_NO left right bottom top zNear zFar * V4.ofXYZ_W p (lit 1)
    Near (coord q 0) (minusOneToOne left.val right.val p.x.val)
      (5 / 2 ^ 24 * ((2 * |(p.x.val : ℝ)| + |(right.val : ℝ) + left.val|) / |(right.val : ℝ) - left.val|) + 1 / 2 ^ 148) ∧
    Near (coord q 1) (minusOneToOne bottom.val top.val p.y.val)
      (5 / 2 ^ 24 * ((2 * |(p.y.val : ℝ)| + |(top.val : ℝ) + bottom.val|) / |(top.val : ℝ) - bottom.val|) + 1 / 2 ^ 148) ∧
    Near (coord q 2) (minusOneToOne zNear.val zFar.val (-p.z.val))
      (5 / 2 ^ 24 * ((2 * |(-p.z.val : ℝ)| + |(zFar.val : ℝ) + zNear.val|) / |(zFar.val : ℝ) - zNear.val|) + 1 / 2 ^ 148) ∧
    Near (coord q 3) 1 0 := by
  obtain ⟨-, -, x⟩ := sides_minusOneToOne hx lit_two_real.1 lit_two_real.2 (.inl rfl) (hp 0) rfl
  obtain ⟨-, -, y⟩ := sides_minusOneToOne hy lit_two_real.1 lit_two_real.2 (.inl rfl) (hp 1) rfl
  obtain ⟨f, e⟩ := neg_fin_real lit_two_real.1 lit_two_real.2
  obtain ⟨-, -, z⟩ := sides_minusOneToOne hz f e (.inr rfl) (hp 2) (t := (-p.z.val)) (by rw [coord_two]; ring)
  obtain ⟨a, b, c, d⟩ := box_point (diag_orthoRH_NO left right bottom top zNear zFar) rfl (fun i => (hp i).1)
  exact ⟨x.same a, y.same b, z.same c, d⟩

/-- the matrix all four perspective functions build -/
private def frustumF (X Y A B s : F32) : M4 F32 :=
  ⟨⟨X, lit 0, lit 0, lit 0⟩, ⟨lit 0, Y, lit 0, lit 0⟩, ⟨lit 0, lit 0, A, s⟩, ⟨lit 0, lit 0, B, lit 0⟩⟩

private theorem real_ZO {n f d : ℝ} (hn : 0 < n) (h : n < f) (hd : 0 < d) :
    (f / (f - n) * d + -(f * n) / (f - n) = d * depth01 n f d ∧
      -f / (f - n) * -d + -(f * n) / (f - n) = d * depth01 n f d) ∧
    (|f / (f - n)| = f / (f - n) ∧ |-f / (f - n)| = f / (f - n)) ∧ |-(f * n) / (f - n)| = f * n / (f - n) ∧
    f / (f - n) * d + f * n / (f - n) = f * (d + n) / (f - n) ∧
    f * (d + n) / (f - n) / d = f * (d + n) / (d * (f - n)) := by
  have w : f - n ≠ 0 := (sub_pos.2 h).ne'
  have f0 : 0 < f := hn.trans h
  refine ⟨⟨?_, ?_⟩, ⟨?_, ?_⟩, ?_, ?_, ?_⟩
  · unfold depth01; field_simp; ring
  · unfold depth01; field_simp; ring
  · rw [abs_div, abs_of_pos (sub_pos.2 h), abs_of_pos f0]
  · rw [abs_div, abs_of_pos (sub_pos.2 h), abs_neg, abs_of_pos f0]
  · rw [abs_div, abs_of_pos (sub_pos.2 h), abs_neg, abs_of_pos (mul_pos f0 hn)]
  · field_simp
  · field_simp

private theorem real_NO {n f d : ℝ} (hn : 0 < n) (h : n < f) (hd : 0 < d) :
    ((f + n) / (f - n) * d + -(2 * f * n) / (f - n) = d * depth11 n f d ∧
      -(f + n) / (f - n) * -d + -(2 * f * n) / (f - n) = d * depth11 n f d) ∧
    (|(f + n) / (f - n)| = (f + n) / (f - n) ∧ |-(f + n) / (f - n)| = (f + n) / (f - n)) ∧
    |-(2 * f * n) / (f - n)| = 2 * f * n / (f - n) ∧
    (f + n) / (f - n) * d + 2 * f * n / (f - n) = ((f + n) * d + 2 * f * n) / (f - n) ∧
    ((f + n) * d + 2 * f * n) / (f - n) / d = ((f + n) * d + 2 * f * n) / (d * (f - n)) := by
  have w : f - n ≠ 0 := (sub_pos.2 h).ne'
  have f0 : 0 < f := hn.trans h
  have p : 0 < f + n := by positivity
  have p2 : 0 < 2 * f * n := by positivity
  refine ⟨⟨?_, ?_⟩, ⟨?_, ?_⟩, ?_, ?_, ?_⟩
  · unfold depth11 depth01; field_simp; ring
  · unfold depth11 depth01; field_simp; ring
  · rw [abs_div, abs_of_pos (sub_pos.2 h), abs_of_pos p]
  · rw [abs_div, abs_of_pos (sub_pos.2 h), abs_neg, abs_of_pos p]
  · rw [abs_div, abs_of_pos (sub_pos.2 h), abs_neg, abs_of_pos p2]
  · field_simp
  · field_simp

private theorem frustumF_frust (X Y A B s : F32) : Frust (frustumF X Y A B s) := by
  constructor <;> exact isZ_lit

/-- C101, `perspectiveLH_ZO`: the matrix, and where it sends the points in front of the camera. -/
theorem C101_perspectiveLH_ZO [Libm F32] (hl : GoodTan) (b : Build) (fovy aspect zNear zFar : F32)
    (h : Lens fovy aspect zNear zFar) :
    let n : ℝ := zNear.val
    let f : ℝ := zFar.val
    let t : ℝ := Real.tan (fovy.val / 2)
    let E := frustumMatrix (1 / (aspect.val * t)) (1 / t) (f / (f - n)) (-(f * n) / (f - n)) 1
    ∃ M, M4.perspectiveLH_ZO b fovy aspect zNear zFar = .ok M ∧
      (∀ c r, Near (entry M c r) (E r c) (7 / 2 ^ 24 * |E r c|)) ∧
      ∀ p : V3 F32, InFront p p.z.val →
        let q := M * V4.ofXYZ_W p (lit 1)
        let d : ℝ := p.z.val
        let x : ℝ := p.x.val / (aspect.val * t)
        let y : ℝ := p.y.val / t
        (Near (coord q 0) x (8 / 2 ^ 24 * |x| + 1 / 2 ^ 150) ∧ Near (coord q 1) y (8 / 2 ^ 24 * |y| + 1 / 2 ^ 150) ∧
          Near (coord q 2) (d * depth01 n f d) (6 / 2 ^ 24 * (f * (d + n) / (f - n)) + 1 / 2 ^ 148) ∧
          Near (coord q 3) d 0) ∧
        Near (coord q 0 / coord q 3) (x / d) (9 / 2 ^ 24 * |x / d| + 1 / 2 ^ 117) ∧
        Near (coord q 1 / coord q 3) (y / d) (9 / 2 ^ 24 * |y / d| + 1 / 2 ^ 117) ∧
        Near (coord q 2 / coord q 3) (depth01 n f d) (7 / 2 ^ 24 * (f * (d + n) / (d * (f - n))) + 1 / 2 ^ 117) := by
  intro n f t E
  obtain ⟨t1, X, Y⟩ := focal hl h
  obtain ⟨⟨A1, A2, A3, A4⟩, B1, B2, n0, nf, gap⟩ := depth_coefs h
  obtain ⟨s1, s2, s3, s4, s5, s6⟩ := lens_sizes t1 h.aspect_ge n0 nf h.far_le gap
  have fr := frustumF_frust (lit 1 / (aspect * Libm.tanf (fovy * lit 0.5))) (lit 1 / Libm.tanf (fovy * lit 0.5))
    (zFar / (zFar - zNear)) ((-(zFar * zNear)) / (zFar - zNear)) (lit 1)
  refine ⟨frustumF (lit 1 / (aspect * Libm.tanf (fovy * lit 0.5))) (lit 1 / Libm.tanf (fovy * lit 0.5))
    (zFar / (zFar - zNear)) ((-(zFar * zNear)) / (zFar - zNear)) (lit 1), ?_, fun c r => ?_, fun p hp => ?_⟩
  · unfold M4.perspectiveLH_ZO
    rw [persp_assert_float h.fin.2.1 (by
      have := h.aspect_ge
      rw [abs_of_pos (lt_of_lt_of_le (by norm_num) this)]
      exact h.aspect_le.trans (by norm_num)) (Or.inr (by
      intro e
      have := h.aspect_ge
      rw [e] at this
      norm_num at this))]
    rfl
  · exact frust_entries fr X Y A1 B1 rel_one c r
  · have d0 : (0 : ℝ) < p.z.val := lt_of_lt_of_le (by norm_num) hp.2.2.2.1
    obtain ⟨⟨ez, ez'⟩, ⟨ea, ea'⟩, eB, eb, ed⟩ := real_ZO n0 nf d0
    obtain ⟨⟨r0, r1, r2, r3⟩, r4, r5, r6⟩ := frust_point (s := 1) fr X Y A1 B1 (.inl ⟨rfl, rfl⟩) hp (by ring) s1 s2
      (ea.trans_le s3) (eB.trans_le s5)
    rw [one_div_mul_eq_div] at r0 r1 r4 r5
    rw [ez, ea, eB, eb] at r2 r6
    rw [ed, mul_div_cancel_left₀ _ d0.ne'] at r6
    exact ⟨⟨r0, r1, r2, r3⟩, r4, r5, r6⟩

/-- C101, `perspectiveRH_ZO`: the matrix, and where it sends the points in front of the camera. -/
theorem C101_perspectiveRH_ZO [Libm F32] (hl : GoodTan) (b : Build) (fovy aspect zNear zFar : F32)
    (h : Lens fovy aspect zNear zFar) :
    let n : ℝ := zNear.val
    let f : ℝ := zFar.val
    let t : ℝ := Real.tan (fovy.val / 2)
    let E := frustumMatrix (1 / (aspect.val * t)) (1 / t) (-f / (f - n)) (-(f * n) / (f - n)) (-1)
    ∃ M, M4.perspectiveRH_ZO b fovy aspect zNear zFar = .ok M ∧
      (∀ c r, Near (entry M c r) (E r c) (7 / 2 ^ 24 * |E r c|)) ∧
      ∀ p : V3 F32, InFront p (-p.z.val) →
        let q := M * V4.ofXYZ_W p (lit 1)
        let d : ℝ := (-p.z.val)
        let x : ℝ := p.x.val / (aspect.val * t)
        let y : ℝ := p.y.val / t
        (Near (coord q 0) x (8 / 2 ^ 24 * |x| + 1 / 2 ^ 150) ∧ Near (coord q 1) y (8 / 2 ^ 24 * |y| + 1 / 2 ^ 150) ∧
          Near (coord q 2) (d * depth01 n f d) (6 / 2 ^ 24 * (f * (d + n) / (f - n)) + 1 / 2 ^ 148) ∧
          Near (coord q 3) d 0) ∧
        Near (coord q 0 / coord q 3) (x / d) (9 / 2 ^ 24 * |x / d| + 1 / 2 ^ 117) ∧
        Near (coord q 1 / coord q 3) (y / d) (9 / 2 ^ 24 * |y / d| + 1 / 2 ^ 117) ∧
        Near (coord q 2 / coord q 3) (depth01 n f d) (7 / 2 ^ 24 * (f * (d + n) / (d * (f - n))) + 1 / 2 ^ 117) := by
  intro n f t E
  obtain ⟨t1, X, Y⟩ := focal hl h
  obtain ⟨⟨A1, A2, A3, A4⟩, B1, B2, n0, nf, gap⟩ := depth_coefs h
  rw [show (zFar.val : ℝ) / (zNear.val - zFar.val) = -zFar.val / (zFar.val - zNear.val) by
    rw [← neg_sub, div_neg, neg_div]] at A2
  obtain ⟨s1, s2, s3, s4, s5, s6⟩ := lens_sizes t1 h.aspect_ge n0 nf h.far_le gap
  have fr := frustumF_frust (lit 1 / (aspect * Libm.tanf (fovy * lit 0.5))) (lit 1 / Libm.tanf (fovy * lit 0.5))
    (zFar / (zNear - zFar)) ((-(zFar * zNear)) / (zFar - zNear)) (-(lit 1))
  refine ⟨frustumF (lit 1 / (aspect * Libm.tanf (fovy * lit 0.5))) (lit 1 / Libm.tanf (fovy * lit 0.5))
    (zFar / (zNear - zFar)) ((-(zFar * zNear)) / (zFar - zNear)) (-(lit 1)), ?_, fun c r => ?_, fun p hp => ?_⟩
  · unfold M4.perspectiveRH_ZO
    rw [persp_assert_float h.fin.2.1 (by
      have := h.aspect_ge
      rw [abs_of_pos (lt_of_lt_of_le (by norm_num) this)]
      exact h.aspect_le.trans (by norm_num)) (Or.inr (by
      intro e
      have := h.aspect_ge
      rw [e] at this
      norm_num at this))]
    rfl
  · exact frust_entries fr X Y A2 B1 rel_neg_one c r
  · have d0 : (0 : ℝ) < (-p.z.val) := lt_of_lt_of_le (by norm_num) hp.2.2.2.1
    obtain ⟨⟨ez, ez'⟩, ⟨ea, ea'⟩, eB, eb, ed⟩ := real_ZO n0 nf d0
    obtain ⟨⟨r0, r1, r2, r3⟩, r4, r5, r6⟩ := frust_point (s := (-1)) fr X Y A2 B1 (.inr ⟨rfl, rfl⟩) hp (by ring) s1 s2
      (ea'.trans_le s3) (eB.trans_le s5)
    rw [one_div_mul_eq_div] at r0 r1 r4 r5
    rw [neg_neg] at ez'
    rw [ez', ea', eB, eb] at r2 r6
    rw [ed, mul_div_cancel_left₀ _ d0.ne'] at r6
    exact ⟨⟨r0, r1, r2, r3⟩, r4, r5, r6⟩

/-- C101, `perspectiveLH_NO`: the matrix, and where it sends the points in front of the camera. -/
theorem C101_perspectiveLH_NO [Libm F32] (hl : GoodTan) (b : Build) (fovy aspect zNear zFar : F32)
    (h : Lens fovy aspect zNear zFar) :
    let n : ℝ := zNear.val
    let f : ℝ := zFar.val
    let t : ℝ := Real.tan (fovy.val / 2)
    let E := frustumMatrix (1 / (aspect.val * t)) (1 / t) ((f + n) / (f - n)) (-(2 * f * n) / (f - n)) 1
    ∃ M, M4.perspectiveLH_NO b fovy aspect zNear zFar = .ok M ∧
      (∀ c r, Near (entry M c r) (E r c) (7 / 2 ^ 24 * |E r c|)) ∧
      ∀ p : V3 F32, InFront p p.z.val →
        let q := M * V4.ofXYZ_W p (lit 1)
        let d : ℝ := p.z.val
        let x : ℝ := p.x.val / (aspect.val * t)
        let y : ℝ := p.y.val / t
        (Near (coord q 0) x (8 / 2 ^ 24 * |x| + 1 / 2 ^ 150) ∧ Near (coord q 1) y (8 / 2 ^ 24 * |y| + 1 / 2 ^ 150) ∧
          Near (coord q 2) (d * depth11 n f d) (6 / 2 ^ 24 * (((f + n) * d + 2 * f * n) / (f - n)) + 1 / 2 ^ 148) ∧
          Near (coord q 3) d 0) ∧
        Near (coord q 0 / coord q 3) (x / d) (9 / 2 ^ 24 * |x / d| + 1 / 2 ^ 117) ∧
        Near (coord q 1 / coord q 3) (y / d) (9 / 2 ^ 24 * |y / d| + 1 / 2 ^ 117) ∧
        Near (coord q 2 / coord q 3) (depth11 n f d) (7 / 2 ^ 24 * (((f + n) * d + 2 * f * n) / (d * (f - n))) + 1 / 2 ^ 117) := by
  intro n f t E
  obtain ⟨t1, X, Y⟩ := focal hl h
  obtain ⟨⟨A1, A2, A3, A4⟩, B1, B2, n0, nf, gap⟩ := depth_coefs h
  obtain ⟨s1, s2, s3, s4, s5, s6⟩ := lens_sizes t1 h.aspect_ge n0 nf h.far_le gap
  have fr := frustumF_frust (lit 1 / (aspect * Libm.tanf (fovy * lit 0.5))) (lit 1 / Libm.tanf (fovy * lit 0.5))
    ((zFar + zNear) / (zFar - zNear)) ((-(lit 2 * zFar * zNear)) / (zFar - zNear)) (lit 1)
  refine ⟨frustumF (lit 1 / (aspect * Libm.tanf (fovy * lit 0.5))) (lit 1 / Libm.tanf (fovy * lit 0.5))
    ((zFar + zNear) / (zFar - zNear)) ((-(lit 2 * zFar * zNear)) / (zFar - zNear)) (lit 1), ?_, fun c r => ?_, fun p hp => ?_⟩
  · unfold M4.perspectiveLH_NO
    rw [persp_assert_float h.fin.2.1 (by
      have := h.aspect_ge
      rw [abs_of_pos (lt_of_lt_of_le (by norm_num) this)]
      exact h.aspect_le.trans (by norm_num)) (Or.inr (by
      intro e
      have := h.aspect_ge
      rw [e] at this
      norm_num at this))]
    rfl
  · exact frust_entries fr X Y A3 B2 rel_one c r
  · have d0 : (0 : ℝ) < p.z.val := lt_of_lt_of_le (by norm_num) hp.2.2.2.1
    obtain ⟨⟨ez, ez'⟩, ⟨ea, ea'⟩, eB, eb, ed⟩ := real_NO n0 nf d0
    obtain ⟨⟨r0, r1, r2, r3⟩, r4, r5, r6⟩ := frust_point (s := 1) fr X Y A3 B2 (.inl ⟨rfl, rfl⟩) hp (by ring) s1 s2
      (ea.trans_le s4) (eB.trans_le s6)
    rw [one_div_mul_eq_div] at r0 r1 r4 r5
    rw [ez, ea, eB, eb] at r2 r6
    rw [ed, mul_div_cancel_left₀ _ d0.ne'] at r6
    exact ⟨⟨r0, r1, r2, r3⟩, r4, r5, r6⟩

/-- C101, `perspectiveRH_NO`: the matrix, and where it sends the points in front of the camera. -/
theorem C101_perspectiveRH_NO [Libm F32] (hl : GoodTan) (b : Build) (fovy aspect zNear zFar : F32)
    (h : Lens fovy aspect zNear zFar) :
    let n : ℝ := zNear.val
    let f : ℝ := zFar.val
    let t : ℝ := Real.tan (fovy.val / 2)
    let E := frustumMatrix (1 / (aspect.val * t)) (1 / t) (-(f + n) / (f - n)) (-(2 * f * n) / (f - n)) (-1)
    ∃ M, M4.perspectiveRH_NO b fovy aspect zNear zFar = .ok M ∧
      (∀ c r, Near (entry M c r) (E r c) (7 / 2 ^ 24 * |E r c|)) ∧
      ∀ p : V3 F32, InFront p (-p.z.val) →
        let q := M * V4.ofXYZ_W p (lit 1)
        let d : ℝ := (-p.z.val)
        let x : ℝ := p.x.val / (aspect.val * t)
        let y : ℝ := p.y.val / t
        (Near (coord q 0) x (8 / 2 ^ 24 * |x| + 1 / 2 ^ 150) ∧ Near (coord q 1) y (8 / 2 ^ 24 * |y| + 1 / 2 ^ 150) ∧
          Near (coord q 2) (d * depth11 n f d) (6 / 2 ^ 24 * (((f + n) * d + 2 * f * n) / (f - n)) + 1 / 2 ^ 148) ∧
          Near (coord q 3) d 0) ∧
        Near (coord q 0 / coord q 3) (x / d) (9 / 2 ^ 24 * |x / d| + 1 / 2 ^ 117) ∧
        Near (coord q 1 / coord q 3) (y / d) (9 / 2 ^ 24 * |y / d| + 1 / 2 ^ 117) ∧
        Near (coord q 2 / coord q 3) (depth11 n f d) (7 / 2 ^ 24 * (((f + n) * d + 2 * f * n) / (d * (f - n))) + 1 / 2 ^ 117) := by
  intro n f t E
  obtain ⟨t1, X, Y⟩ := focal hl h
  obtain ⟨⟨A1, A2, A3, A4⟩, B1, B2, n0, nf, gap⟩ := depth_coefs h
  obtain ⟨s1, s2, s3, s4, s5, s6⟩ := lens_sizes t1 h.aspect_ge n0 nf h.far_le gap
  have fr := frustumF_frust (lit 1 / (aspect * Libm.tanf (fovy * lit 0.5))) (lit 1 / Libm.tanf (fovy * lit 0.5))
    ((-(zFar + zNear)) / (zFar - zNear)) ((-(lit 2 * zFar * zNear)) / (zFar - zNear)) (-(lit 1))
  refine ⟨frustumF (lit 1 / (aspect * Libm.tanf (fovy * lit 0.5))) (lit 1 / Libm.tanf (fovy * lit 0.5))
    ((-(zFar + zNear)) / (zFar - zNear)) ((-(lit 2 * zFar * zNear)) / (zFar - zNear)) (-(lit 1)), ?_, fun c r => ?_, fun p hp => ?_⟩
  · unfold M4.perspectiveRH_NO
    rw [persp_assert_float h.fin.2.1 (by
      have := h.aspect_ge
      rw [abs_of_pos (lt_of_lt_of_le (by norm_num) this)]
      exact h.aspect_le.trans (by norm_num)) (Or.inr (by
      intro e
      have := h.aspect_ge
      rw [e] at this
      norm_num at this))]
    rfl
  · exact frust_entries fr X Y A4 B2 rel_neg_one c r
  · have d0 : (0 : ℝ) < (-p.z.val) := lt_of_lt_of_le (by norm_num) hp.2.2.2.1
    obtain ⟨⟨ez, ez'⟩, ⟨ea, ea'⟩, eB, eb, ed⟩ := real_NO n0 nf d0
    obtain ⟨⟨r0, r1, r2, r3⟩, r4, r5, r6⟩ := frust_point (s := (-1)) fr X Y A4 B2 (.inr ⟨rfl, rfl⟩) hp (by ring) s1 s2
      (ea'.trans_le s4) (eB.trans_le s6)
    rw [one_div_mul_eq_div] at r0 r1 r4 r5
    rw [neg_neg] at ez'
    rw [ez', ea', eB, eb] at r2 r6
    rw [ed, mul_div_cancel_left₀ _ d0.ne'] at r6
    exact ⟨⟨r0, r1, r2, r3⟩, r4, r5, r6⟩

/-- C101, `ortho`: with sides placed symmetrically, rounding pushes no point across the sides. -/
theorem C101_ortho_symmetric (left right bottom top : F32) (hx : Sides left right) (hy : Sides bottom top)
    (sx : left.val = -right.val) (sy : bottom.val = -top.val) (px : 1 / 2 ^ 60 ≤ right.val) (py : 1 / 2 ^ 60 ≤ top.val)
    (p : V3 F32) (hp : ∀ i, (coord p i).IsFin = true) (bx : |p.x.val| ≤ right.val) (by' : |p.y.val| ≤ top.val) :
    let q := M4.ortho left right bottom top * V4.ofXYZ_W p (lit 1)
    ((coord q 0).IsFin = true ∧ |(coord q 0).val| ≤ 1) ∧ ((coord q 1).IsFin = true ∧ |(coord q 1).val| ≤ 1) := by
  obtain ⟨a, b, -, -⟩ := box_point (diag_ortho left right bottom top) rfl hp
  exact ⟨symmetric_axis hx.1 hx.2.1 sx px (sides_hi hx) (hp 0) bx a,
    symmetric_axis hy.1 hy.2.1 sy py (sides_hi hy) (hp 1) by' b⟩

/-- C101, `orthoLH_ZO`: with sides placed symmetrically, rounding pushes no point across the sides. -/
theorem C101_orthoLH_ZO_symmetric (left right bottom top zNear zFar : F32) (hx : Sides left right) (hy : Sides bottom top)
    (sx : left.val = -right.val) (sy : bottom.val = -top.val) (px : 1 / 2 ^ 60 ≤ right.val) (py : 1 / 2 ^ 60 ≤ top.val)
    (p : V3 F32) (hp : ∀ i, (coord p i).IsFin = true) (bx : |p.x.val| ≤ right.val) (by' : |p.y.val| ≤ top.val) :
    let q := M4.orthoLH_ZO left right bottom top zNear zFar * V4.ofXYZ_W p (lit 1)
    ((coord q 0).IsFin = true ∧ |(coord q 0).val| ≤ 1) ∧ ((coord q 1).IsFin = true ∧ |(coord q 1).val| ≤ 1) := by
  obtain ⟨a, b, -, -⟩ := box_point (diag_orthoLH_ZO left right bottom top zNear zFar) rfl hp
  exact ⟨symmetric_axis hx.1 hx.2.1 sx px (sides_hi hx) (hp 0) bx a,
    symmetric_axis hy.1 hy.2.1 sy py (sides_hi hy) (hp 1) by' b⟩

/-- C101, `orthoRH_ZO`: with sides placed symmetrically, rounding pushes no point across the sides. -/
theorem C101_orthoRH_ZO_symmetric (left right bottom top zNear zFar : F32) (hx : Sides left right) (hy : Sides bottom top)
    (sx : left.val = -right.val) (sy : bottom.val = -top.val) (px : 1 / 2 ^ 60 ≤ right.val) (py : 1 / 2 ^ 60 ≤ top.val)
    (p : V3 F32) (hp : ∀ i, (coord p i).IsFin = true) (bx : |p.x.val| ≤ right.val) (by' : |p.y.val| ≤ top.val) :
    let q := M4.orthoRH_ZO left right bottom top zNear zFar * V4.ofXYZ_W p (lit 1)
    ((coord q 0).IsFin = true ∧ |(coord q 0).val| ≤ 1) ∧ ((coord q 1).IsFin = true ∧ |(coord q 1).val| ≤ 1) := by
  obtain ⟨a, b, -, -⟩ := box_point (diag_orthoRH_ZO left right bottom top zNear zFar) rfl hp
  exact ⟨symmetric_axis hx.1 hx.2.1 sx px (sides_hi hx) (hp 0) bx a,
    symmetric_axis hy.1 hy.2.1 sy py (sides_hi hy) (hp 1) by' b⟩

/-- C101, `orthoLH_NO`: with sides placed symmetrically, rounding pushes no point across the sides. -/
theorem C101_orthoLH_NO_symmetric (left right bottom top zNear zFar : F32) (hx : Sides left right) (hy : Sides bottom top)
    (sx : left.val = -right.val) (sy : bottom.val = -top.val) (px : 1 / 2 ^ 60 ≤ right.val) (py : 1 / 2 ^ 60 ≤ top.val)
    (p : V3 F32) (hp : ∀ i, (coord p i).IsFin = true) (bx : |p.x.val| ≤ right.val) (by' : |p.y.val| ≤ top.val) :
    let q := M4.orthoLH_NO left right bottom top zNear zFar * V4.ofXYZ_W p (lit 1)
    ((coord q 0).IsFin = true ∧ |(coord q 0).val| ≤ 1) ∧ ((coord q 1).IsFin = true ∧ |(coord q 1).val| ≤ 1) := by
  obtain ⟨a, b, -, -⟩ := box_point (diag_orthoLH_NO left right bottom top zNear zFar) rfl hp
  exact ⟨symmetric_axis hx.1 hx.2.1 sx px (sides_hi hx) (hp 0) bx a,
    symmetric_axis hy.1 hy.2.1 sy py (sides_hi hy) (hp 1) by' b⟩

/-- C101, `orthoRH_NO`: with sides placed symmetrically, rounding pushes no point across the sides. -/
theorem C101_orthoRH_NO_symmetric (left right bottom top zNear zFar : F32) (hx : Sides left right) (hy : Sides bottom top)
    (sx : left.val = -right.val) (sy : bottom.val = -top.val) (px : 1 / 2 ^ 60 ≤ right.val) (py : 1 / 2 ^ 60 ≤ top.val)
    (p : V3 F32) (hp : ∀ i, (coord p i).IsFin = true) (bx : |p.x.val| ≤ right.val) (by' : |p.y.val| ≤ top.val) :
    let q := M4.orthoRH_NO left right bottom top zNear zFar * V4.ofXYZ_W p (lit 1)
    ((coord q 0).IsFin = true ∧ |(coord q 0).val| ≤ 1) ∧ ((coord q 1).IsFin = true ∧ |(coord q 1).val| ≤ 1) := by
  obtain ⟨a, b, -, -⟩ := box_point (diag_orthoRH_NO left right bottom top zNear zFar) rfl hp
  exact ⟨symmetric_axis hx.1 hx.2.1 sx px (sides_hi hx) (hp 0) bx a,
    symmetric_axis hy.1 hy.2.1 sy py (sides_hi hy) (hp 1) by' b⟩

/-! ### Non-vacuity -/

private theorem lits : ((lit 1 : F32).val = 1 ∧ (lit 2 : F32).val = 2 ∧ (lit (-2) : F32).val = -2 ∧ (lit 3 : F32).val = 3 ∧
    (lit (-3) : F32).val = -3 ∧ (lit 5 : F32).val = 5 ∧ (lit 100 : F32).val = 100 ∧ (lit (-10) : F32).val = -10) ∧
    ((lit 1 : F32).IsFin = true ∧ (lit 2 : F32).IsFin = true ∧ (lit (-2) : F32).IsFin = true ∧ (lit 3 : F32).IsFin = true ∧
    (lit (-3) : F32).IsFin = true ∧ (lit 5 : F32).IsFin = true ∧ (lit 100 : F32).IsFin = true ∧ (lit (-10) : F32).IsFin = true) := by
  decide +kernel

/-- A box from -2 to 5, from -3 to 3 and from 1 to 100, and the point (1, -2, -10). -/
example : (Sides (lit (-2)) (lit 5) ∧ Sides (lit (-3)) (lit 3) ∧ Sides (lit 1) (lit 100)) ∧
    (∀ i, Coordinate (coord (⟨lit 1, lit (-2), lit (-10)⟩ : V3 F32) i)) := by
  obtain ⟨⟨v1, v2, v3, v4, v5, v6, v7, v8⟩, f1, f2, f3, f4, f5, f6, f7, f8⟩ := lits
  refine ⟨⟨⟨f3, f6, ?_⟩, ⟨f5, f4, ?_⟩, f1, f7, ?_⟩, fun i => ?_⟩
  · rw [v3, v6]; norm_num
  · rw [v5, v4]; norm_num
  · rw [v1, v7]; norm_num
  · fin_cases i
    · exact ⟨f1, by show |((lit 1 : F32).val : ℝ)| ≤ _; rw [v1]; norm_num⟩
    · exact ⟨f3, by show |((lit (-2) : F32).val : ℝ)| ≤ _; rw [v3]; norm_num⟩
    · exact ⟨f8, by show |((lit (-10) : F32).val : ℝ)| ≤ _; rw [v8]; norm_num⟩

/-- A symmetric pair of sides and a coordinate on one of them. -/
example : (lit (-3) : F32).val = -(lit 3 : F32).val ∧ 1 / 2 ^ 60 ≤ (lit 3 : F32).val ∧ |(lit (-3) : F32).val| ≤ (lit 3 : F32).val := by
  rw [lits.1.2.2.2.1, lits.1.2.2.2.2.1]; norm_num

/-- C libraries with a good tangent exist: take the exact tangent, rounded. -/
example : @GoodTan tanLibm := fun x _ h1 h2 h3 => by
  have lt := Real.lt_tan (lt_of_lt_of_le (by norm_num) h1) h2
  have t0 : 1 / 2 ^ 21 ≤ Real.tan x.val := by linarith
  have t1 : 0 < Real.tan x.val := lt_of_lt_of_le (by norm_num) t0
  obtain ⟨f, e⟩ := closeFloat_close (y := Real.tan x.val) (by rw [abs_of_pos t1]; linarith)
  refine ⟨f, e.trans ?_⟩
  rw [abs_of_pos t1]
  linarith

/-- An opening angle of two radians, aspect ratio 1, planes at 1 and 100, and the point (1, -2, -10) in front of the
camera at distance 10. -/
example : Lens (lit 2) (lit 1) (lit 1) (lit 100) ∧ InFront (⟨lit 1, lit (-2), lit (-10)⟩ : V3 F32) 10 ∧
    (lit 1 : F32).val ≠ 1 / 2 ^ 23 := by
  obtain ⟨⟨v1, v2, v3, v4, v5, v6, v7, v8⟩, f1, f2, f3, f4, f5, f6, f7, f8⟩ := lits
  refine ⟨⟨⟨f2, f1, f1, f7⟩, ?_, ?_, ?_, ?_, ?_, ?_, ?_, ?_⟩, ⟨⟨f1, f3, f8⟩, ?_, ?_, by norm_num, by norm_num⟩, ?_⟩
  · rw [v2]; norm_num
  · rw [v2]; push_cast; linarith [Real.pi_gt_three]
  · rw [v2]; push_cast
    rw [show (2 : ℝ) / 2 = 1 by norm_num, Real.tan_eq_sin_div_cos, div_le_iff₀ Real.cos_one_pos]
    have a := Real.sin_le_one 1
    have c := Real.one_sub_sq_div_two_le_cos (x := 1)
    linarith
  · rw [v1]; norm_num
  · rw [v1]; norm_num
  · rw [v1]; norm_num
  · rw [v7]; norm_num
  · rw [v1, v7]; norm_num
  · show |((lit 1 : F32).val : ℝ)| ≤ _; rw [v1]; norm_num
  · show |((lit (-2) : F32).val : ℝ)| ≤ _; rw [v3]; norm_num
  · rw [v1]; norm_num

end Zcm
