import Mathlib.LinearAlgebra.Matrix.NonsingularInverse
import Verif.Lemmas.F32FrustInv
import Verif.Spec.Unproject

/-!
# Undoing perspective projections in binary32
-/

set_option exponentiation.threshold 300

namespace Zcm

open F32

theorem F32.Rel.shift {x : F32} {r r' e f g : ℝ} (h : Rel x r e) (hr : |r - r'| ≤ f * |r'|) (e0 : 0 ≤ e)
    (hg : (1 + e) * (1 + f) ≤ 1 + g) : Rel x r' g := by
  refine ⟨h.fin, ?_⟩
  have n := abs_nonneg r'
  have a : |r| ≤ (1 + f) * |r'| := by
    calc |r| = |r' + (r - r')| := by congr 1; ring
      _ ≤ |r'| + |r - r'| := abs_add_le _ _
      _ ≤ _ := by linarith
  calc |(x.val : ℝ) - r'| ≤ |(x.val : ℝ) - r| + |r - r'| := abs_sub_le _ _ _
    _ ≤ e * |r| + f * |r'| := add_le_add h.err hr
    _ ≤ e * ((1 + f) * |r'|) + f * |r'| := by gcongr
    _ = ((1 + e) * (1 + f) - 1) * |r'| := by ring
    _ ≤ _ := by gcongr; linarith

/-- a quotient of perturbed numbers -/
theorem quot_rel {X Y r s e f d : ℝ} (hs : s ≠ 0) (hx : |X - r| ≤ e * |r|) (hy : |Y - s| ≤ f * |s|)
    (he : 0 ≤ e) (hf : 0 ≤ f) (hf1 : f < 1) (hd : 1 + e ≤ (1 + d) * (1 - f)) : Y ≠ 0 ∧ |X / Y - r / s| ≤ d * |r / s| := by
  have s0 := abs_pos.2 hs
  have r0 := abs_nonneg r
  have yl : (1 - f) * |s| ≤ |Y| := by
    have : |s| ≤ |Y| + |Y - s| := by
      calc |s| = |Y - (Y - s)| := by congr 1; ring
        _ ≤ _ := abs_sub _ _
    linarith
  have y0 : 0 < |Y| := lt_of_lt_of_le (mul_pos (by linarith) s0) yl
  have hY : Y ≠ 0 := abs_pos.1 y0
  refine ⟨hY, ?_⟩
  have : X / Y - r / s = ((X - r) * s - r * (Y - s)) / (Y * s) := by field_simp; ring
  rw [this, abs_div, abs_mul, abs_div, div_le_iff₀ (mul_pos y0 s0)]
  have n : |(X - r) * s - r * (Y - s)| ≤ (e + f) * (|r| * |s|) := by
    refine (abs_sub _ _).trans ?_
    rw [abs_mul, abs_mul]
    calc |X - r| * |s| + |r| * |Y - s| ≤ (e * |r|) * |s| + |r| * (f * |s|) := by gcongr
      _ = _ := by ring
  have d0 : 0 ≤ d := by nlinarith
  have k : d * (|r| / |s|) * (|Y| * |s|) = d * |r| * |Y| := by field_simp
  rw [k]
  refine n.trans ?_
  calc (e + f) * (|r| * |s|) ≤ (d * (1 - f)) * (|r| * |s|) := by gcongr; linarith
    _ = d * |r| * ((1 - f) * |s|) := by ring
    _ ≤ d * |r| * |Y| := by gcongr

/-- the inverse of a perspective matrix, relative to the exact inverse of the ideal matrix -/
theorem frust_inverse_ideal {m : M4 F32} {X Y A B s : ℝ} (hd : Frust m) (h0 : Rel m.c0.x X (6.4 / 2 ^ 24))
    (h1 : Rel m.c1.y Y (6.4 / 2 ^ 24)) (h2 : Rel m.c2.z A (3.3 / 2 ^ 24)) (h3 : Rel m.c3.z B (4.4 / 2 ^ 24))
    (h4 : m.c2.w = lit 1 ∧ s = 1 ∨ m.c2.w = -(lit 1) ∧ s = -1)
    (bX : 1 / 2 ^ 21 ≤ |X| ∧ |X| ≤ 2 ^ 21) (bY : 1 / 2 ^ 21 ≤ |Y| ∧ |Y| ≤ 2 ^ 21) (bA : 1 ≤ |A| ∧ |A| ≤ 3)
    (bB : 1 / 2 ^ 20 ≤ |B| ∧ |B| ≤ 2 ^ 32) :
    InvFrust (M4.inverse m) ∧ Rel (M4.inverse m).c0.x (1 / X) (14.5 / 2 ^ 24) ∧ Rel (M4.inverse m).c1.y (1 / Y) (14.5 / 2 ^ 24) ∧
      Rel (M4.inverse m).c2.w (1 / B) (14.5 / 2 ^ 24) ∧ Rel (M4.inverse m).c3.z s (14.5 / 2 ^ 24) ∧
      Rel (M4.inverse m).c3.w (-(s * A / B)) (14.5 / 2 ^ 24) := by
  have bd : ∀ {x : F32} {r e l u l' u' : ℝ}, Rel x r e → l ≤ |r| ∧ |r| ≤ u → 0 ≤ e → e ≤ 1 / 4 → 0 ≤ l → l' ≤ 3 / 4 * l → 5 / 4 * u ≤ u' →
      l' ≤ |(x.val : ℝ)| ∧ |(x.val : ℝ)| ≤ u' := by
    intro x r e l u l' u' h hr e0 e1 l0 hl hu
    have a := h.abs_le
    have b := h.le_abs
    constructor
    · nlinarith
    · nlinarith [abs_nonneg r]
  have X0 : X ≠ 0 := abs_pos.1 (lt_of_lt_of_le (by norm_num) bX.1)
  have Y0 : Y ≠ 0 := abs_pos.1 (lt_of_lt_of_le (by norm_num) bY.1)
  have B0 : B ≠ 0 := abs_pos.1 (lt_of_lt_of_le (by norm_num) bB.1)
  obtain ⟨z, r0, r1, r2, r3, r4⟩ := frust_inverse hd (Rel.exact h0.fin) (Rel.exact h1.fin) (Rel.exact h2.fin) (Rel.exact h3.fin) h4
    (bd h0 bX (by norm_num) (by norm_num) (by norm_num) (by norm_num) (by norm_num))
    (bd h1 bY (by norm_num) (by norm_num) (by norm_num) (by norm_num) (by norm_num))
    (bd h2 bA (by norm_num) (by norm_num) (by norm_num) (by norm_num) (by norm_num))
    (bd h3 bB (by norm_num) (by norm_num) (by norm_num) (by norm_num) (by norm_num))
  have one : |(1 : ℝ) - 1| ≤ 0 * |(1 : ℝ)| := by norm_num
  refine ⟨z, r0.shift (f := 6.5 / 2 ^ 24) ?_ (by norm_num) (by norm_num), r1.shift (f := 6.5 / 2 ^ 24) ?_ (by norm_num) (by norm_num),
    r2.shift (f := 6.5 / 2 ^ 24) ?_ (by norm_num) (by norm_num), r3.mono (by norm_num),
    r4.shift (f := 8 / 2 ^ 24) ?_ (by norm_num) (by norm_num)⟩
  · exact (quot_rel X0 one h0.err le_rfl (by norm_num) (by norm_num) (by norm_num)).2
  · exact (quot_rel Y0 one h1.err le_rfl (by norm_num) (by norm_num) (by norm_num)).2
  · exact (quot_rel B0 one h3.err le_rfl (by norm_num) (by norm_num) (by norm_num)).2
  · have q := (quot_rel (d := 8 / 2 ^ 24) B0 h2.err h3.err (by norm_num) (by norm_num) (by norm_num) (by norm_num)).2
    have e : -(s * (m.c2.z.val : ℝ) / m.c3.z.val) - -(s * A / B) = -s * ((m.c2.z.val : ℝ) / m.c3.z.val - A / B) := by ring
    rw [e, abs_mul, show |-(s * A / B)| = |-s| * |A / B| by rw [← abs_mul]; congr 1; ring]
    calc |-s| * |(m.c2.z.val : ℝ) / m.c3.z.val - A / B| ≤ |-s| * (8 / 2 ^ 24 * |A / B|) := by gcongr
      _ = _ := by ring

/-- the exact inverse of a perspective matrix -/
theorem frustumMatrix_inv {X Y A B s : ℝ} (hX : X ≠ 0) (hY : Y ≠ 0) (hB : B ≠ 0) (hs : s * s = 1) :
    (frustumMatrix X Y A B s)⁻¹ = !![1 / X, 0, 0, 0; 0, 1 / Y, 0, 0; 0, 0, 0, s; 0, 0, 1 / B, -(s * A / B)] := by
  apply Matrix.inv_eq_right_inv
  ext i j
  fin_cases i <;> fin_cases j <;> simp [frustumMatrix, Matrix.mul_apply, Fin.sum_univ_four, hX, hY, hB, hs]
  field_simp
  ring

/-- the entries of such an inverse -/
theorem invFrust_entries {m : M4 F32} {X Y A B s : ℝ} (hX : X ≠ 0) (hY : Y ≠ 0) (hB : B ≠ 0) (hs : s * s = 1) (z : InvFrust m)
    (r0 : Rel m.c0.x (1 / X) (14.5 / 2 ^ 24)) (r1 : Rel m.c1.y (1 / Y) (14.5 / 2 ^ 24)) (r2 : Rel m.c2.w (1 / B) (14.5 / 2 ^ 24))
    (r3 : Rel m.c3.z s (14.5 / 2 ^ 24)) (r4 : Rel m.c3.w (-(s * A / B)) (14.5 / 2 ^ 24)) (c r : Fin 4) :
    Near (entry m c r) ((frustumMatrix X Y A B s)⁻¹ r c) (15 / 2 ^ 24 * |(frustumMatrix X Y A B s)⁻¹ r c|) := by
  rw [frustumMatrix_inv hX hY hB hs]
  have n : (0 : ℝ) ≤ 15 / 2 ^ 24 * |(0 : ℝ)| := by simp
  have up : ∀ {x : F32} {r : ℝ}, Rel x r (14.5 / 2 ^ 24) → Near x r (15 / 2 ^ 24 * |r|) := fun h =>
    near_of_rel (h.mono (by norm_num))
  fin_cases c <;> fin_cases r
  · exact up r0
  · exact near_z z.h0y n
  · exact near_z z.h0z n
  · exact near_z z.h0w n
  · exact near_z z.h1x n
  · exact up r1
  · exact near_z z.h1z n
  · exact near_z z.h1w n
  · exact near_z z.h2x n
  · exact near_z z.h2y n
  · exact near_z z.h2z n
  · exact up r2
  · exact near_z z.h3x n
  · exact near_z z.h3y n
  · exact up r3
  · exact up r4

theorem invFrust_rows {m : M4 F32} (z : InvFrust m) {v : V3 F32} (fx : v.x.IsFin = true) (fy : v.y.IsFin = true)
    (fz : v.z.IsFin = true) :
    SameNumber (m * V4.ofXYZ_W v (lit 1)).x (m.c0.x * v.x) ∧ SameNumber (m * V4.ofXYZ_W v (lit 1)).y (m.c1.y * v.y) ∧
    SameNumber (m * V4.ofXYZ_W v (lit 1)).z m.c3.z ∧ SameNumber (m * V4.ofXYZ_W v (lit 1)).w (m.c2.w * v.z + m.c3.w) := by
  obtain ⟨rx, ry, rz, rw'⟩ := mulV_rows m (V4.ofXYZ_W v (lit 1))
  rw [rx, ry, rz, rw']
  have w : (V4.ofXYZ_W v (lit 1)).w = lit 1 := rfl
  rw [w, mul_one', mul_one', mul_one', mul_one']
  exact ⟨same4_0 (z.h1x.mulL fy) (z.h2x.mulL fz) z.h3x, same4_1 (z.h0y.mulL fx) (z.h2y.mulL fz) z.h3y,
    (same4_23 (z.h0z.mulL fx) (z.h1z.mulL fy)).trans (.zAdd (z.h2z.mulL fz)), same4_23 (z.h0w.mulL fx) (z.h1w.mulL fy)⟩

/-- the division at the end -/
theorem unproject_div {N W : F32} {x d n a τ : ℝ} (hN : Near N (x / d) (a / 2 ^ 24 * |x / d| + τ)) (hW : Near W (1 / d) (64 / 2 ^ 24 / n))
    (n0 : 0 < n) (nd : n ≤ d) (dn : d ≤ 2 ^ 16 * n) (d1 : d ≤ 2 ^ 30) (t1 : τ ≤ 1 / 2 ^ 92) (a1 : a ≤ 29)
    (hx : |x| ≤ 2 ^ 100) : Near (N / W) x (128 / 2 ^ 24 * (d / n) * |x| + 1 / 2 ^ 60) := by
  have d0 : 0 < d := n0.trans_le nd
  obtain ⟨fN, eN⟩ := hN
  obtain ⟨fW, eW⟩ := hW
  set k := d / n with hk
  have k1 : 1 ≤ k := by rw [hk, le_div_iff₀ n0]; linarith
  have k2 : k ≤ 2 ^ 16 := by rw [hk, div_le_iff₀ n0]; exact dn
  have ax := abs_nonneg x
  have w : |(W.val : ℝ) * d - 1| ≤ 64 / 2 ^ 24 * k := by
    have : (W.val : ℝ) * d - 1 = (W.val - 1 / d) * d := by field_simp
    rw [this, abs_mul, abs_of_pos d0]
    calc |(W.val : ℝ) - 1 / d| * d ≤ 64 / 2 ^ 24 / n * d := by gcongr
      _ = _ := by rw [hk]; ring
  have nn : |(N.val : ℝ) * d - x| ≤ a / 2 ^ 24 * |x| + τ * d := by
    have : (N.val : ℝ) * d - x = (N.val - x / d) * d := by field_simp
    rw [this, abs_mul, abs_of_pos d0]
    calc |(N.val : ℝ) - x / d| * d ≤ (a / 2 ^ 24 * |x / d| + τ) * d := by gcongr
      _ = _ := by rw [abs_div, abs_of_pos d0]; field_simp
  have w2 := abs_le.1 w
  have w34 : 3 / 4 ≤ (W.val : ℝ) * d := by linarith
  have Wpos : (0 : ℝ) < W.val := by
    by_contra hc
    have : (W.val : ℝ) * d ≤ 0 := mul_nonpos_of_nonpos_of_nonneg (not_lt.1 hc) d0.le
    linarith
  have Wne : W.val ≠ 0 := by
    intro h
    rw [h, Rat.cast_zero] at Wpos
    exact lt_irrefl _ Wpos
  have q : |((N.val / W.val : ℚ) : ℝ) - x| ≤ 125.4 / 2 ^ 24 * k * |x| + 1 / 2 ^ 61 := by
    push_cast
    have e : (N.val : ℝ) / W.val - x = ((N.val * d - x) - x * (W.val * d - 1)) / (W.val * d) := by
      have := Wpos.ne'
      field_simp
      ring
    rw [e, abs_div, abs_of_pos (show 0 < (W.val : ℝ) * d by linarith), div_le_iff₀ (by linarith)]
    have t2 : τ * d ≤ 1 / 2 ^ 62 := by
      calc τ * d ≤ 1 / 2 ^ 92 * 2 ^ 30 := by gcongr
        _ = _ := by norm_num
    have kx : |x| ≤ k * |x| := le_mul_of_one_le_left ax k1
    have kx0 : 0 ≤ k * |x| := ax.trans kx
    calc |((N.val : ℝ) * d - x) - x * (W.val * d - 1)| ≤ |(N.val : ℝ) * d - x| + |x| * |(W.val : ℝ) * d - 1| := by
          rw [← abs_mul]; exact abs_sub _ _
      _ ≤ (a / 2 ^ 24 * |x| + τ * d) + |x| * (64 / 2 ^ 24 * k) := by gcongr
      _ ≤ (29 / 2 ^ 24 * (k * |x|) + 1 / 2 ^ 62) + 64 / 2 ^ 24 * (k * |x|) := by
          have : a / 2 ^ 24 * |x| ≤ 29 / 2 ^ 24 * (k * |x|) := by gcongr
          linarith
      _ ≤ 3 / 4 * (125.4 / 2 ^ 24 * k * |x| + 1 / 2 ^ 61) := by linarith
      _ ≤ (125.4 / 2 ^ 24 * k * |x| + 1 / 2 ^ 61) * (W.val * d) := by
          rw [mul_comm]
          gcongr
  have kx : k * |x| ≤ 2 ^ 16 * |x| := by gcongr
  have qa : |((N.val / W.val : ℚ) : ℝ)| ≤ 1.5 * |x| + 1 / 2 ^ 61 := by
    calc |((N.val / W.val : ℚ) : ℝ)| = |x + (((N.val / W.val : ℚ) : ℝ) - x)| := by congr 1; ring
      _ ≤ |x| + |((N.val / W.val : ℚ) : ℝ) - x| := abs_add_le _ _
      _ ≤ |x| + (125.4 / 2 ^ 24 * (k * |x|) + 1 / 2 ^ 61) := by
          have := q
          rw [mul_assoc] at this
          linarith
      _ ≤ _ := by linarith
  have E := div_fin fN fW Wne
  have f : (N / W).IsFin = true := by
    rw [E]
    apply isFin_round
    have : ((|N.val / W.val| : ℚ) : ℝ) ≤ (((2 ^ 24 - 1) * 2 ^ 104 : ℚ) : ℝ) := by
      rw [Rat.cast_abs]
      refine qa.trans ?_
      push_cast
      linarith
    exact Rat.cast_le.1 this
  refine ⟨f, ?_⟩
  rw [E] at f ⊢
  have R := round_error_real f
  have tri := abs_sub_le ((round (N.sgn ^^ W.sgn) (N.val / W.val)).val : ℝ) ((N.val / W.val : ℚ) : ℝ) x
  have kx1 : |x| ≤ k * |x| := le_mul_of_one_le_left ax k1
  rw [mul_assoc] at q ⊢
  linarith

/-- Undoing a projection: `v` is close to the projection of the point `x, y, ±d`, and `b z + a = 1 / d`. -/
theorem unproject_near {m : M4 F32} {X Y b a s x y z d n δ : ℝ} (hz : InvFrust m)
    (r0 : Rel m.c0.x (1 / X) (14.5 / 2 ^ 24)) (r1 : Rel m.c1.y (1 / Y) (14.5 / 2 ^ 24)) (r2 : Rel m.c2.w b (14.5 / 2 ^ 24))
    (r3 : Rel m.c3.z s (14.5 / 2 ^ 24)) (r4 : Rel m.c3.w a (14.5 / 2 ^ 24)) (hs : |s| = 1)
    (bX : 1 / 2 ^ 21 ≤ |X|) (bY : 1 / 2 ^ 21 ≤ |Y|) {v : V3 F32}
    (vx : Near v.x (X * x / d) (9 / 2 ^ 24 * |X * x / d| + 1 / 2 ^ 117)) (vy : Near v.y (Y * y / d) (9 / 2 ^ 24 * |Y * y / d| + 1 / 2 ^ 117))
    (vz : Near v.z z δ) (z1 : |z| ≤ 1) (bz : b * z + a = 1 / d) (hab : |b| + |a| ≤ 2 / n) (hδ : |b| * δ ≤ 28.1 / 2 ^ 24 / n)
    (δ1 : δ ≤ 1 / 2 ^ 10) (n1 : 1 / 2 ^ 20 ≤ n) (nd : n ≤ d) (dn : d ≤ 2 ^ 16 * n) (d1 : d ≤ 2 ^ 30) (hx : |x| ≤ 2 ^ 60) (hy : |y| ≤ 2 ^ 60) :
    Near (divided m v).x x (128 / 2 ^ 24 * (d / n) * |x| + 1 / 2 ^ 60) ∧
    Near (divided m v).y y (128 / 2 ^ 24 * (d / n) * |y| + 1 / 2 ^ 60) ∧
    Near (divided m v).z (s * d) (128 / 2 ^ 24 * (d / n) * |s * d| + 1 / 2 ^ 60) := by
  obtain ⟨sx, sy, sz, sw⟩ := invFrust_rows hz vx.1 vy.1 vz.1
  have n0 : 0 < n := lt_of_lt_of_le (by norm_num) n1
  have d0 : 0 < d := n0.trans_le nd
  have n2 : n ≤ 2 ^ 30 := nd.trans d1
  have ni : 1 / 2 ^ 30 ≤ 1 / n := one_div_le_one_div_of_le n0 n2
  have ni2 : 1 / n ≤ 2 ^ 20 := by rw [div_le_iff₀ n0]; linarith
  have hab' : |b| + |a| ≤ 2 * (1 / n) := hab.trans (by rw [mul_one_div])
  have hδ' : |b| * δ ≤ 28.1 / 2 ^ 24 * (1 / n) := hδ.trans (by rw [mul_one_div])
  have ab := abs_nonneg b
  have aa := abs_nonneg a
  -- the fourth component
  have W : Near (m * V4.ofXYZ_W v (lit 1)).w (1 / d) (64 / 2 ^ 24 / n) := by
    refine Near.same sw ?_
    have zv : |(v.z.val : ℝ)| ≤ 1 + 1 / 2 ^ 10 := by
      calc |(v.z.val : ℝ)| = |z + (v.z.val - z)| := by congr 1; ring
        _ ≤ |z| + |(v.z.val : ℝ) - z| := abs_add_le _ _
        _ ≤ _ := add_le_add z1 (vz.2.trans δ1)
    have bv : |b * v.z.val| ≤ 1.001 * |b| := by
      rw [abs_mul]
      nlinarith
    have P := Rel.mul' (g := 15.6 / 2 ^ 24) r2 (Rel.exact vz.1) (by norm_num) (by norm_num) (by linarith)
    have bd : |b * v.z.val - b * z| ≤ 28.1 / 2 ^ 24 * (1 / n) := by
      rw [← mul_sub, abs_mul]
      exact (mul_le_mul_of_nonneg_left vz.2 ab).trans hδ'
    have P2 : |((m.c2.w * v.z).val : ℝ) - b * z| ≤ 15.7 / 2 ^ 24 * |b| + 1 / 2 ^ 150 + 28.1 / 2 ^ 24 * (1 / n) := by
      have := abs_sub_le ((m.c2.w * v.z).val : ℝ) (b * v.z.val) (b * z)
      have := P.2
      linarith
    have bz1 : |b * z| ≤ |b| := by rw [abs_mul]; exact mul_le_of_le_one_right ab z1
    have Z := add_close P.1 r4.fin P2 r4.err (by linarith)
    rw [bz] at Z
    refine ⟨Z.1, Z.2.trans ?_⟩
    rw [show 64 / 2 ^ 24 / n = 64 / 2 ^ 24 * (1 / n) by rw [mul_one_div]]
    linarith
  -- the first two components
  have side : ∀ {k u : F32} {K t : ℝ}, Rel k (1 / K) (14.5 / 2 ^ 24) → 1 / 2 ^ 21 ≤ |K| → |t| ≤ 2 ^ 60 →
      Near u (K * t / d) (9 / 2 ^ 24 * |K * t / d| + 1 / 2 ^ 117) →
      Near (k * u) (t / d) (26 / 2 ^ 24 * |t / d| + 1 / 2 ^ 92) := by
    intro k u K t hk hK ht hu
    have K0 : 0 < |K| := lt_of_lt_of_le (by norm_num) hK
    have Kne := abs_pos.1 K0
    have iK : |1 / K| ≤ 2 ^ 21 := by
      rw [abs_div, abs_one, div_le_iff₀ K0]; linarith
    have e : 1 / K * (K * t / d) = t / d := by field_simp
    have q : |1 / K * u.val - t / d| ≤ 9 / 2 ^ 24 * |t / d| + 1 / 2 ^ 96 := by
      rw [← e, ← mul_sub, abs_mul]
      calc |1 / K| * |(u.val : ℝ) - K * t / d| ≤ |1 / K| * (9 / 2 ^ 24 * |K * t / d| + 1 / 2 ^ 117) := by gcongr; exact hu.2
        _ = 9 / 2 ^ 24 * |1 / K * (K * t / d)| + |1 / K| * (1 / 2 ^ 117) := by rw [abs_mul]; ring
        _ ≤ 9 / 2 ^ 24 * |1 / K * (K * t / d)| + 2 ^ 21 * (1 / 2 ^ 117) := by gcongr
        _ = _ := by norm_num
    have td : |t / d| ≤ 2 ^ 80 := by
      rw [abs_div, abs_of_pos d0, div_le_iff₀ d0]
      calc |t| ≤ 2 ^ 80 * (1 / 2 ^ 20) := ht.trans (by norm_num)
        _ ≤ _ := by gcongr; exact n1.trans nd
    have tn := abs_nonneg (t / d)
    have q2 : |1 / K * u.val| ≤ (1 + 9 / 2 ^ 24) * |t / d| + 1 / 2 ^ 96 := by
      calc |1 / K * u.val| = |t / d + (1 / K * u.val - t / d)| := by congr 1; ring
        _ ≤ |t / d| + |1 / K * u.val - t / d| := abs_add_le _ _
        _ ≤ _ := by linarith
    have P := Rel.mul' (g := 15.6 / 2 ^ 24) hk (Rel.exact hu.1) (by norm_num) (by norm_num) (by linarith)
    refine ⟨P.1, ?_⟩
    have := abs_sub_le ((k * u).val : ℝ) (1 / K * u.val) (t / d)
    have := P.2
    linarith
  have t92 : (1 : ℝ) / 2 ^ 92 ≤ 1 / 2 ^ 92 := le_rfl
  refine ⟨?_, ?_, ?_⟩
  · exact unproject_div (Near.same sx (side r0 bX hx vx)) W n0 nd dn d1 t92 (by norm_num) (hx.trans (by norm_num))
  · exact unproject_div (Near.same sy (side r1 bY hy vy)) W n0 nd dn d1 t92 (by norm_num) (hy.trans (by norm_num))
  · refine unproject_div (x := s * d) (a := 14.5) (τ := 0) (Near.same sz ?_) W n0 nd dn d1 (by norm_num) (by norm_num) ?_
    · rw [mul_div_assoc, div_self d0.ne', mul_one, add_zero]
      exact near_of_rel r3
    · rw [abs_mul, hs, one_mul, abs_of_pos d0]
      exact d1.trans (by norm_num)

/-- A perspective matrix can be inverted, and the inverse undoes it. -/
theorem frust_undone {m : M4 F32} {X Y A B s n f : ℝ} {depth : ℝ → ℝ} (hd : Frust m) (h0 : Rel m.c0.x X (6.4 / 2 ^ 24))
    (h1 : Rel m.c1.y Y (6.4 / 2 ^ 24)) (h2 : Rel m.c2.z A (3.3 / 2 ^ 24)) (h3 : Rel m.c3.z B (4.4 / 2 ^ 24))
    (h4 : m.c2.w = lit 1 ∧ s = 1 ∨ m.c2.w = -(lit 1) ∧ s = -1)
    (bX : 1 / 2 ^ 21 ≤ |X| ∧ |X| ≤ 2 ^ 21) (bY : 1 / 2 ^ 21 ≤ |Y| ∧ |Y| ≤ 2 ^ 21) (bA : 1 ≤ |A| ∧ |A| ≤ 3)
    (bB : n ≤ |B| ∧ |B| ≤ 4 * n) (bAB : n * |A| ≤ |B|) (n1 : 1 / 2 ^ 20 ≤ n) (nf : f ≤ 2 ^ 16 * n) (f1 : f ≤ 2 ^ 30) (n_f : n ≤ f)
    (hdep : ∀ d, n ≤ d → d ≤ f → A * (s * d) + B = d * depth d ∧ |depth d| ≤ 1) :
    (∀ c r, Near (entry (M4.inverse m) c r) ((frustumMatrix X Y A B s)⁻¹ r c) (15 / 2 ^ 24 * |(frustumMatrix X Y A B s)⁻¹ r c|)) ∧
    (∀ (v : V3 F32) (x y d : ℝ), v.x.IsFin = true → v.y.IsFin = true → v.z.IsFin = true → n ≤ d → d ≤ f → |x| ≤ 2 ^ 60 → |y| ≤ 2 ^ 60 →
      v.x.val = X * x / d → v.y.val = Y * y / d → v.z.val = depth d →
      Near (divided (M4.inverse m) v).x x (128 / 2 ^ 24 * (d / n) * |x| + 1 / 2 ^ 60) ∧
      Near (divided (M4.inverse m) v).y y (128 / 2 ^ 24 * (d / n) * |y| + 1 / 2 ^ 60) ∧
      Near (divided (M4.inverse m) v).z (s * d) (128 / 2 ^ 24 * (d / n) * |s * d| + 1 / 2 ^ 60)) ∧
    (∀ (p : V3 F32) (d : ℝ), InFront p d → d = s * p.z.val → n ≤ d → d ≤ f → ∀ i,
      Near (coord (divided (M4.inverse m) (divided m p)) i) (coord p i).val (128 / 2 ^ 24 * (d / n) * |((coord p i).val : ℝ)| + 1 / 2 ^ 60)) := by
  have s1 : |s| = 1 := by rcases h4 with ⟨-, rfl⟩ | ⟨-, rfl⟩ <;> norm_num
  have ss : s * s = 1 := by rcases h4 with ⟨-, rfl⟩ | ⟨-, rfl⟩ <;> norm_num
  have n0 : 0 < n := lt_of_lt_of_le (by norm_num) n1
  have X0 : X ≠ 0 := abs_pos.1 (lt_of_lt_of_le (by norm_num) bX.1)
  have Y0 : Y ≠ 0 := abs_pos.1 (lt_of_lt_of_le (by norm_num) bY.1)
  have aB : 0 < |B| := lt_of_lt_of_le n0 bB.1
  have B0 : B ≠ 0 := abs_pos.1 aB
  obtain ⟨z, r0, r1, r2, r3, r4⟩ := frust_inverse_ideal hd h0 h1 h2 h3 h4 bX bY bA ⟨n1.trans bB.1, by linarith⟩
  have iB : |1 / B| ≤ 1 / n := by rw [abs_div, abs_one]; exact one_div_le_one_div_of_le n0 bB.1
  have iA : |-(s * A / B)| ≤ 1 / n := by
    rw [abs_neg, abs_div, abs_mul, s1, one_mul, div_le_div_iff₀ aB n0]
    linarith
  have hab : |1 / B| + |-(s * A / B)| ≤ 2 / n := by
    rw [show 2 / n = 1 / n + 1 / n by ring]; exact add_le_add iB iA
  have bz : ∀ d, n ≤ d → d ≤ f → 1 / B * depth d + -(s * A / B) = 1 / d := by
    intro d h h'
    have d0 : d ≠ 0 := (n0.trans_le h).ne'
    have e := (hdep d h h').1
    field_simp
    linear_combination -e
  refine ⟨invFrust_entries X0 Y0 B0 ss z r0 r1 r2 r3 r4, ?_, ?_⟩
  · intro v x y d fx fy fz nd df hx hy ex ey ez
    have tiny : (0 : ℝ) ≤ 1 / 2 ^ 117 := by norm_num
    exact unproject_near (δ := 0) z r0 r1 r2 r3 r4 s1 bX.1 bY.1 (near_exact fx ex (by positivity)) (near_exact fy ey (by positivity))
      (near_exact fz ez le_rfl) (hdep d nd df).2 (bz d nd df) hab (by rw [mul_zero]; positivity) (by norm_num) n1 nd
      (df.trans nf) (df.trans f1) hx hy
  · intro p d hp ed nd df
    have d0 : 0 < d := n0.trans_le nd
    have pz : (p.z.val : ℝ) = s * d := by rw [ed, ← mul_assoc, ss, one_mul]
    obtain ⟨-, q0, q1, q2⟩ := frust_point (s := s) hd h0 h1 h2 h3 h4 hp ed (bX.2.trans (by norm_num)) (bY.2.trans (by norm_num))
      (bA.2.trans (by norm_num)) (by linarith)
    rw [pz, (hdep d nd df).1, mul_div_cancel_left₀ _ d0.ne'] at q2
    have k : |B| / d ≤ 4 := by rw [div_le_iff₀ d0]; linarith
    have key := unproject_near (s := s) (v := divided m p) (n := n) (d := d) (b := 1 / B) (a := -(s * A / B))
      (z := depth d) (δ := 7 / 2 ^ 24 * ((|A| * d + |B|) / d) + 1 / 2 ^ 117) z r0 r1 r2 r3 r4 s1 bX.1 bY.1 q0 q1 q2 (hdep d nd df).2 (bz d nd df)
      hab ?_ ?_ n1 nd (df.trans nf) (df.trans f1) (hp.2.1.trans (by norm_num)) (hp.2.2.1.trans (by norm_num))
    · rw [← pz] at key
      intro i
      fin_cases i
      · exact key.1
      · exact key.2.1
      · exact key.2.2
    · have e1 : |1 / B| * (7 / 2 ^ 24 * ((|A| * d + |B|) / d) + 1 / 2 ^ 117) = 7 / 2 ^ 24 * (|A| / |B| + 1 / d) + 1 / 2 ^ 117 * |1 / B| := by
        rw [abs_div, abs_one]; field_simp
      have e2 : |A| / |B| ≤ 1 / n := by rw [div_le_div_iff₀ aB n0]; linarith
      have e3 : 1 / d ≤ 1 / n := one_div_le_one_div_of_le n0 nd
      have e4 : 0 ≤ 1 / n := by positivity
      rw [e1, show 28.1 / 2 ^ 24 / n = 28.1 / 2 ^ 24 * (1 / n) by rw [mul_one_div]]
      linarith
    · rw [add_div, mul_div_cancel_right₀ _ d0.ne']
      have := bA.2
      linarith

end Zcm
