import Verif.Lemmas.F32Vec3Ops
import Verif.Lemmas.F32InvSqrt
import Verif.Lemmas.F32Approx
import Verif.Spec.Clip
import Verif.Spec.RaySphere

/-!
# Where a ray meets a sphere, in float arithmetic
-/

set_option exponentiation.threshold 300

namespace Zcm

open F32
open scoped RealInnerProductSpace

/-- product of computed numbers -/
theorem near_times {x y : F32} {X Y e f A B : ℝ} (hx : Near x X e) (hy : Near y Y f) (hA : |X| ≤ A) (hB : |Y| ≤ B)
    (h : (A + e) * (B + f) ≤ 2 ^ 120) :
    Near (x * y) (X * Y) (A * f + e * B + e * f + 1 / 2 ^ 24 * ((A + e) * (B + f)) + 1 / 2 ^ 150) := by
  obtain ⟨fx, ex⟩ := hx
  obtain ⟨fy, ey⟩ := hy
  have e0 : 0 ≤ e := (abs_nonneg _).trans ex
  have A0 : 0 ≤ A := (abs_nonneg _).trans hA
  have x1 : |(x.val : ℝ)| ≤ A + e := by
    have := abs_add_le ((x.val : ℝ) - X) X
    rw [sub_add_cancel] at this
    linarith
  have y1 : |(y.val : ℝ)| ≤ B + f := by
    have := abs_add_le ((y.val : ℝ) - Y) Y
    rw [sub_add_cancel] at this
    linarith
  have m : |(x.val : ℝ) * y.val| ≤ (A + e) * (B + f) := by
    rw [abs_mul]
    exact mul_le_mul x1 y1 (abs_nonneg _) (by linarith)
  have fp : (x * y).IsFin = true := by
    refine isFin_mul_of_le fx fy ((Rat.cast_le (K := ℝ)).1 ?_)
    push_cast
    refine (m.trans h).trans ?_
    norm_num
  have e1 := (Rat.cast_le (K := ℝ)).2 (mul_error fx fy fp)
  push_cast at e1
  refine ⟨fp, ?_⟩
  have k : |(x.val : ℝ) * y.val - X * Y| ≤ A * f + e * B + e * f := by
    rw [show (x.val : ℝ) * y.val - X * Y = X * (y.val - Y) + (x.val - X) * Y + (x.val - X) * (y.val - Y) by ring]
    refine (abs_add_three _ _ _).trans ?_
    rw [abs_mul, abs_mul, abs_mul]
    refine add_le_add (add_le_add (mul_le_mul hA ey (abs_nonneg _) A0) (mul_le_mul ex hB (abs_nonneg _) e0))
      (mul_le_mul ex ey (abs_nonneg _) e0)
  have t := abs_add_le (((x * y).val : ℝ) - x.val * y.val) ((x.val : ℝ) * y.val - X * Y)
  rw [sub_add_sub_cancel] at t
  generalize (x.val : ℝ) * y.val = p at *
  generalize (A + e) * (B + f) = q at *
  norm_num at *
  linarith

/-- difference of computed numbers -/
theorem near_minus {x y : F32} {X Y e f R : ℝ} (hx : Near x X e) (hy : Near y Y f) (hR : |X - Y| ≤ R) (h : R + e + f ≤ 2 ^ 120) :
    Near (x - y) (X - Y) (e + f + 1 / 2 ^ 24 * (R + e + f)) := by
  obtain ⟨fx, ex⟩ := hx
  obtain ⟨fy, ey⟩ := hy
  have k : |(x.val : ℝ) - y.val - (X - Y)| ≤ e + f := by
    rw [show (x.val : ℝ) - y.val - (X - Y) = (x.val - X) - (y.val - Y) by ring]
    exact (abs_sub _ _).trans (add_le_add ex ey)
  have m : |(x.val : ℝ) - y.val| ≤ R + e + f := by
    have := abs_add_le ((x.val : ℝ) - y.val - (X - Y)) (X - Y)
    rw [sub_add_cancel] at this
    linarith
  have fs : (x - y).IsFin = true := exactly_sub_finite fx fy (m.trans h)
  refine ⟨fs, ?_⟩
  have e2 := (Rat.cast_le (K := ℝ)).2 (add_error_rel (a := x) (b := -y) (by rw [← sub_eq]; exact fs))
  rw [← sub_eq, val_neg] at e2
  push_cast at e2
  rw [← sub_eq_add_neg] at e2
  have t := abs_add_le (((x - y).val : ℝ) - (x.val - y.val)) ((x.val : ℝ) - y.val - (X - Y))
  rw [sub_add_sub_cancel] at t
  generalize (x.val : ℝ) - y.val = p at *
  norm_num at *
  linarith

/-- square root of a computed number that is known to half its size -/
theorem near_root {x : F32} {X e : ℝ} (hx : Near x X e) (h0 : 0 < X) (he : e ≤ X / 2) :
    Near (FloatOps.sqrt x) (Real.sqrt X) (e / Real.sqrt X + 1 / 2 ^ 24 * (Real.sqrt X + e / Real.sqrt X)) := by
  obtain ⟨fx, ex⟩ := hx
  have p : 0 < (x.val : ℝ) := by have := (abs_le.1 ex).1; linarith
  obtain ⟨fr, er⟩ := sqrt_rel_range fx (by exact_mod_cast p)
  refine ⟨fr, ?_⟩
  have s0 : 0 < Real.sqrt X := Real.sqrt_pos.2 h0
  have r0 := Real.sqrt_nonneg (x.val : ℝ)
  have k : |Real.sqrt x.val - Real.sqrt X| ≤ e / Real.sqrt X := by
    rw [le_div_iff₀ s0]
    have id : (Real.sqrt x.val - Real.sqrt X) * (Real.sqrt x.val + Real.sqrt X) = x.val - X := by
      have a := Real.mul_self_sqrt p.le
      have b := Real.mul_self_sqrt h0.le
      linear_combination a - b
    calc |Real.sqrt x.val - Real.sqrt X| * Real.sqrt X ≤ |Real.sqrt x.val - Real.sqrt X| * |Real.sqrt x.val + Real.sqrt X| := by
          gcongr
          rw [abs_of_nonneg (by linarith)]
          linarith
      _ = |(x.val : ℝ) - X| := by rw [← abs_mul, id]
      _ ≤ e := ex
  have u : Real.sqrt (x.val : ℝ) ≤ Real.sqrt X + e / Real.sqrt X := by have := (abs_le.1 k).2; linarith
  rw [abs_of_nonneg r0] at er
  have t := abs_add_le (((FloatOps.sqrt x).val : ℝ) - Real.sqrt x.val) (Real.sqrt x.val - Real.sqrt X)
  rw [sub_add_sub_cancel] at t
  generalize e / Real.sqrt X = g at *
  generalize Real.sqrt X = q at *
  norm_num at *
  linarith

section

variable {s o d : V3 F32} {r : F32} {M : ℝ}

theorem GoodSphere.norms (h : GoodSphere s r o d M) : 0 < M ∧ ‖exactly d‖ ≤ 1.000001 ∧ 0.999999 ≤ ‖exactly d‖ := by
  have m := h.M_ge
  have u := abs_le.1 h.unit
  refine ⟨lt_of_lt_of_le (by norm_num) m, ?_, ?_⟩ <;> norm_num at u ⊢ <;> linarith

/-- the half-coefficient `b = dot(o - s, d)` -/
theorem near_sphereB (h : GoodSphere s r o d M) :
    NearV (o - s) (exactly o - exactly s) (1 / 2 ^ 24 * M) ∧ |⟪exactly o - exactly s, exactly d⟫| ≤ 1.000001 * M ∧
    Near (V3.dot (o - s) d) ⟪exactly o - exactly s, exactly d⟫ (4.003 / 2 ^ 24 * M) := by
  obtain ⟨M0, d1, -⟩ := h.norms
  have M2 := h.M_le
  have M1 := h.M_ge
  have m1 := h.far_le
  have n0 := norm_nonneg (exactly o - exactly s)
  have m := near_sub (fun i => (h.fin.2 i).2.1) (fun i => (h.fin.2 i).1) (m1.trans (M2.trans (by norm_num)))
  have m' : NearV (o - s) (exactly o - exactly s) (1 / 2 ^ 24 * M) := m.mono (by gcongr)
  have b := m'.dot (NearV.exact fun i => (h.fin.2 i).2.2) (A := 1.0001 * M) (B := 1.000001) (by norm_num; linarith) (by linarith) (by
    norm_num at M2 ⊢; linarith)
  refine ⟨m', ?_, b.1, b.2.trans ?_⟩
  · refine (abs_real_inner_le_norm _ _).trans ?_
    rw [mul_comm]
    gcongr
  · have : 1 / 2 ^ 24 * M * ‖exactly d‖ ≤ 1 / 2 ^ 24 * M * 1.000001 := by gcongr
    norm_num at this M1 ⊢
    linarith

theorem sphereDisc_le (h : GoodSphere s r o d M) :
    |sphereDisc (exactly s) r.val (exactly o) (exactly d)| ≤ 2.00001 * M ^ 2 := by
  obtain ⟨M0, d1, -⟩ := h.norms
  obtain ⟨-, B, -⟩ := near_sphereB h
  have m1 := h.far_le
  have n0 := norm_nonneg (exactly o - exactly s)
  have b2 : ⟪exactly o - exactly s, exactly d⟫ ^ 2 ≤ (1.000001 * M) ^ 2 := sq_le_sq' (by linarith [(abs_le.1 B).1]) (abs_le.1 B).2
  have c2 : ‖exactly o - exactly s‖ ^ 2 ≤ M ^ 2 := by gcongr
  have r2 : (r.val : ℝ) ^ 2 ≤ M ^ 2 := sq_le_sq' (by linarith [(abs_le.1 h.r_le).1]) (abs_le.1 h.r_le).2
  unfold sphereDisc
  rw [abs_le]
  have := sq_nonneg ⟪exactly o - exactly s, exactly d⟫
  have := sq_nonneg ‖exactly o - exactly s‖
  have := sq_nonneg (r.val : ℝ)
  rw [mul_pow] at b2
  norm_num at b2
  constructor <;> linarith

/-- the discriminant -/
theorem near_sphereDisc (h : GoodSphere s r o d M) :
    Near (V3.dot (o - s) d * V3.dot (o - s) d - (V3.dot (o - s) (o - s) - r * r))
      (sphereDisc (exactly s) r.val (exactly o) (exactly d)) (18.1 / 2 ^ 24 * M ^ 2) := by
  obtain ⟨M0, d1, -⟩ := h.norms
  obtain ⟨m, B, b⟩ := near_sphereB h
  have D := sphereDisc_le h
  have M1 := h.M_ge
  have M2 := h.M_le
  have m1 := h.far_le
  have n0 := norm_nonneg (exactly o - exactly s)
  have Q1 : 1 / 2 ^ 60 ≤ M ^ 2 := by
    calc (1 / 2 ^ 60 : ℝ) = (1 / 2 ^ 30) ^ 2 := by norm_num
      _ ≤ _ := by gcongr
  have Q2 : M ^ 2 ≤ 2 ^ 60 := by
    calc M ^ 2 ≤ (2 ^ 30) ^ 2 := by gcongr
      _ = _ := by norm_num
  have bb := near_times b b B B (by
    rw [show (1.000001 * M + 4.003 / 2 ^ 24 * M) * (1.000001 * M + 4.003 / 2 ^ 24 * M) = (1.000001 + 4.003 / 2 ^ 24) ^ 2 * M ^ 2 by ring]
    norm_num at Q2 ⊢; linarith)
  have bb' : Near (V3.dot (o - s) d * V3.dot (o - s) d) (⟪exactly o - exactly s, exactly d⟫ ^ 2) (9.02 / 2 ^ 24 * M ^ 2) := by
    rw [sq]
    refine ⟨bb.1, bb.2.trans ?_⟩
    rw [show 1.000001 * M * (4.003 / 2 ^ 24 * M) + 4.003 / 2 ^ 24 * M * (1.000001 * M) + 4.003 / 2 ^ 24 * M * (4.003 / 2 ^ 24 * M) +
      1 / 2 ^ 24 * ((1.000001 * M + 4.003 / 2 ^ 24 * M) * (1.000001 * M + 4.003 / 2 ^ 24 * M)) + 1 / 2 ^ 150 =
      (1.000001 * (4.003 / 2 ^ 24) + 4.003 / 2 ^ 24 * 1.000001 + 4.003 / 2 ^ 24 * (4.003 / 2 ^ 24) +
        1 / 2 ^ 24 * ((1.000001 + 4.003 / 2 ^ 24) * (1.000001 + 4.003 / 2 ^ 24))) * M ^ 2 + 1 / 2 ^ 150 by ring]
    norm_num at Q1 ⊢
    linarith
  have mm := m.dot m (A := 1.0001 * M) (B := 1.0001 * M) (by norm_num; linarith) (by norm_num; linarith) (by
    rw [show 1.0001 * M * (1.0001 * M) = 1.0001 ^ 2 * M ^ 2 by ring]
    norm_num at Q2 ⊢; linarith)
  have mm' : Near (V3.dot (o - s) (o - s)) (‖exactly o - exactly s‖ ^ 2) (5.003 / 2 ^ 24 * M ^ 2) := by
    rw [← real_inner_self_eq_norm_sq]
    refine ⟨mm.1, mm.2.trans ?_⟩
    have : 1 / 2 ^ 24 * M * ‖exactly o - exactly s‖ ≤ 1 / 2 ^ 24 * M * M := by gcongr
    rw [show 1 / 2 ^ 24 * M * M = 1 / 2 ^ 24 * M ^ 2 by ring] at this
    rw [show 1.0001 * M * (1.0001 * M) = 1.0001 ^ 2 * M ^ 2 by ring,
      show 1.0001 * M * (1 / 2 ^ 24 * M) = 1.0001 / 2 ^ 24 * M ^ 2 by ring]
    norm_num at Q1 this ⊢
    linarith
  have rn : Near r r.val 0 := ⟨h.fin.1, by simp⟩
  have rr := near_times rn rn h.r_le h.r_le (by
    rw [show (M + 0) * (M + 0) = M ^ 2 by ring]
    norm_num at Q2 ⊢; linarith)
  have rr' : Near (r * r) ((r.val : ℝ) ^ 2) (1.001 / 2 ^ 24 * M ^ 2) := by
    rw [sq (r.val : ℝ)]
    refine ⟨rr.1, rr.2.trans ?_⟩
    rw [show M * 0 + 0 * M + 0 * 0 + 1 / 2 ^ 24 * ((M + 0) * (M + 0)) + 1 / 2 ^ 150 = 1 / 2 ^ 24 * M ^ 2 + 1 / 2 ^ 150 by ring]
    norm_num at Q1 ⊢
    linarith
  have c2 : ‖exactly o - exactly s‖ ^ 2 ≤ M ^ 2 := by gcongr
  have r2 : (r.val : ℝ) ^ 2 ≤ M ^ 2 := sq_le_sq' (by linarith [(abs_le.1 h.r_le).1]) (abs_le.1 h.r_le).2
  have c := near_minus mm' rr' (R := M ^ 2) (by
    rw [abs_le]
    have := sq_nonneg ‖exactly o - exactly s‖
    have := sq_nonneg (r.val : ℝ)
    constructor <;> linarith) (by norm_num at Q2 ⊢; linarith)
  have k := near_minus bb' c D (by norm_num at Q2 ⊢; linarith)
  refine ⟨k.1, k.2.trans ?_⟩
  norm_num
  linarith

/-- the distance along the ray, when the discriminant is known to half its size -/
theorem near_sphereTime (h : GoodSphere s r o d M)
    (g : 2 * (18.1 / 2 ^ 24 * M ^ 2) ≤ sphereDisc (exactly s) r.val (exactly o) (exactly d)) :
    |sphereTime (exactly s) r.val (exactly o) (exactly d)| ≤ 2.42 * M ∧
    18.1 / 2 ^ 24 * M ^ 2 / Real.sqrt (sphereDisc (exactly s) r.val (exactly o) (exactly d)) ≤ 0.71 * M ∧
    Near (-V3.dot (o - s) d - FloatOps.sqrt (V3.dot (o - s) d * V3.dot (o - s) d - (V3.dot (o - s) (o - s) - r * r)))
      (sphereTime (exactly s) r.val (exactly o) (exactly d))
      (1 / 2 ^ 24 * (9 * M + 18.2 * (M ^ 2 / Real.sqrt (sphereDisc (exactly s) r.val (exactly o) (exactly d))))) := by
  obtain ⟨M0, d1, -⟩ := h.norms
  obtain ⟨m, B, b⟩ := near_sphereB h
  have D := sphereDisc_le h
  have M1 := h.M_ge
  have M2 := h.M_le
  have k := near_sphereDisc h
  unfold sphereTime
  generalize sphereDisc (exactly s) r.val (exactly o) (exactly d) = Δ at *
  generalize V3.dot (o - s) d * V3.dot (o - s) d - (V3.dot (o - s) (o - s) - r * r) = x at *
  have Δ0 : 0 < Δ := lt_of_lt_of_le (by positivity) g
  have q := near_root k Δ0 (by linarith)
  have s0 : 0 < Real.sqrt Δ := Real.sqrt_pos.2 Δ0
  have s1 : Real.sqrt Δ ≤ 1.415 * M := by
    rw [Real.sqrt_le_iff]
    refine ⟨by positivity, (abs_le.1 D).2.trans ?_⟩
    rw [mul_pow]
    norm_num
    linarith [sq_nonneg M]
  have gl : 18.1 / 2 ^ 24 * M ^ 2 / Real.sqrt Δ ≤ Real.sqrt Δ / 2 := by
    rw [div_le_iff₀ s0]
    have := Real.mul_self_sqrt Δ0.le
    linarith
  have ge : 18.1 / 2 ^ 24 * M ^ 2 / Real.sqrt Δ = 18.1 / 2 ^ 24 * (M ^ 2 / Real.sqrt Δ) := by ring
  have nb : Near (-V3.dot (o - s) d) (-⟪exactly o - exactly s, exactly d⟫) (4.003 / 2 ^ 24 * M) := by
    refine ⟨by simpa using b.1, ?_⟩
    rw [val_neg]
    push_cast
    rw [neg_sub_neg, abs_sub_comm]
    exact b.2
  have T : |-⟪exactly o - exactly s, exactly d⟫ - Real.sqrt Δ| ≤ 2.42 * M := by
    refine (abs_sub _ _).trans ?_
    rw [abs_neg, abs_of_pos s0]
    linarith
  rw [ge] at q gl ⊢
  have t := near_minus nb q T (by norm_num at M2 gl ⊢; linarith)
  refine ⟨T, by linarith, t.1, t.2.trans ?_⟩
  have g0 : 0 ≤ M ^ 2 / Real.sqrt Δ := by positivity
  norm_num at gl ⊢
  linarith

/-- the point -/
theorem near_sphereHit (h : GoodSphere s r o d M)
    (g : 2 * (18.1 / 2 ^ 24 * M ^ 2) ≤ sphereDisc (exactly s) r.val (exactly o) (exactly d)) :
    NearV (o + d * (-V3.dot (o - s) d - FloatOps.sqrt (V3.dot (o - s) d * V3.dot (o - s) d - (V3.dot (o - s) (o - s) - r * r))))
      (sphereHit (exactly s) r.val (exactly o) (exactly d))
      (1 / 2 ^ 24 * (‖exactly o‖ + 16 * M + 19 * (M ^ 2 / Real.sqrt (sphereDisc (exactly s) r.val (exactly o) (exactly d))))) := by
  obtain ⟨M0, d1, -⟩ := h.norms
  obtain ⟨T, gl, t⟩ := near_sphereTime h g
  have M1 := h.M_ge
  have M2 := h.M_le
  have o2 := h.o_le
  have g0 : 0 ≤ M ^ 2 / Real.sqrt (sphereDisc (exactly s) r.val (exactly o) (exactly d)) := by positivity
  rw [show 18.1 / 2 ^ 24 * M ^ 2 / Real.sqrt (sphereDisc (exactly s) r.val (exactly o) (exactly d)) =
    18.1 / 2 ^ 24 * (M ^ 2 / Real.sqrt (sphereDisc (exactly s) r.val (exactly o) (exactly d))) by ring] at gl
  unfold sphereHit
  generalize M ^ 2 / Real.sqrt (sphereDisc (exactly s) r.val (exactly o) (exactly d)) = G at *
  generalize sphereTime (exactly s) r.val (exactly o) (exactly d) = τ at *
  generalize -V3.dot (o - s) d - FloatOps.sqrt (V3.dot (o - s) d * V3.dot (o - s) d - (V3.dot (o - s) (o - s) - r * r)) = x at *
  have dx := NearV.exact fun i => (h.fin.2 i).2.2
  have ox := NearV.exact fun i => (h.fin.2 i).2.1
  have m := dx.scale t.1 t.2 (A := 1.000001) (B := 3.15 * M) (by linarith) (by norm_num at gl ⊢; linarith) (by norm_num at M2 ⊢; linarith)
  have m' := m.mono (f := 1 / 2 ^ 24 * (12.2 * M + 18.21 * G)) (by
    have : 1 / 2 ^ 24 * (9 * M + 18.2 * G) * ‖exactly d‖ ≤ 1 / 2 ^ 24 * (9 * M + 18.2 * G) * 1.000001 := by gcongr
    norm_num at this M1 ⊢
    linarith)
  have qn : ‖τ • exactly d‖ ≤ 2.43 * M := by
    rw [norm_smul, Real.norm_eq_abs]
    calc |τ| * ‖exactly d‖ ≤ 2.42 * M * 1.000001 := by gcongr
      _ ≤ _ := by norm_num; linarith
  have tri := norm_add_le (exactly o) (τ • exactly d)
  have k := ox.add m' (by norm_num at M2 o2 gl ⊢; linarith)
  refine k.mono ?_
  norm_num at gl ⊢
  linarith

end

end Zcm
