import Verif.Spec.Triangle
import Verif.Lemmas.F32Vec3
import Verif.Lemmas.F32Compose
import Verif.Lemmas.F32VecAngle

/-!
# Lemmas: triangle normals in float arithmetic
-/

set_option exponentiation.threshold 300

namespace Zcm

open F32 InnerProductGeometry
open scoped RealInnerProductSpace

/-! ### Reversing the winding -/

theorem F32.SameNumber.mulAny {x y : F32} (h : SameNumber x y) (a : F32) : SameNumber (x * a) (y * a) := by
  rcases h with rfl | ⟨fx, fy, zx, zy⟩
  · exact .rfl
  · have zero : ∀ z : F32, z.IsFin = true → z.val = 0 → ∀ s, z * (.inf s : F32) = .nan := by
      intro z fz vz s
      cases z with
      | nan => simp [IsFin] at fz
      | inf t => simp [IsFin] at fz
      | fin t k hk =>
        have : k = 0 := by
          by_contra h0
          have : (0 : ℚ) < k := by exact_mod_cast Nat.pos_of_ne_zero h0
          cases t <;> simp [val, key] at vz <;> omega
        subst this
        rfl
    cases a with
    | nan => rw [mul_nan, mul_nan]; exact .rfl
    | inf s => rw [zero x fx zx, zero y fy zy]; exact .rfl
    | fin s k hk => exact SameNumber.mulR (.inr ⟨fx, fy, zx, zy⟩) _root_.rfl

theorem F32.SameNumber.sq {x y : F32} (h : SameNumber x y) : x * x = y * y := by
  rcases h with rfl | ⟨fx, fy, zx, zy⟩
  · rfl
  · rw [mul_fin fx fx, mul_fin fy fy, zx, zy, Bool.xor_self, Bool.xor_self]

theorem normalize_same {v w : V3 F32} (h : ∀ i, SameNumber (coord v i) (coord w i)) (i : Fin 3) :
    SameNumber (coord (V3.normalize v) i) (coord (V3.normalize w) i) := by
  have d : V3.dot v v = V3.dot w w := by
    have e0 := (h 0).sq
    have e1 := (h 1).sq
    have e2 := (h 2).sq
    change v.x * v.x = w.x * w.x at e0
    change v.y * v.y = w.y * w.y at e1
    change v.z * v.z = w.z * w.z at e2
    unfold V3.dot
    rw [e0, e1, e2]
  have e : ∀ u : V3 F32, coord (V3.normalize u) i = coord u i * F.inversesqrt (V3.dot u u) := fun u => by
    fin_cases i <;> rfl
  rw [e, e, d]
  exact (h i).mulAny _

/-! ### Accuracy -/

theorem triangle_cross {a b c : V3 F32} (h : GoodTriangle a b c) :
    NearV (V3.cross (b - a) (c - a)) (cross3 (exactly b - exactly a) (exactly c - exactly a))
      (6.01 / 2 ^ 24 * (‖exactly b - exactly a‖ * ‖exactly c - exactly a‖)) := by
  have e1 := near_sub (fun i => (h.fin i).2.1) (fun i => (h.fin i).1) (h.ab_le.trans (by norm_num))
  have e2 := near_sub (fun i => (h.fin i).2.2) (fun i => (h.fin i).1) (h.ac_le.trans (by norm_num))
  have p1 := h.ab_ge
  have p2 := h.ac_ge
  have q1 := h.ab_le
  have q2 := h.ac_le
  have n := e1.cross e2 (A := (1 + 1 / 2 ^ 24) * ‖exactly b - exactly a‖) (B := (1 + 1 / 2 ^ 24) * ‖exactly c - exactly a‖)
    (by linarith) (by linarith) (by
      calc (1 + 1 / 2 ^ 24) * ‖exactly b - exactly a‖ * ((1 + 1 / 2 ^ 24) * ‖exactly c - exactly a‖)
          ≤ (1 + 1 / 2 ^ 24) * 2 ^ 31 * ((1 + 1 / 2 ^ 24) * 2 ^ 31) := by gcongr
        _ ≤ _ := by norm_num)
  refine n.mono ?_
  have P : 1 / 2 ^ 16 * (1 / 2 ^ 16) ≤ ‖exactly b - exactly a‖ * ‖exactly c - exactly a‖ :=
    mul_le_mul p1 p2 (by norm_num) (norm_nonneg _)
  generalize ‖exactly b - exactly a‖ = x at *
  generalize ‖exactly c - exactly a‖ = y at *
  have : 4.002 / 2 ^ 24 * ((1 + 1 / 2 ^ 24) * x * ((1 + 1 / 2 ^ 24) * y)) + 1 / 2 ^ 147 + 1 / 2 ^ 24 * x * y +
      (1 + 1 / 2 ^ 24) * x * (1 / 2 ^ 24 * y) =
      (4.002 / 2 ^ 24 * (1 + 1 / 2 ^ 24) ^ 2 + 1 / 2 ^ 24 + (1 + 1 / 2 ^ 24) * (1 / 2 ^ 24)) * (x * y) + 1 / 2 ^ 147 := by ring
  rw [this]
  generalize x * y = z at *
  norm_num at P ⊢
  linarith

theorem triangle_size {a b c : V3 F32} (h : GoodTriangle a b c) :
    ‖cross3 (exactly b - exactly a) (exactly c - exactly a)‖ =
      ‖exactly b - exactly a‖ * ‖exactly c - exactly a‖ * cornerSine (exactly a) (exactly b) (exactly c) ∧
    1 / 2 ^ 48 ≤ ‖cross3 (exactly b - exactly a) (exactly c - exactly a)‖ ∧
    ‖cross3 (exactly b - exactly a) (exactly c - exactly a)‖ ≤ 2 ^ 62 ∧
    0 < ‖exactly b - exactly a‖ * ‖exactly c - exactly a‖ := by
  have e : ‖cross3 (exactly b - exactly a) (exactly c - exactly a)‖ =
      ‖exactly b - exactly a‖ * ‖exactly c - exactly a‖ * cornerSine (exactly a) (exactly b) (exactly c) := norm_cross3 _ _
  have P : 1 / 2 ^ 16 * (1 / 2 ^ 16) ≤ ‖exactly b - exactly a‖ * ‖exactly c - exactly a‖ :=
    mul_le_mul h.ab_ge h.ac_ge (by norm_num) (norm_nonneg _)
  refine ⟨e, ?_, ?_, lt_of_lt_of_le (by norm_num) P⟩
  · rw [e]
    refine le_trans ?_ (mul_le_mul P h.sine_ge (by norm_num) (by positivity))
    norm_num
  · refine (norm_cross3_le _ _).trans ((mul_le_mul h.ab_le h.ac_le (norm_nonneg _) (by norm_num)).trans ?_)
    norm_num

theorem triangle_normal {a b c : V3 F32} (h : GoodTriangle a b c) :
    NearV (V3.normalize (V3.cross (b - a) (c - a))) (triangleNormal (exactly a) (exactly b) (exactly c))
      (19 / 2 ^ 24 / cornerSine (exactly a) (exactly b) (exactly c)) := by
  have n := triangle_cross h
  obtain ⟨e, l, u, p⟩ := triangle_size h
  have s := h.sine_ge
  have s1 : cornerSine (exactly a) (exactly b) (exactly c) ≤ 1 := Real.sin_le_one _
  have m := n.normalize (le_trans (by norm_num) l) u (by
    rw [e]
    generalize ‖exactly b - exactly a‖ * ‖exactly c - exactly a‖ = z at *
    generalize cornerSine (exactly a) (exactly b) (exactly c) = k at *
    rw [mul_div_assoc, mul_comm (6.01 / 2 ^ 24)]
    refine mul_le_mul_of_nonneg_left ?_ p.le
    norm_num at s ⊢
    linarith)
  refine m.mono ?_
  rw [e]
  generalize ‖exactly b - exactly a‖ * ‖exactly c - exactly a‖ = z at *
  generalize cornerSine (exactly a) (exactly b) (exactly c) = k at *
  have k0 : 0 < k := lt_of_lt_of_le (by norm_num) s
  have : 2 * (6.01 / 2 ^ 24 * z) / (z * k) = 12.02 / 2 ^ 24 / k := by
    field_simp; norm_num
  rw [this, le_div_iff₀ k0, add_mul, div_mul_cancel₀ _ k0.ne']
  norm_num
  linarith

theorem norm_triangleNormal {a b c : V3 F32} (h : GoodTriangle a b c) :
    ‖triangleNormal (exactly a) (exactly b) (exactly c)‖ = 1 := by
  obtain ⟨e, l, -, -⟩ := triangle_size h
  exact NormedSpace.norm_normalize (norm_pos_iff.1 (lt_of_lt_of_le (by norm_num) l))

/-- The height of a point above the plane of a triangle. -/
theorem triangle_height {a b c p : V3 F32} (h : GoodTriangle a b c) (hp : ∀ i, (coord p i).IsFin = true)
    (h1 : 1 / 2 ^ 100 ≤ ‖exactly p - exactly a‖) (h2 : ‖exactly p - exactly a‖ ≤ 2 ^ 100) :
    Near (V3.dot (V3.normalize (V3.cross (b - a) (c - a))) (p - a))
      ⟪triangleNormal (exactly a) (exactly b) (exactly c), exactly p - exactly a⟫
      (24 / 2 ^ 24 / cornerSine (exactly a) (exactly b) (exactly c) * ‖exactly p - exactly a‖) := by
  have n := triangle_normal h
  have u := norm_triangleNormal h
  have d := near_sub hp (fun i => (h.fin i).1) (h2.trans (by norm_num))
  have s := h.sine_ge
  have s1 : cornerSine (exactly a) (exactly b) (exactly c) ≤ 1 := Real.sin_le_one _
  have k0 : 0 < cornerSine (exactly a) (exactly b) (exactly c) := lt_of_lt_of_le (by norm_num) s
  have t : 19 / 2 ^ 24 / cornerSine (exactly a) (exactly b) (exactly c) ≤ 1 / 2 ^ 3 := by
    rw [div_le_iff₀ k0]; norm_num at s ⊢; linarith
  obtain ⟨f, e⟩ := n.dot d (A := 1 + 1 / 2 ^ 3) (B := (1 + 1 / 2 ^ 24) * ‖exactly p - exactly a‖) (by rw [u]; linarith) (by linarith)
    (by norm_num at h2 ⊢; linarith)
  refine ⟨f, e.trans ?_⟩
  generalize ‖exactly p - exactly a‖ = D at *
  generalize cornerSine (exactly a) (exactly b) (exactly c) = k at *
  have i1 : 1 ≤ 1 / k := by rw [le_div_iff₀ k0]; linarith
  have D0 : 0 ≤ D := le_trans (by norm_num) h1
  have r1 : 19 / 2 ^ 24 / k * D = 19 / 2 ^ 24 * (1 / k * D) := by ring
  have r2 : 24 / 2 ^ 24 / k * D = 24 / 2 ^ 24 * (1 / k * D) := by ring
  have i2 : D ≤ 1 / k * D := le_mul_of_one_le_left D0 i1
  rw [r1, r2]
  generalize 1 / k * D = W at *
  norm_num at h1 ⊢
  linarith

end Zcm
