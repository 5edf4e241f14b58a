import Verif.Lemmas.F32Compose
import Verif.Lemmas.F32Local
import Verif.Lemmas.F32Optics
import Verif.Lemmas.F32QuatCast
import Verif.Lemmas.F32Rotate
import Verif.Props.C81
import Verif.Props.C91
import Verif.Spec.Place

/-!
# Placing points by translation, rotation and scale in binary32
-/

set_option exponentiation.threshold 300

namespace Zcm

open Quaternion F32

/-- the three coordinates of a quaternion's vector part -/
noncomputable def partQ (v : ℍ[ℝ]) (r : Fin 3) : ℝ := ![v.imI, v.imJ, v.imK] r

theorem partQ_le (v : ℍ[ℝ]) (r : Fin 3) : |partQ v r| ≤ ‖v‖ := by
  obtain ⟨-, h0, h1, h2⟩ := abs_part_le v
  fin_cases r <;> assumption

theorem partQ_sub (v w : ℍ[ℝ]) (r : Fin 3) : partQ (v - w) r = partQ v r - partQ w r := by
  fin_cases r <;> rfl

theorem partQ_column (m : M3 F32) (c r : Fin 3) : partQ (exactColumn m c) r = (entry m c r).val := by
  fin_cases r <;> rfl

theorem partQ_exactV (v : V3 F32) (r : Fin 3) : partQ (exactV v) r = (coord v r).val := by
  fin_cases r <;> rfl

theorem partQ_vecQ (v : Fin 3 → ℝ) (r : Fin 3) : partQ (vecQ v) r = v r := by
  fin_cases r <;> rfl

theorem vecQ_axes (x : Fin 3 → ℝ) : vecQ x = x 0 • axisQ 0 + x 1 • axisQ 1 + x 2 • axisQ 2 := by
  ext
  · rw [re_add, re_add, re_smul, re_smul, re_smul]; simp [vecQ, axisQ]
  · rw [imI_add, imI_add, imI_smul, imI_smul, imI_smul]; simp [vecQ, axisQ]
  · rw [imJ_add, imJ_add, imJ_smul, imJ_smul, imJ_smul]; simp [vecQ, axisQ]
  · rw [imK_add, imK_add, imK_smul, imK_smul, imK_smul]; simp [vecQ, axisQ]

theorem partQ_turned (Q : ℍ[ℝ]) (x : Fin 3 → ℝ) (r : Fin 3) : partQ (Q * vecQ x * Q⁻¹) r =
    x 0 * partQ (Q * axisQ 0 * Q⁻¹) r + x 1 * partQ (Q * axisQ 1 * Q⁻¹) r + x 2 * partQ (Q * axisQ 2 * Q⁻¹) r := by
  have : Q * vecQ x * Q⁻¹ = x 0 • (Q * axisQ 0 * Q⁻¹) + x 1 • (Q * axisQ 1 * Q⁻¹) + x 2 • (Q * axisQ 2 * Q⁻¹) := by
    rw [vecQ_axes]
    simp only [mul_add, add_mul, mul_smul_comm, smul_mul_assoc]
  rw [this]
  fin_cases r <;> simp [partQ]

theorem norm_turned' {Q : ℍ[ℝ]} (hu : |‖Q‖ - 1| ≤ 1 / 2 ^ 20) (v : ℍ[ℝ]) : ‖Q * v * Q⁻¹‖ = ‖v‖ := by
  have : 0 < ‖Q‖ := by have := (abs_le.1 hu).1; linarith
  rw [norm_mul, norm_mul, norm_inv]
  field_simp

theorem norm_axis (c : Fin 3) : ‖axisQ c‖ = 1 := norm_axisQ c

variable {t s p : V3 F32} {q : Quat F32} {w : F32}

/-- the entries of the matrix -/
theorem place_entry (hq : q.Finite) (hu : |‖exactQ q‖ - 1| ≤ 1 / 2 ^ 20) (ht : t.Finite) (hs : s.Finite)
    (bs : ∀ c, |((coord s c).val : ℝ)| ≤ 2 ^ 59) (c r : Fin 3) :
    Near (entry (M4.translate M4.default t * Quat.mat4_cast q * M4.scale M4.default s) c.castSucc r.castSucc)
      (partQ (exactQ q * axisQ c * (exactQ q)⁻¹) r * (coord s c).val)
      ((1 / 2 ^ 17 + 1.001 / 2 ^ 24) * |((coord s c).val : ℝ)| + 1 / 2 ^ 150) := by
  have fR : ∀ c r, (entry (Quat.mat3_cast q) c r).IsFin = true := fun c r => (C91_mat3 q hq hu c).1 r
  refine Near.same ((compose32 ht hs fR).1 c r) ?_
  have d : |((entry (Quat.mat3_cast q) c r).val : ℝ) - partQ (exactQ q * axisQ c * (exactQ q)⁻¹) r| ≤ 1 / 2 ^ 17 := by
    rw [← partQ_column, ← partQ_sub]
    exact (partQ_le _ _).trans (C91_mat3 q hq hu c).2
  have one : |partQ (exactQ q * axisQ c * (exactQ q)⁻¹) r| ≤ 1 := by
    refine (partQ_le _ _).trans ?_
    rw [norm_turned' hu, norm_axis]
  have b := bs c
  have b0 := abs_nonneg ((coord s c).val : ℝ)
  have m := mul_abs_err (F := 0) (s := ((coord s c).val : ℝ)) (B := (1 + 1 / 2 ^ 17) * |((coord s c).val : ℝ)|) (fR c r) (hs c) d (by simp)
    (by rw [add_zero]; gcongr) (by norm_num at b ⊢; linarith)
  refine ⟨m.1, m.2.trans ?_⟩
  norm_num
  linarith

theorem place_matrix (hq : q.Finite) (hu : |‖exactQ q‖ - 1| ≤ 1 / 2 ^ 20) (ht : t.Finite) (hs : s.Finite) (hp : p.Finite)
    (hw : w.IsFin = true) (bt : ∀ c, |((coord t c).val : ℝ)| ≤ 2 ^ 120) (bs : ∀ c, |((coord s c).val : ℝ)| ≤ 2 ^ 59)
    (bp : ∀ c, |((coord p c).val : ℝ)| ≤ 2 ^ 59) (bw : |(w.val : ℝ)| ≤ 1) (r : Fin 3) :
    Near (coord (M4.translate M4.default t * Quat.mat4_cast q * M4.scale M4.default s * V4.ofXYZ_W p w) r.castSucc)
      (placeAt t q s p w.val r)
      (1 / 2 ^ 16 * ∑ c, |stretched s p c| + 5 / 2 ^ 24 * |(w.val : ℝ) * (coord t r).val| +
        (1 + ∑ c, |((coord p c).val : ℝ)|) / 2 ^ 147) := by
  have fR : ∀ c r, (entry (Quat.mat3_cast q) c r).IsFin = true := fun c r => (C91_mat3 q hq hu c).1 r
  have e3 := (compose32 ht hs fR).2.1 r
  have pe := fun c => place_entry hq hu ht hs bs c r
  have n3 : Near (entry (M4.translate M4.default t * Quat.mat4_cast q * M4.scale M4.default s) 3 r.castSucc) (coord t r).val 0 :=
    Near.same e3 ⟨ht r, by simp⟩
  have A := C81_mat4_vec (M4.translate M4.default t * Quat.mat4_cast q * M4.scale M4.default s) (V4.ofXYZ_W p w) r.castSucc
  generalize M4.translate M4.default t * Quat.mat4_cast q * M4.scale M4.default s = M at *
  have one : ∀ c, |partQ (exactQ q * axisQ c * (exactQ q)⁻¹) r| ≤ 1 := fun c => by
    refine (partQ_le _ _).trans ?_
    rw [norm_turned' hu, norm_axis]
  set b : Fin 4 → ℝ := ![partQ (exactQ q * axisQ 0 * (exactQ q)⁻¹) r * (coord s 0).val,
    partQ (exactQ q * axisQ 1 * (exactQ q)⁻¹) r * (coord s 1).val,
    partQ (exactQ q * axisQ 2 * (exactQ q)⁻¹) r * (coord s 2).val, (coord t r).val] with hb
  set P : Fin 4 → ℝ := ![|((coord s 0).val : ℝ)|, |((coord s 1).val : ℝ)|, |((coord s 2).val : ℝ)|, |((coord t r).val : ℝ)|] with hP
  set e : Fin 4 → ℝ := ![(1 / 2 ^ 17 + 1.001 / 2 ^ 24) * |((coord s 0).val : ℝ)| + 1 / 2 ^ 150,
    (1 / 2 ^ 17 + 1.001 / 2 ^ 24) * |((coord s 1).val : ℝ)| + 1 / 2 ^ 150,
    (1 / 2 ^ 17 + 1.001 / 2 ^ 24) * |((coord s 2).val : ℝ)| + 1 / 2 ^ 150, 0] with he
  have fin4 : ∀ i, (entry M i r.castSucc).IsFin = true := by
    intro i
    fin_cases i
    · exact (pe 0).1
    · exact (pe 1).1
    · exact (pe 2).1
    · exact n3.1
  have finv : ∀ i, (coord (V4.ofXYZ_W p w) i).IsFin = true := by
    intro i
    fin_cases i
    · exact hp 0
    · exact hp 1
    · exact hp 2
    · exact hw
  have c0 : coord (V4.ofXYZ_W p w) 0 = coord p 0 := rfl
  have c1 : coord (V4.ofXYZ_W p w) 1 = coord p 1 := rfl
  have c2 : coord (V4.ofXYZ_W p w) 2 = coord p 2 := rfl
  have c3 : coord (V4.ofXYZ_W p w) 3 = w := rfl
  have le : ∀ c, |partQ (exactQ q * axisQ c * (exactQ q)⁻¹) r * (coord s c).val| ≤ |((coord s c).val : ℝ)| := fun c => by
    rw [abs_mul]; exact mul_le_of_le_one_left (abs_nonneg _) (one c)
  have mle : ∀ {x y X Y : ℝ}, |x| ≤ X → |y| ≤ Y → |x| * |y| ≤ X * Y := fun hx hy =>
    mul_le_mul hx hy (abs_nonneg _) ((abs_nonneg _).trans hx)
  have N := near_perturbed (b := b) (p := P) (e := e) (by norm_num) A fin4 finv
    (by intro i; fin_cases i; exacts [le 0, le 1, le 2, le_rfl])
    (by intro i; fin_cases i; exacts [(pe 0).2, (pe 1).2, (pe 2).2, n3.2])
    (by
      rw [Fin.sum_univ_four, c0, c1, c2, c3]
      simp only [hP, he, Matrix.cons_val]
      have k0 := mle (bs 0) (bp 0)
      have k1 := mle (bs 1) (bp 1)
      have k2 := mle (bs 2) (bp 2)
      have k3 := mle (bt r) bw
      have p0 := bp 0
      have p1 := bp 1
      have p2 := bp 2
      generalize |((coord s 0).val : ℝ)| = s0 at *
      generalize |((coord s 1).val : ℝ)| = s1 at *
      generalize |((coord s 2).val : ℝ)| = s2 at *
      generalize |((coord p 0).val : ℝ)| = q0 at *
      generalize |((coord p 1).val : ℝ)| = q1 at *
      generalize |((coord p 2).val : ℝ)| = q2 at *
      norm_num at *
      linarith)
  rw [Fin.sum_univ_four, Fin.sum_univ_four, c0, c1, c2, c3] at N
  have tgt : placeAt t q s p w.val r = b 0 * (coord p 0).val + b 1 * (coord p 1).val + b 2 * (coord p 2).val + b 3 * w.val := by
    change (w.val : ℝ) * (coord t r).val + partQ (exactQ q * vecQ (stretched s p) * (exactQ q)⁻¹) r = _
    rw [partQ_turned]
    simp only [hb, Matrix.cons_val, stretched]
    ring
  rw [tgt]
  refine N.mono ?_
  rw [Fin.sum_univ_three, Fin.sum_univ_three]
  simp only [hP, he, Matrix.cons_val, stretched, abs_mul]
  have s0 := abs_nonneg ((coord s 0).val : ℝ)
  have s1 := abs_nonneg ((coord s 1).val : ℝ)
  have s2 := abs_nonneg ((coord s 2).val : ℝ)
  have p0 := abs_nonneg ((coord p 0).val : ℝ)
  have p1 := abs_nonneg ((coord p 1).val : ℝ)
  have p2 := abs_nonneg ((coord p 2).val : ℝ)
  have w0 := abs_nonneg (w.val : ℝ)
  have t0 := abs_nonneg ((coord t r).val : ℝ)
  generalize |((coord s 0).val : ℝ)| = x0 at *
  generalize |((coord s 1).val : ℝ)| = x1 at *
  generalize |((coord s 2).val : ℝ)| = x2 at *
  generalize |((coord p 0).val : ℝ)| = q0 at *
  generalize |((coord p 1).val : ℝ)| = q1 at *
  generalize |((coord p 2).val : ℝ)| = q2 at *
  generalize |((coord t r).val : ℝ)| = y at *
  generalize |(w.val : ℝ)| = z at *
  have m0 := mul_nonneg s0 p0
  have m1 := mul_nonneg s1 p1
  have m2 := mul_nonneg s2 p2
  have m3 := mul_nonneg w0 t0
  norm_num
  linarith

theorem place_last (hq : q.Finite) (hu : |‖exactQ q‖ - 1| ≤ 1 / 2 ^ 20) (ht : t.Finite) (hs : s.Finite) (hp : p.Finite)
    (hw : w.IsFin = true) :
    (coord (M4.translate M4.default t * Quat.mat4_cast q * M4.scale M4.default s * V4.ofXYZ_W p w) 3 == w) = true := by
  have fR : ∀ c r, (entry (Quat.mat3_cast q) c r).IsFin = true := fun c r => (C91_mat3 q hq hu c).1 r
  have e := (compose32 ht hs fR).2.2
  change ∀ c, SameNumber (entry (M4.translate M4.default t * Quat.mat4_cast q * M4.scale M4.default s) c 3) _ at e
  generalize M4.translate M4.default t * Quat.mat4_cast q * M4.scale M4.default s = M at *
  have z : ∀ c : Fin 4, c ≠ 3 → IsZ (entry M c 3) := fun c hc => by
    have := e c
    rw [if_neg hc] at this
    exact IsZ.same this isZ_lit
  have o := e 3
  rw [if_pos rfl] at o
  have h : SameNumber (coord (M * V4.ofXYZ_W p w) 3) w := by
    change SameNumber ((entry M 0 3 * coord p 0 + entry M 1 3 * coord p 1) + (entry M 2 3 * coord p 2 + entry M 3 3 * w)) w
    refine (SameNumber.zAdd (((z 0 (by decide)).mulL (hp 0)).add ((z 1 (by decide)).mulL (hp 1)))).trans ?_
    refine (SameNumber.zAdd ((z 2 (by decide)).mulL (hp 2))).trans ?_
    have k := o.mulR hw
    rwa [one_mul'] at k
  refine beq_of_same h ?_
  rintro k
  rw [k] at h
  rcases h with h | ⟨h, -⟩
  · rw [← h] at hw; cases hw
  · cases h

/-- the same through quaternion and vectors -/
theorem place_direct (hq : q.Finite) (hu : |‖exactQ q‖ - 1| ≤ 1 / 2 ^ 20) (ht : t.Finite) (hs : s.Finite) (hp : p.Finite)
    (bt : ∀ c, |((coord t c).val : ℝ)| ≤ 2 ^ 120) (bs : ∀ c, |((coord s c).val : ℝ)| ≤ 2 ^ 59)
    (bp : ∀ c, |((coord p c).val : ℝ)| ≤ 2 ^ 59) (low : 1 / 2 ^ 99 ≤ ∑ c, |stretched s p c|) (r : Fin 3) :
    Near (coord (t + q * (s * p)) r) (placeAt t q s p 1 r)
      (1 / 2 ^ 15 * ∑ c, |stretched s p c| + 2 / 2 ^ 24 * |((coord t r).val : ℝ)|) := by
  set E := ∑ c, |stretched s p c| with hE
  have mle : ∀ {x y X Y : ℝ}, |x| ≤ X → |y| ≤ Y → |x| * |y| ≤ X * Y := fun hx hy =>
    mul_le_mul hx hy (abs_nonneg _) ((abs_nonneg _).trans hx)
  have cm : ∀ c, coord (s * p) c = coord s c * coord p c := fun c => by fin_cases c <;> rfl
  have m : ∀ c, (coord (s * p) c).IsFin = true ∧
      |((coord (s * p) c).val : ℝ) - stretched s p c| ≤ 1 / 2 ^ 24 * |stretched s p c| + 1 / 2 ^ 150 := by
    intro c
    rw [cm]
    have := mul_abs_err (E := 0) (F := 0) (r := (coord s c).val) (s := (coord p c).val) (B := |stretched s p c|) (hs c) (hp c) (by simp) (by simp)
      (by rw [add_zero, add_zero, stretched, abs_mul]) (by
        rw [stretched, abs_mul]
        exact (mle (bs c) (bp c)).trans (by norm_num))
    refine ⟨this.1, this.2.trans ?_⟩
    norm_num
    linarith
  have hv : V3.Finite (s * p) := fun c => (m c).1
  have tiny : (1:ℝ) / 2 ^ 150 ≤ 1 / 2 ^ 50 * E := by
    calc (1:ℝ) / 2 ^ 150 ≤ 1 / 2 ^ 50 * (1 / 2 ^ 99) := by norm_num
      _ ≤ _ := by gcongr
  have S0 := abs_nonneg (stretched s p 0)
  have S1 := abs_nonneg (stretched s p 1)
  have S2 := abs_nonneg (stretched s p 2)
  have E3 : E = |stretched s p 0| + |stretched s p 1| + |stretched s p 2| := Fin.sum_univ_three _
  have sum : ∀ v : ℍ[ℝ], v.re = 0 → ‖v‖ ≤ |v.imI| + |v.imJ| + |v.imK| := by
    intro v h0
    refine le_of_sq_le_sq ?_ (by positivity)
    rw [norm_sq_quat, h0, ← sq_abs v.imI, ← sq_abs v.imJ, ← sq_abs v.imK]
    have := mul_nonneg (abs_nonneg v.imI) (abs_nonneg v.imJ)
    have := mul_nonneg (abs_nonneg v.imI) (abs_nonneg v.imK)
    have := mul_nonneg (abs_nonneg v.imJ) (abs_nonneg v.imK)
    nlinarith
  have dv : ‖exactV (s * p) - vecQ (stretched s p)‖ ≤ 1.001 / 2 ^ 24 * E := by
    refine (sum _ (by rw [re_sub]; exact sub_self _)).trans ?_
    have h0 := (m 0).2
    have h1 := (m 1).2
    have h2 := (m 2).2
    rw [← partQ_exactV, ← partQ_vecQ (stretched s p), ← partQ_sub] at h0 h1 h2
    rw [partQ_vecQ] at h0 h1 h2
    change |(exactV (s * p) - vecQ (stretched s p)).imI| ≤ _ at h0
    change |(exactV (s * p) - vecQ (stretched s p)).imJ| ≤ _ at h1
    change |(exactV (s * p) - vecQ (stretched s p)).imK| ≤ _ at h2
    norm_num at *
    linarith
  have nE : ‖vecQ (stretched s p)‖ ≤ E := (sum _ rfl).trans (le_of_eq E3.symm)
  have big : E ≤ 1.74 * ‖vecQ (stretched s p)‖ := by
    refine le_of_sq_le_sq ?_ (by positivity)
    rw [mul_pow, norm_sq_quat, E3]
    change _ ≤ 1.74 ^ 2 * ((0:ℝ) ^ 2 + stretched s p 0 ^ 2 + stretched s p 1 ^ 2 + stretched s p 2 ^ 2)
    rw [← sq_abs (stretched s p 0), ← sq_abs (stretched s p 1), ← sq_abs (stretched s p 2)]
    nlinarith [sq_nonneg (|stretched s p 0| - |stretched s p 1|), sq_nonneg (|stretched s p 0| - |stretched s p 2|), sq_nonneg (|stretched s p 1| - |stretched s p 2|)]
  have E0 : 0 < E := lt_of_lt_of_le (by norm_num) low
  have nv : ‖exactV (s * p)‖ ≤ ‖vecQ (stretched s p)‖ + 1.001 / 2 ^ 24 * E := by
    have := norm_sub_norm_le (exactV (s * p)) (vecQ (stretched s p))
    linarith
  have nv' : ‖vecQ (stretched s p)‖ - 1.001 / 2 ^ 24 * E ≤ ‖exactV (s * p)‖ := by
    have := norm_sub_norm_le (vecQ (stretched s p)) (exactV (s * p))
    rw [norm_sub_rev] at this
    linarith
  have Ehi : E ≤ 3 * 2 ^ 118 := by
    rw [E3]
    simp only [stretched, abs_mul]
    have k0 := mle (bs 0) (bp 0)
    have k1 := mle (bs 1) (bp 1)
    have k2 := mle (bs 2) (bp 2)
    norm_num at *
    linarith
  obtain ⟨fr, er⟩ := rotate_close q (s * p) hq hv hu (by norm_num at *; linarith) (by norm_num at *; linarith)
  have key : |((coord (q * (s * p)) r).val : ℝ) - partQ (exactQ q * vecQ (stretched s p) * (exactQ q)⁻¹) r| ≤ (1 / 2 ^ 16 + 1.1 / 2 ^ 24) * E := by
    rw [← partQ_exactV, ← partQ_sub]
    refine (partQ_le _ _).trans ?_
    have tri := norm_sub_le_norm_sub_add_norm_sub (exactV (q * (s * p))) (exactQ q * exactV (s * p) * (exactQ q)⁻¹)
      (exactQ q * vecQ (stretched s p) * (exactQ q)⁻¹)
    rw [← sub_mul, ← mul_sub, norm_turned' hu] at tri
    norm_num at *
    linarith
  have top : |partQ (exactQ q * vecQ (stretched s p) * (exactQ q)⁻¹) r| ≤ E := by
    refine (partQ_le _ _).trans ?_
    rw [norm_turned' hu]
    exact nE
  have tb := bt r
  have ct : coord (t + q * (s * p)) r = coord t r + coord (q * (s * p)) r := by fin_cases r <;> rfl
  rw [ct]
  have a := add_close (E := 0) (r := ((coord t r).val : ℝ)) (ht r) (fr r) (by simp) key (by norm_num at *; linarith)
  have tg : placeAt t q s p 1 r = (coord t r).val + partQ (exactQ q * vecQ (stretched s p) * (exactQ q)⁻¹) r := by
    change 1 * ((coord t r).val : ℝ) + partQ (exactQ q * vecQ (stretched s p) * (exactQ q)⁻¹) r = _
    rw [one_mul]
  rw [tg]
  refine ⟨a.1, a.2.trans ?_⟩
  have := abs_nonneg ((coord t r).val : ℝ)
  generalize |((coord t r).val : ℝ)| = y at *
  norm_num at *
  linarith

end Zcm
