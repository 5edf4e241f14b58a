import Verif.Lemmas.F32Quat
import Verif.Model.Quat

/-!
# Rounding errors of rotating vectors by quaternions
-/

set_option exponentiation.threshold 300

namespace Zcm

open Quaternion F32

/-- a product with a component of an (almost) unit quaternion -/
theorem F32.Close.unit_mul {a b : F32} {r s V N F : ℝ} (ha : Close a r 1 1.00001 0) (hb : Close b s V N F) (hV : 0 ≤ V)
    (hN : 0 ≤ N) (hF : 0 ≤ F) (h1 : V ≤ 2 ^ 120) (h2 : 1 / 2 ^ 100 ≤ V) (hb' : 1.00001 * (N + F) ≤ 2 ^ 7) :
    Close (a * b) (r * s) V (1.00001 * N) (1.00001 * F + 1.00001 * (N + F) / 2 ^ 24 + 1 / 2 ^ 50) := by
  have m := ha.mul hb zero_le_one hV le_rfl (by norm_num) hN hF (by rwa [one_mul]) (by rwa [one_mul]) (by simpa using hb')
  simpa using m

theorem coord_le4 {a b c d P : ℝ} (h0 : 0 ≤ P) (h : P ^ 2 = a ^ 2 + b ^ 2 + c ^ 2 + d ^ 2) :
    |a| ≤ P ∧ |b| ≤ P ∧ |c| ≤ P ∧ |d| ≤ P := by
  refine ⟨?_, ?_, ?_, ?_⟩ <;> apply abs_le_of_sq_le_sq _ h0 <;>
    nlinarith [sq_nonneg a, sq_nonneg b, sq_nonneg c, sq_nonneg d]

/-- one component of `cross(u, v)` for components `v` of size at most `N` -/
theorem F32.Close.cross {a b c d : F32} {r s t w V : ℝ} (ha : Close a r 1 1.00001 0) (hb : Close b s V 1 0)
    (hc : Close c t 1 1.00001 0) (hd : Close d w V 1 0) (hV : 0 ≤ V) (h1 : V ≤ 2 ^ 120) (h2 : 1 / 2 ^ 100 ≤ V) :
    Close ((lit 2 : F32) * (a * b - c * d)) (2 * (r * s - t * w)) V 4.001 (12.1 / 2 ^ 24) := by
  have e2 : (lit 2 : F32).IsFin = true ∧ (lit 2 : F32).val = 2 := ⟨by decide +kernel, by decide +kernel⟩
  have m1 := ha.unit_mul hb hV (by norm_num) le_rfl h1 h2 (by norm_num)
  have m2 := hc.unit_mul hd hV (by norm_num) le_rfl h1 h2 (by norm_num)
  have m := (m1.sub m2 hV h1 (by norm_num)).weaken hV (M' := 2.0001) (E' := 4.01 / 2 ^ 24) (by norm_num) (by norm_num)
  exact (Close.lit_mul e2.1 (k := 2) (by rw [e2.2]; norm_num) (by norm_num) m hV (by norm_num) (by norm_num) h1 h2
    (by norm_num)).weaken hV (by norm_num) (by norm_num)

/-- one component of `v + w * t + cross(u, t)` -/
theorem F32.Close.rot {v w t a b c d : F32} {v' w' t' r s p q V : ℝ} (hv : Close v v' V 1 0)
    (hw : Close w w' 1 1.00001 0) (ht : Close t t' V 4.001 (12.1 / 2 ^ 24)) (ha : Close a r 1 1.00001 0)
    (hb : Close b s V 4.001 (12.1 / 2 ^ 24)) (hc : Close c p 1 1.00001 0) (hd : Close d q V 4.001 (12.1 / 2 ^ 24))
    (hV : 0 ≤ V) (h1 : V ≤ 2 ^ 120) (h2 : 1 / 2 ^ 100 ≤ V) :
    Close (v + w * t + (a * b - c * d)) (v' + w' * t' + (r * s - p * q)) V 14 (76 / 2 ^ 24) := by
  have m0 := hw.unit_mul ht hV (by norm_num) (by norm_num) h1 h2 (by norm_num)
  have m1 := ha.unit_mul hb hV (by norm_num) (by norm_num) h1 h2 (by norm_num)
  have m2 := hc.unit_mul hd hV (by norm_num) (by norm_num) h1 h2 (by norm_num)
  have s0 := (hv.add m0 hV h1 (by norm_num)).weaken hV (M' := 5.01) (E' := 21.4 / 2 ^ 24) (by norm_num) (by norm_num)
  have m := (m1.sub m2 hV h1 (by norm_num)).weaken hV (M' := 8.01) (E' := 40.5 / 2 ^ 24) (by norm_num) (by norm_num)
  exact (s0.add m hV h1 (by norm_num)).weaken hV (by norm_num) (by norm_num)

theorem quat_mulV_def {α : Type} [Add α] [Sub α] [Mul α] [FloatOps α] [Neg α] [Div α] [Libm α] (q : Quat α) (v : V3 α) : q * v =
    (let tx := (lit 2 : α) * (q.y * v.z - q.z * v.y)
     let ty := (lit 2 : α) * (q.z * v.x - q.x * v.z)
     let tz := (lit 2 : α) * (q.x * v.y - q.y * v.x)
     (⟨v.x + q.w * tx + (q.y * tz - q.z * ty), v.y + q.w * ty + (q.z * tx - q.x * tz),
       v.z + q.w * tz + (q.x * ty - q.y * tx)⟩ : V3 α)) := rfl

/-- the exact value of the formula of `quat * vec3` -/
noncomputable def rotR (q v : ℍ[ℝ]) : ℍ[ℝ] :=
  ⟨0,
    v.imI + q.re * (2 * (q.imJ * v.imK - q.imK * v.imJ)) +
      (q.imJ * (2 * (q.imI * v.imJ - q.imJ * v.imI)) - q.imK * (2 * (q.imK * v.imI - q.imI * v.imK))),
    v.imJ + q.re * (2 * (q.imK * v.imI - q.imI * v.imK)) +
      (q.imK * (2 * (q.imJ * v.imK - q.imK * v.imJ)) - q.imI * (2 * (q.imI * v.imJ - q.imJ * v.imI))),
    v.imK + q.re * (2 * (q.imI * v.imJ - q.imJ * v.imI)) +
      (q.imI * (2 * (q.imK * v.imI - q.imI * v.imK)) - q.imJ * (2 * (q.imJ * v.imK - q.imK * v.imJ)))⟩

/-- it is Hamilton's `q v q*` for unit quaternions, and off by `(1 - |q|^2) v` for others -/
theorem rotate_formula (q v : ℍ[ℝ]) (hv : v.re = 0) : rotR q v = q * v * star q + (1 - ‖q‖ ^ 2) • v := by
  unfold rotR
  rw [norm_sq_quat]
  ext
  · simp [hv]; ring
  · simp [hv]; ring
  · simp [hv]; ring
  · simp [hv]; ring

/-- for almost unit `q` the formula is almost `q v q⁻¹` -/
theorem rotate_unit {q v r : ℍ[ℝ]} {δ : ℝ} (hq : |‖q‖ - 1| ≤ δ) (hδ : δ ≤ 1 / 2 ^ 17)
    (hr : r = q * v * star q + (1 - ‖q‖ ^ 2) • v) : ‖r - q * v * q⁻¹‖ ≤ 4.1 * δ * ‖v‖ := by
  have hq' := abs_le.1 hq
  have δ0 : 0 ≤ δ := (abs_nonneg _).trans hq
  have n0 : 0 < ‖q‖ := by linarith
  have e : q⁻¹ = (‖q‖ ^ 2)⁻¹ • star q := by
    rw [Quaternion.inv_def, normSq_eq_norm_mul_self, sq]
  have h : r - q * v * q⁻¹ = (1 - ‖q‖ ^ 2) • v - (1 - ‖q‖ ^ 2) • (q * v * q⁻¹) := by
    rw [hr, e]
    rw [mul_smul_comm, smul_smul]
    have : (1 - ‖q‖ ^ 2) * (‖q‖ ^ 2)⁻¹ = (‖q‖ ^ 2)⁻¹ - 1 := by field_simp
    rw [this, sub_smul _ (1 : ℝ) (q * v * star q), one_smul]
    abel
  have nv : ‖q * v * q⁻¹‖ = ‖v‖ := by
    rw [norm_mul, norm_mul, norm_inv]
    field_simp
  have a : |1 - ‖q‖ ^ 2| ≤ 2.05 * δ := by
    rw [abs_le]
    constructor <;> nlinarith
  rw [h]
  calc ‖(1 - ‖q‖ ^ 2) • v - (1 - ‖q‖ ^ 2) • (q * v * q⁻¹)‖
      ≤ ‖(1 - ‖q‖ ^ 2) • v‖ + ‖(1 - ‖q‖ ^ 2) • (q * v * q⁻¹)‖ := norm_sub_le _ _
    _ = |1 - ‖q‖ ^ 2| * ‖v‖ + |1 - ‖q‖ ^ 2| * ‖v‖ := by rw [norm_smul, norm_smul, nv, Real.norm_eq_abs]
    _ ≤ 2.05 * δ * ‖v‖ + 2.05 * δ * ‖v‖ := by gcongr
    _ = _ := by ring

theorem rotate_near {δ : ℝ} (q : Quat F32) (v : V3 F32) (hq : q.Finite) (hv : v.Finite) (hu : |‖exactQ q‖ - 1| ≤ δ) (hδ : δ ≤ 1 / 2 ^ 17)
    (h1 : 1 / 2 ^ 100 ≤ ‖exactV v‖) (h2 : ‖exactV v‖ ≤ 2 ^ 120) :
    V3.Finite (q * v) ∧ ‖exactV (q * v) - exactQ q * exactV v * (exactQ q)⁻¹‖ ≤ (152 / 2 ^ 24 + 4.1 * δ) * ‖exactV v‖ := by
  have V0 : 0 ≤ ‖exactV v‖ := norm_nonneg _
  have hu' := abs_le.1 hu
  obtain ⟨bw, bx, bY, bz⟩ := coord_le4 (norm_nonneg _) (norm_sq_quat (exactQ q))
  obtain ⟨-, vx, vy, vz⟩ := coord_le4 (norm_nonneg _) (norm_sq_quat (exactV v))
  have leaf : ∀ {x : F32}, x.IsFin = true → |(x.val : ℝ)| ≤ ‖exactQ q‖ → Close x x.val 1 1.00001 0 := by
    intro x h hx
    refine ⟨h, ?_, by simp⟩
    rw [mul_one]
    linarith
  have qx := leaf (hq 0) bx
  have qy := leaf (hq 1) bY
  have qz := leaf (hq 2) bz
  have qw := leaf (hq 3) bw
  have vx := Close.exact (hv 0) vx
  have vy := Close.exact (hv 1) vy
  have vz := Close.exact (hv 2) vz
  have tx := Close.cross qy vz qz vy V0 h2 h1
  have ty := Close.cross qz vx qx vz V0 h2 h1
  have tz := Close.cross qx vy qy vx V0 h2 h1
  have cx := Close.rot vx qw tx qy tz qz ty V0 h2 h1
  have cy := Close.rot vy qw ty qz tx qx tz V0 h2 h1
  have cz := Close.rot vz qw tz qx ty qy tx V0 h2 h1
  refine ⟨fun i => by fin_cases i <;> [exact cx.fin; exact cy.fin; exact cz.fin], ?_⟩
  have f := rotate_formula (exactQ q) (exactV v) rfl
  have u := rotate_unit hu hδ f
  have d := quat_norm_le (a := exactV (q * v) - rotR (exactQ q) (exactV v)) (e := 76 / 2 ^ 24 * ‖exactV v‖)
    (by positivity)
    (by have : (exactV (q * v) - rotR (exactQ q) (exactV v)).re = 0 := by
          rw [re_sub]; exact sub_zero _
        rw [this, abs_zero]
        positivity)
    (by rw [imI_sub]; exact cx.err) (by rw [imJ_sub]; exact cy.err) (by rw [imK_sub]; exact cz.err)
  have t := norm_sub_le_norm_sub_add_norm_sub (exactV (q * v)) (rotR (exactQ q) (exactV v)) (exactQ q * exactV v * (exactQ q)⁻¹)
  linarith

theorem rotate_close (q : Quat F32) (v : V3 F32) (hq : q.Finite) (hv : v.Finite) (hu : |‖exactQ q‖ - 1| ≤ 1 / 2 ^ 20)
    (h1 : 1 / 2 ^ 100 ≤ ‖exactV v‖) (h2 : ‖exactV v‖ ≤ 2 ^ 120) :
    V3.Finite (q * v) ∧ ‖exactV (q * v) - exactQ q * exactV v * (exactQ q)⁻¹‖ ≤ 1 / 2 ^ 16 * ‖exactV v‖ := by
  obtain ⟨f, e⟩ := rotate_near q v hq hv hu (by norm_num) h1 h2
  refine ⟨f, e.trans ?_⟩
  gcongr
  norm_num

/-- products of two components of an almost unit quaternion -/
theorem F32.Close.unit_prod {a b : F32} {r s : ℝ} (ha : Close a r 1 1.00001 0) (hb : Close b s 1 1.00001 0) :
    Close (a * b) (r * s) 1 1.0001 (1.001 / 2 ^ 24) :=
  (ha.unit_mul hb zero_le_one (by norm_num) le_rfl (by norm_num) (by norm_num) (by norm_num)).weaken zero_le_one
    (by norm_num) (by norm_num)

theorem lit_two : (lit 2 : F32).IsFin = true ∧ (((lit 2 : F32).val : ℚ) : ℝ) = 2 := by
  have h : (lit 2 : F32).IsFin = true ∧ (lit 2 : F32).val = 2 := ⟨by decide +kernel, by decide +kernel⟩
  exact ⟨h.1, by rw [h.2]; norm_num⟩

theorem lit_one_real : (lit 1 : F32).IsFin = true ∧ (((lit 1 : F32).val : ℚ) : ℝ) = 1 := by
  have h : (lit 1 : F32).IsFin = true ∧ (lit 1 : F32).val = 1 := ⟨by decide +kernel, by decide +kernel⟩
  exact ⟨h.1, by rw [h.2]; norm_num⟩

theorem F32.Close.two_sum {a b : F32} {r s : ℝ} (ha : Close a r 1 1.0001 (1.001 / 2 ^ 24))
    (hb : Close b s 1 1.0001 (1.001 / 2 ^ 24)) : Close ((lit 2 : F32) * (a + b)) (2 * (r + s)) 1 4.001 (12.1 / 2 ^ 24) :=
  (Close.lit_mul lit_two.1 lit_two.2 (by norm_num) (ha.add hb zero_le_one (by norm_num) (by norm_num)) zero_le_one
    (by norm_num) (by norm_num) (by norm_num) (by norm_num) (by norm_num)).weaken zero_le_one (by norm_num) (by norm_num)

theorem F32.Close.two_diff {a b : F32} {r s : ℝ} (ha : Close a r 1 1.0001 (1.001 / 2 ^ 24))
    (hb : Close b s 1 1.0001 (1.001 / 2 ^ 24)) : Close ((lit 2 : F32) * (a - b)) (2 * (r - s)) 1 4.001 (12.1 / 2 ^ 24) :=
  (Close.lit_mul lit_two.1 lit_two.2 (by norm_num) (ha.sub hb zero_le_one (by norm_num) (by norm_num)) zero_le_one
    (by norm_num) (by norm_num) (by norm_num) (by norm_num) (by norm_num)).weaken zero_le_one (by norm_num) (by norm_num)

theorem F32.Close.one_minus {a b : F32} {r s : ℝ} (ha : Close a r 1 1.0001 (1.001 / 2 ^ 24))
    (hb : Close b s 1 1.0001 (1.001 / 2 ^ 24)) :
    |((lit 1 - (lit 2 : F32) * (a + b) : F32).val : ℝ) - (1 - 2 * (r + s))| ≤ 17.2 / 2 ^ 24 ∧
    (lit 1 - (lit 2 : F32) * (a + b) : F32).IsFin = true := by
  have one : Close (lit 1 : F32) 1 1 1 0 := ⟨lit_one_real.1, by norm_num, by rw [lit_one_real.2]; norm_num⟩
  have m := (one.sub (ha.two_sum hb) zero_le_one (by norm_num) (by norm_num)).weaken (M' := 6) (E' := 17.2 / 2 ^ 24)
    zero_le_one (by norm_num) (by norm_num)
  exact ⟨by simpa using m.err, m.fin⟩

theorem column_close {q : Quat F32} (hu : |‖exactQ q‖ - 1| ≤ 1 / 2 ^ 20) {col : V3 F32} {c : Fin 3}
    (h0 : |(col.x.val : ℝ) - (rotR (exactQ q) (axisQ c)).imI| ≤ 17.2 / 2 ^ 24)
    (h1 : |(col.y.val : ℝ) - (rotR (exactQ q) (axisQ c)).imJ| ≤ 17.2 / 2 ^ 24)
    (h2 : |(col.z.val : ℝ) - (rotR (exactQ q) (axisQ c)).imK| ≤ 17.2 / 2 ^ 24) :
    ‖exactV col - exactQ q * axisQ c * (exactQ q)⁻¹‖ ≤ 1 / 2 ^ 17 := by
  have n1 : ‖axisQ c‖ = 1 := by
    rw [← sq_eq_sq₀ (norm_nonneg _) (by norm_num), norm_sq_quat]
    fin_cases c <;> simp [axisQ]
  have u := rotate_unit hu (by norm_num) (rotate_formula (exactQ q) (axisQ c) rfl)
  have d := quat_norm_le (a := exactV col - rotR (exactQ q) (axisQ c)) (e := 17.2 / 2 ^ 24) (by norm_num)
    (by have : (exactV col - rotR (exactQ q) (axisQ c)).re = 0 := by
          rw [re_sub]; exact sub_zero _
        rw [this, abs_zero]
        norm_num)
    (by rw [imI_sub]; exact h0) (by rw [imJ_sub]; exact h1) (by rw [imK_sub]; exact h2)
  have t := norm_sub_le_norm_sub_add_norm_sub (exactV col) (rotR (exactQ q) (axisQ c))
    (exactQ q * axisQ c * (exactQ q)⁻¹)
  rw [n1] at u
  linarith

theorem mat3_cast_close (q : Quat F32) (hq : q.Finite) (hu : |‖exactQ q‖ - 1| ≤ 1 / 2 ^ 20) :
    (V3.Finite (Quat.mat3_cast q).c0 ∧
      ‖exactV (Quat.mat3_cast q).c0 - exactQ q * axisQ 0 * (exactQ q)⁻¹‖ ≤ 1 / 2 ^ 17) ∧
    (V3.Finite (Quat.mat3_cast q).c1 ∧
      ‖exactV (Quat.mat3_cast q).c1 - exactQ q * axisQ 1 * (exactQ q)⁻¹‖ ≤ 1 / 2 ^ 17) ∧
    (V3.Finite (Quat.mat3_cast q).c2 ∧
      ‖exactV (Quat.mat3_cast q).c2 - exactQ q * axisQ 2 * (exactQ q)⁻¹‖ ≤ 1 / 2 ^ 17) := by
  have hu' := abs_le.1 hu
  obtain ⟨bw, bx, bY, bz⟩ := coord_le4 (norm_nonneg _) (norm_sq_quat (exactQ q))
  have leaf : ∀ {x : F32}, x.IsFin = true → |(x.val : ℝ)| ≤ ‖exactQ q‖ → Close x x.val 1 1.00001 0 := by
    intro x h hx
    refine ⟨h, ?_, by simp⟩
    rw [mul_one]
    linarith
  have qx : Close q.x q.x.val 1 1.00001 0 := leaf (hq 0) bx
  have qy : Close q.y q.y.val 1 1.00001 0 := leaf (hq 1) bY
  have qz : Close q.z q.z.val 1 1.00001 0 := leaf (hq 2) bz
  have qw : Close q.w q.w.val 1 1.00001 0 := leaf (hq 3) bw
  have o : ∀ {x : F32} {r r' : ℝ}, Close x r 1 4.001 (12.1 / 2 ^ 24) → r = r' → |(x.val : ℝ) - r'| ≤ 17.2 / 2 ^ 24 := by
    rintro x r r' h rfl
    refine h.err.trans ?_
    norm_num
  have o' : ∀ {x r r' : ℝ}, |x - r| ≤ 17.2 / 2 ^ 24 → r = r' → |x - r'| ≤ 17.2 / 2 ^ 24 := by
    rintro x r r' h rfl; exact h
  have xx := qx.unit_prod qx
  have yy := qy.unit_prod qy
  have zz := qz.unit_prod qz
  have xz := qx.unit_prod qz
  have xy := qx.unit_prod qy
  have yz := qy.unit_prod qz
  have wx := qw.unit_prod qx
  have wy := qw.unit_prod qy
  have wz := qw.unit_prod qz
  refine ⟨⟨fun i => ?_, column_close hu (o' (yy.one_minus zz).1 ?_) (o (xy.two_sum wz) ?_) (o (xz.two_diff wy) ?_)⟩,
    ⟨fun i => ?_, column_close hu (o (xy.two_diff wz) ?_) (o' (xx.one_minus zz).1 ?_) (o (yz.two_sum wx) ?_)⟩,
    ⟨fun i => ?_, column_close hu (o (xz.two_sum wy) ?_) (o (yz.two_diff wx) ?_) (o' (xx.one_minus yy).1 ?_)⟩⟩
  · fin_cases i <;> [exact (yy.one_minus zz).2; exact (xy.two_sum wz).fin; exact (xz.two_diff wy).fin]
  · simp [rotR, axisQ, exactQ]; ring
  · simp [rotR, axisQ, exactQ]; ring
  · simp [rotR, axisQ, exactQ]; ring
  · fin_cases i <;> [exact (xy.two_diff wz).fin; exact (xx.one_minus zz).2; exact (yz.two_sum wx).fin]
  · simp [rotR, axisQ, exactQ]; ring
  · simp [rotR, axisQ, exactQ]; ring
  · simp [rotR, axisQ, exactQ]; ring
  · fin_cases i <;> [exact (xz.two_sum wy).fin; exact (yz.two_diff wx).fin; exact (xx.one_minus yy).2]
  · simp [rotR, axisQ, exactQ]; ring
  · simp [rotR, axisQ, exactQ]; ring
  · simp [rotR, axisQ, exactQ]; ring

end Zcm
