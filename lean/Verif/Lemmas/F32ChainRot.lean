import Verif.Lemmas.F32Chain
import Verif.Props.C81
import Verif.Props.C91

/-!
# Products of rotation matrices made from quaternions
-/

set_option exponentiation.threshold 300

namespace Zcm

open WithLp F32 Quaternion
open scoped Matrix Matrix.Norms.L2Operator

/-- the imaginary components -/
def imag (x : ℍ[ℝ]) : Fin 3 → ℝ := ![x.imI, x.imJ, x.imK]

/-- the matrix whose columns are the basis vectors rotated by `q` -/
noncomputable def rotMat (q : ℍ[ℝ]) : Matrix (Fin 3) (Fin 3) ℝ := Matrix.of fun r c => imag (q * axisQ c * q⁻¹) r

theorem re_conj_pure (q x : ℍ[ℝ]) (hx : x.re = 0) : (q * x * q⁻¹).re = 0 := by
  have : q⁻¹ = (normSq q)⁻¹ • star q := rfl
  rw [this, mul_smul_comm, re_smul]
  simp only [re_mul, imI_mul, imJ_mul, imK_mul, re_star, imI_star, imJ_star, imK_star, hx, smul_eq_mul]
  ring

theorem axis_re (c : Fin 3) : (axisQ c).re = 0 := rfl

theorem pure_sum {x : ℍ[ℝ]} (hx : x.re = 0) : x = ∑ k, imag x k • axisQ k := by
  rw [Fin.sum_univ_three]
  ext <;> simp only [re_add, imI_add, imJ_add, imK_add, re_smul, imI_smul, imJ_smul, imK_smul] <;> simp [imag, axisQ, hx]

theorem imag_sum (f : Fin 3 → ℍ[ℝ]) (r : Fin 3) : imag (∑ k, f k) r = ∑ k, imag (f k) r := by
  simp only [Fin.sum_univ_three]
  fin_cases r <;> simp [imag]

theorem imag_smul (a : ℝ) (x : ℍ[ℝ]) (r : Fin 3) : imag (a • x) r = a * imag x r := by
  fin_cases r <;> simp [imag]

theorem imag_norm {x : ℍ[ℝ]} (hx : x.re = 0) : ∑ r, imag x r ^ 2 = ‖x‖ ^ 2 := by
  rw [norm_sq_quat, Fin.sum_univ_three, hx]
  simp [imag]

/-- `rotMat q` applied to the coordinates of a pure quaternion -/
theorem rotMat_mulVec (q : ℍ[ℝ]) {x : ℍ[ℝ]} (hx : x.re = 0) : rotMat q *ᵥ imag x = imag (q * x * q⁻¹) := by
  funext r
  have e : q * x * q⁻¹ = ∑ k, q * (imag x k • axisQ k) * q⁻¹ := by
    conv_lhs => rw [pure_sum hx, Finset.mul_sum, Finset.sum_mul]
  rw [e, imag_sum]
  change ∑ k, rotMat q r k * imag x k = _
  refine Finset.sum_congr rfl fun k _ => ?_
  rw [mul_smul_comm, smul_mul_assoc, imag_smul, mul_comm]
  rfl

theorem rotMat_mul (p q : ℍ[ℝ]) : rotMat (p * q) = rotMat p * rotMat q := by
  ext r c
  have := congrFun (rotMat_mulVec p (re_conj_pure q (axisQ c) (axis_re c))) r
  rw [Matrix.mul_apply]
  refine Eq.trans ?_ this.symm
  change imag _ r = imag _ r
  rw [mul_inv_rev]
  simp only [mul_assoc]

theorem conj_norm_ne {q : ℍ[ℝ]} (hq : q ≠ 0) (x : ℍ[ℝ]) : ‖q * x * q⁻¹‖ = ‖x‖ := by
  have : ‖q‖ ≠ 0 := norm_ne_zero_iff.2 hq
  rw [norm_mul, norm_mul, norm_inv]
  field_simp

theorem rotMat_norm_le {q : ℍ[ℝ]} (hq : q ≠ 0) : ‖rotMat q‖ ≤ 1 := by
  rw [Matrix.l2_opNorm_def]
  refine ContinuousLinearMap.opNorm_le_bound _ (by norm_num) fun x => ?_
  rw [one_mul]
  refine le_of_sq_le_sq ?_ (norm_nonneg _)
  obtain ⟨X, hX, rX⟩ : ∃ X : ℍ[ℝ], imag X = ofLp x ∧ X.re = 0 :=
    ⟨⟨0, x 0, x 1, x 2⟩, by funext r; fin_cases r <;> rfl, rfl⟩
  rw [EuclideanSpace.norm_sq_eq, EuclideanSpace.norm_sq_eq]
  simp only [Real.norm_eq_abs, sq_abs]
  have e : ∀ r, (toLp 2 (rotMat q *ᵥ ofLp x) : EuclideanSpace ℝ (Fin 3)) r = imag (q * X * q⁻¹) r := fun r => by
    rw [← rotMat_mulVec q rX, hX]
  have e' : ∀ r, x r = imag X r := fun r => congrFun hX.symm r
  calc ∑ r, ((toLp 2 (rotMat q *ᵥ ofLp x) : EuclideanSpace ℝ (Fin 3)) r) ^ 2
      = ∑ r, imag (q * X * q⁻¹) r ^ 2 := Finset.sum_congr rfl fun r _ => by rw [e]
    _ = ∑ r, imag X r ^ 2 := by rw [imag_norm (re_conj_pure q X rX), imag_norm rX, conj_norm_ne hq]
    _ ≤ _ := le_of_eq (Finset.sum_congr rfl fun r _ => by rw [e'])

theorem axis_norm (c : Fin 3) : ‖axisQ c‖ = 1 := by
  rw [← sq_eq_sq₀ (norm_nonneg _) (by norm_num), norm_sq_quat]
  fin_cases c <;> simp [axisQ]

theorem rotMat_norm_ge {q : ℍ[ℝ]} (hq : q ≠ 0) : 1 ≤ ‖rotMat q‖ := by
  have h := column_le (rotMat q) 0
  have e : ∑ r, rotMat q r 0 ^ 2 = 1 := by
    have := imag_norm (re_conj_pure q (axisQ 0) (axis_re 0))
    rw [conj_norm_ne hq, axis_norm] at this
    simpa [rotMat] using this
  rw [e] at h
  nlinarith [norm_nonneg (rotMat q)]

/-- the matrix of a normalised quaternion -/
theorem cast_near (q : Quat F32) (hq : q.Finite) (hu : |‖exactQ q‖ - 1| ≤ 1 / 2 ^ 20) :
    FiniteMat (Quat.mat3_cast q) ∧ ‖realMat (Quat.mat3_cast q) - rotMat (exactQ q)‖ ≤ 3 / 2 ^ 17 ∧ exactQ q ≠ 0 := by
  refine ⟨fun c r => (C91_mat3 q hq hu c).1 r, ?_, ?_⟩
  · refine (norm_le_of_entries (e := 1 / 2 ^ 17) (by norm_num) fun r c => ?_).trans (by norm_num)
    have h2 : ∑ r, imag (exactColumn (Quat.mat3_cast q) c - exactQ q * axisQ c * (exactQ q)⁻¹) r ^ 2 ≤ (1 / 2 ^ 17) ^ 2 := by
      rw [imag_norm (by rw [re_sub, re_conj_pure _ _ (axis_re c)]; simp [exactColumn])]
      have := (C91_mat3 q hq hu c).2
      gcongr
    have h3 : imag (exactColumn (Quat.mat3_cast q) c - exactQ q * axisQ c * (exactQ q)⁻¹) r ^ 2 ≤ (1 / 2 ^ 17) ^ 2 :=
      (Finset.single_le_sum (f := fun r => imag (exactColumn (Quat.mat3_cast q) c - exactQ q * axisQ c * (exactQ q)⁻¹) r ^ 2)
        (fun i _ => sq_nonneg _) (Finset.mem_univ r)).trans h2
    have h4 := abs_le_of_sq_le_sq h3 (by norm_num)
    have e : (realMat (Quat.mat3_cast q) - rotMat (exactQ q)) r c =
        imag (exactColumn (Quat.mat3_cast q) c - exactQ q * axisQ c * (exactQ q)⁻¹) r := by
      rw [Matrix.sub_apply]
      change ((entry (Quat.mat3_cast q) c r).val : ℝ) - imag (exactQ q * axisQ c * (exactQ q)⁻¹) r = _
      generalize exactQ q * axisQ c * (exactQ q)⁻¹ = Y
      fin_cases r
      · exact (imI_sub (exactColumn (Quat.mat3_cast q) c) Y).symm
      · exact (imJ_sub (exactColumn (Quat.mat3_cast q) c) Y).symm
      · exact (imK_sub (exactColumn (Quat.mat3_cast q) c) Y).symm
    rw [e]
    exact h4
  · intro h
    rw [h, norm_zero] at hu
    norm_num at hu

/-- the exact product of the float matrices against the exact product of the rotations -/
theorem rot_chain (q0 : Quat F32) (h0 : q0.Finite) (hu : |‖exactQ q0‖ - 1| ≤ 1 / 2 ^ 20) (qs : List (Quat F32))
    (hf : ∀ q ∈ qs, q.Finite) (hq : ∀ q ∈ qs, |‖exactQ q‖ - 1| ≤ 1 / 2 ^ 20) :
    ‖exactChain (Quat.mat3_cast q0 :: qs.map Quat.mat3_cast) - rotMat (exactProduct q0 qs)‖ ≤ (1 + 3 / 2 ^ 17) ^ (qs.length + 1) - 1 ∧
    (1 - 3 / 2 ^ 17) ^ (qs.length + 1) ≤ stretch (Quat.mat3_cast q0 :: qs.map Quat.mat3_cast) ∧
    stretch (Quat.mat3_cast q0 :: qs.map Quat.mat3_cast) ≤ (1 + 3 / 2 ^ 17) ^ (qs.length + 1) ∧ exactProduct q0 qs ≠ 0 := by
  have one : ∀ q : Quat F32, q.Finite → |‖exactQ q‖ - 1| ≤ 1 / 2 ^ 20 →
      1 - 3 / 2 ^ 17 ≤ ‖realMat (Quat.mat3_cast q)‖ ∧ ‖realMat (Quat.mat3_cast q)‖ ≤ 1 + 3 / 2 ^ 17 := by
    intro q fq uq
    obtain ⟨-, E, ne⟩ := cast_near q fq uq
    have a := rotMat_norm_le ne
    have b := rotMat_norm_ge ne
    have c := abs_norm_sub_norm_le (realMat (Quat.mat3_cast q)) (rotMat (exactQ q))
    have := _root_.abs_le.1 (c.trans E)
    constructor <;> linarith
  induction qs using List.reverseRecOn with
  | nil =>
    obtain ⟨-, E, ne⟩ := cast_near q0 h0 hu
    obtain ⟨l, u⟩ := one q0 h0 hu
    simp only [List.map_nil, List.length_nil, zero_add, pow_one, exactChain, stretch, List.map_cons, List.prod_cons, List.prod_nil, mul_one,
      exactProduct]
    exact ⟨by linarith, l, u, ne⟩
  | append_singleton qs q ih =>
    obtain ⟨i1, i2, i3, i4⟩ := ih (fun q h => hf q (List.mem_append_left _ h)) (fun q h => hq q (List.mem_append_left _ h))
    obtain ⟨-, E, ne⟩ := cast_near q (hf q (by simp)) (hq q (by simp))
    obtain ⟨l, u⟩ := one q (hf q (by simp)) (hq q (by simp))
    rw [List.map_append, List.map_singleton, ← List.cons_append, exactChain_append, stretch_append, exactProduct_append, rotMat_mul,
      List.length_append, List.length_singleton, pow_succ (1 + 3 / 2 ^ 17 : ℝ) (qs.length + 1), pow_succ (1 - 3 / 2 ^ 17 : ℝ) (qs.length + 1)]
    refine ⟨?_, ?_, ?_, mul_ne_zero i4 ne⟩
    · have n1 := rotMat_norm_le i4
      have e : exactChain (Quat.mat3_cast q0 :: qs.map Quat.mat3_cast) * realMat (Quat.mat3_cast q) - rotMat (exactProduct q0 qs) * rotMat (exactQ q) =
        (exactChain (Quat.mat3_cast q0 :: qs.map Quat.mat3_cast) - rotMat (exactProduct q0 qs)) * realMat (Quat.mat3_cast q) +
          rotMat (exactProduct q0 qs) * (realMat (Quat.mat3_cast q) - rotMat (exactQ q)) := by
        rw [sub_mul, mul_sub]; abel
      rw [e]
      generalize (1 + 3 / 2 ^ 17 : ℝ) ^ (qs.length + 1) = g at *
      have g1 : 0 ≤ g - 1 := (norm_nonneg _).trans i1
      have t1 := Matrix.l2_opNorm_mul (exactChain (Quat.mat3_cast q0 :: qs.map Quat.mat3_cast) - rotMat (exactProduct q0 qs)) (realMat (Quat.mat3_cast q))
      have t2 := Matrix.l2_opNorm_mul (rotMat (exactProduct q0 qs)) (realMat (Quat.mat3_cast q) - rotMat (exactQ q))
      have t3 := norm_add_le ((exactChain (Quat.mat3_cast q0 :: qs.map Quat.mat3_cast) - rotMat (exactProduct q0 qs)) * realMat (Quat.mat3_cast q))
        (rotMat (exactProduct q0 qs) * (realMat (Quat.mat3_cast q) - rotMat (exactQ q)))
      have t4 : ‖exactChain (Quat.mat3_cast q0 :: qs.map Quat.mat3_cast) - rotMat (exactProduct q0 qs)‖ * ‖realMat (Quat.mat3_cast q)‖ ≤
        (g - 1) * (1 + 3 / 2 ^ 17) := by gcongr
      have t5 : ‖rotMat (exactProduct q0 qs)‖ * ‖realMat (Quat.mat3_cast q) - rotMat (exactQ q)‖ ≤ 1 * (3 / 2 ^ 17) := by gcongr
      linarith
    · gcongr
      exact (stretch_nonneg _)
    · gcongr

end Zcm
