import Verif.Lemmas.F32QuatChain

/-!
# C89  The renormalising update loop never degrades

The way to integrate rotations: `q = normalize(q * d)` for one increment `d` after another.  However long the loop runs, in
binary32 `q` stays finite and of norm 1 (to within `2^-20`), and its distance from the exact normalised product grows at
most by `2^-14` per step.
-/

namespace Zcm

open Quaternion F32

/-- C89: any number of steps, any finite increments of norm between `2^-40` and `2^40`. -/
theorem C89_quat (q0 : Quat F32) (h0 : q0.Finite) (hu : |‖exactQ q0‖ - 1| ≤ 1 / 2 ^ 20) (ds : List (Quat F32))
    (hf : ∀ d ∈ ds, d.Finite) (hd : ∀ d ∈ ds, 1 / 2 ^ 40 ≤ ‖exactQ d‖ ∧ ‖exactQ d‖ ≤ 2 ^ 40) :
    (ds.foldl (fun q d => Quat.normalize (q * d)) q0).Finite ∧
    |‖exactQ (ds.foldl (fun q d => Quat.normalize (q * d)) q0)‖ - 1| ≤ 1 / 2 ^ 20 ∧
    ‖exactQ (ds.foldl (fun q d => Quat.normalize (q * d)) q0) - ‖exactProduct q0 ds‖⁻¹ • exactProduct q0 ds‖ ≤
      (ds.length + 1) / 2 ^ 14 := by
  obtain ⟨f, u, -, e⟩ := spin q0 h0 hu ds hf hd
  exact ⟨f, u, e⟩

/-- C89: the exact product used as the reference is never 0, so its direction is defined. -/
theorem C89_reference (q0 : Quat F32) (h0 : q0.Finite) (hu : |‖exactQ q0‖ - 1| ≤ 1 / 2 ^ 20) (ds : List (Quat F32))
    (hf : ∀ d ∈ ds, d.Finite) (hd : ∀ d ∈ ds, 1 / 2 ^ 40 ≤ ‖exactQ d‖ ∧ ‖exactQ d‖ ≤ 2 ^ 40) :
    ‖‖exactProduct q0 ds‖⁻¹ • exactProduct q0 ds‖ = 1 := by
  obtain ⟨-, -, p, -⟩ := spin q0 h0 hu ds hf hd
  rw [norm_smul, norm_inv, norm_norm, inv_mul_cancel₀ p.ne']

/-- Non-vacuity: `n` steps with the unnormalised increment `3 + 4 j`, starting from `quat()`. -/
example (n : ℕ) : (Quat.default : Quat F32).Finite ∧ |‖exactQ Quat.default‖ - 1| ≤ 1 / 2 ^ 20 ∧
    (∀ d ∈ List.replicate n (⟨lit 0, lit 4, lit 0, lit 3⟩ : Quat F32), d.Finite) ∧
    (∀ d ∈ List.replicate n (⟨lit 0, lit 4, lit 0, lit 3⟩ : Quat F32),
      1 / 2 ^ 40 ≤ ‖exactQ d‖ ∧ ‖exactQ d‖ ≤ 2 ^ 40) := by
  have e0 : (lit 0 : F32).val = 0 := by decide +kernel
  have e1 : (lit 1 : F32).val = 1 := by decide +kernel
  have e3 : (lit 3 : F32).val = 3 := by decide +kernel
  have e4 : (lit 4 : F32).val = 4 := by decide +kernel
  have n0 : ‖exactQ Quat.default‖ = 1 := by
    rw [← sq_eq_sq₀ (norm_nonneg _) (by norm_num), norm_sq_quat]
    simp only [exactQ, Quat.default, Quat.ofFloats, e0, e1]
    norm_num
  have n1 : ‖exactQ ⟨lit 0, lit 4, lit 0, lit 3⟩‖ = 5 := by
    rw [← sq_eq_sq₀ (norm_nonneg _) (by norm_num), norm_sq_quat]
    simp only [exactQ, e0, e3, e4]
    norm_num
  refine ⟨fun i => by fin_cases i <;> decide +kernel, by rw [n0]; norm_num, fun d h => ?_, fun d h => ?_⟩
  · rw [List.eq_of_mem_replicate h]
    exact fun i => by fin_cases i <;> decide +kernel
  · rw [List.eq_of_mem_replicate h, n1]
    norm_num

end Zcm
