import Verif.Lemmas.F32Rotate
import Verif.Props.C88

/-!
# C90  Rotating vectors by normalised quaternions in IEEE arithmetic

`q * v` in binary32 for a quaternion as `normalize` returns it (norm within `2^-20` of 1), compared with Hamilton's exact
rotation `q v q⁻¹`.
-/

namespace Zcm

open Quaternion F32

/-- C90: the rotated vector is finite and within `2^-16 |v|` of the exactly rotated one. -/
theorem C90_rotate (q : Quat F32) (v : V3 F32) (hq : q.Finite) (hv : v.Finite) (hu : |‖exactQ q‖ - 1| ≤ 1 / 2 ^ 20)
    (h1 : 1 / 2 ^ 100 ≤ ‖exactV v‖) (h2 : ‖exactV v‖ ≤ 2 ^ 120) :
    V3.Finite (q * v) ∧ ‖exactV (q * v) - exactQ q * exactV v * (exactQ q)⁻¹‖ ≤ 1 / 2 ^ 16 * ‖exactV v‖ :=
  rotate_close q v hq hv hu h1 h2

theorem conj_norm (q v : ℍ[ℝ]) (hu : |‖q‖ - 1| ≤ 1 / 2 ^ 20) : ‖q * v * q⁻¹‖ = ‖v‖ := by
  have : 0 < ‖q‖ := by have := (abs_le.1 hu).1; linarith
  rw [norm_mul, norm_mul, norm_inv]
  field_simp

/-- C90: the length of the vector is kept to within `2^-16`, relative. -/
theorem C90_length (q : Quat F32) (v : V3 F32) (hq : q.Finite) (hv : v.Finite) (hu : |‖exactQ q‖ - 1| ≤ 1 / 2 ^ 20)
    (h1 : 1 / 2 ^ 100 ≤ ‖exactV v‖) (h2 : ‖exactV v‖ ≤ 2 ^ 120) :
    |‖exactV (q * v)‖ - ‖exactV v‖| ≤ 1 / 2 ^ 16 * ‖exactV v‖ := by
  have e := (rotate_close q v hq hv hu h1 h2).2
  rw [← conj_norm (exactQ q) (exactV v) hu]
  refine (abs_norm_sub_norm_le _ _).trans (e.trans (le_of_eq ?_))
  rw [conj_norm (exactQ q) (exactV v) hu]

/-- C90, histories: rotating `v` successively by up to `2^15` normalised quaternions keeps everything finite and ends within
`n * 2^-15 |v|` of the exact result (`q1` acts first). -/
theorem C90_history (v : V3 F32) (hv : v.Finite) (h1 : 1 / 2 ^ 98 ≤ ‖exactV v‖) (h2 : ‖exactV v‖ ≤ 2 ^ 119)
    (qs : List (Quat F32)) (hf : ∀ q ∈ qs, q.Finite) (hu : ∀ q ∈ qs, |‖exactQ q‖ - 1| ≤ 1 / 2 ^ 20)
    (hn : qs.length ≤ 2 ^ 15) :
    (qs.foldl (fun (v : V3 F32) (q : Quat F32) => q * v) v).Finite ∧
    ‖exactV (qs.foldl (fun (v : V3 F32) (q : Quat F32) => q * v) v) -
      qs.foldl (fun V q => exactQ q * V * (exactQ q)⁻¹) (exactV v)‖ ≤ qs.length / 2 ^ 15 * ‖exactV v‖ := by
  have key : (qs.foldl (fun (v : V3 F32) (q : Quat F32) => q * v) v).Finite ∧
    ‖qs.foldl (fun V q => exactQ q * V * (exactQ q)⁻¹) (exactV v)‖ = ‖exactV v‖ ∧
    ‖exactV (qs.foldl (fun (v : V3 F32) (q : Quat F32) => q * v) v) -
      qs.foldl (fun V q => exactQ q * V * (exactQ q)⁻¹) (exactV v)‖ ≤
      ((1 + 1 / 2 ^ 16) ^ qs.length - 1) * ‖exactV v‖ := by
    induction qs using List.reverseRecOn with
    | nil => exact ⟨hv, rfl, by simp⟩
    | append_singleton qs q ih =>
      have hn' : qs.length ≤ 2 ^ 15 := by
        rw [List.length_append] at hn; omega
      obtain ⟨f, n, e⟩ := ih (fun q h => hf q (List.mem_append_left _ h)) (fun q h => hu q (List.mem_append_left _ h)) hn'
      have fq := hf q (by simp)
      have uq := hu q (by simp)
      obtain ⟨g1, g2, -⟩ := growth hn'
      rw [List.foldl_append, List.foldl_cons, List.foldl_nil, List.foldl_append, List.foldl_cons, List.foldl_nil,
        List.length_append, List.length_singleton, pow_succ]
      generalize qs.foldl (fun (v : V3 F32) (q : Quat F32) => q * v) v = x at *
      generalize qs.foldl (fun V q => exactQ q * V * (exactQ q)⁻¹) (exactV v) = X at *
      have V0 : 0 ≤ ‖exactV v‖ := norm_nonneg _
      have b := abs_le.1 ((abs_norm_sub_norm_le _ _).trans e)
      rw [n] at b
      have w : ((1 + 1 / 2 ^ 16 : ℝ) ^ qs.length - 1) * ‖exactV v‖ ≤ 0.75 * ‖exactV v‖ := by gcongr; linarith
      obtain ⟨rf, re⟩ := rotate_close q x fq f uq (by linarith [b.1]) (by linarith [b.2])
      refine ⟨rf, (conj_norm _ _ uq).trans n, ?_⟩
      have e2 : ‖exactQ q * exactV x * (exactQ q)⁻¹ - exactQ q * X * (exactQ q)⁻¹‖ = ‖exactV x - X‖ := by
        rw [← sub_mul, ← mul_sub, conj_norm _ _ uq]
      have t := norm_sub_le_norm_sub_add_norm_sub (exactV (q * x)) (exactQ q * exactV x * (exactQ q)⁻¹)
        (exactQ q * X * (exactQ q)⁻¹)
      rw [e2] at t
      have : 1 / 2 ^ 16 * ‖exactV x‖ ≤ 1 / 2 ^ 16 * ((1 + 1 / 2 ^ 16) ^ qs.length * ‖exactV v‖) := by
        gcongr; linarith [b.2]
      calc _ ≤ _ := t
        _ ≤ 1 / 2 ^ 16 * ((1 + 1 / 2 ^ 16) ^ qs.length * ‖exactV v‖) +
            ((1 + 1 / 2 ^ 16) ^ qs.length - 1) * ‖exactV v‖ := by linarith
        _ = _ := by ring
  refine ⟨key.1, key.2.2.trans ?_⟩
  gcongr
  exact (growth hn).2.2

/-- Non-vacuity: 120 degrees about (1, 1, 1), applied to (3, 4, 12). -/
example : third.Finite ∧ |‖exactQ third‖ - 1| ≤ 1 / 2 ^ 20 ∧ V3.Finite ⟨lit 3, lit 4, lit 12⟩ ∧
    ‖exactV ⟨lit 3, lit 4, lit 12⟩‖ = 13 := by
  obtain ⟨f, n⟩ := third_norm
  have e3 : (lit 3 : F32).val = 3 := by decide +kernel
  have e4 : (lit 4 : F32).val = 4 := by decide +kernel
  have e12 : (lit 12 : F32).val = 12 := by decide +kernel
  refine ⟨f, by rw [n]; norm_num, fun i => by fin_cases i <;> decide +kernel, ?_⟩
  rw [← sq_eq_sq₀ (norm_nonneg _) (by norm_num), norm_sq_quat]
  simp only [exactV, e3, e4, e12]
  norm_num

end Zcm
