import Verif.Lemmas.F32QuatChain

/-!
# C88  Long products of quaternions in IEEE arithmetic

`q0 * q1 * ... * qn` evaluated from left to right in binary32 (as `operator*` associates) for up to `2^15` factors.
-/

namespace Zcm

open Quaternion F32

/-- C88: as long as the exact partial products stay in a wide range, nothing overflows and after `n` multiplications the
result is within `n * 2^-15` (relative to its norm) of the exact Hamilton product. -/
theorem C88_quat (q0 : Quat F32) (h0 : q0.Finite) (qs : List (Quat F32)) (hf : ∀ q ∈ qs, q.Finite)
    (hq : ∀ q ∈ qs, ‖exactQ q‖ ≤ 2 ^ 60) (hn : qs.length ≤ 2 ^ 15)
    (hr : ∀ l, l <+: qs → 1 / 2 ^ 98 ≤ ‖exactProduct q0 l‖ ∧ ‖exactProduct q0 l‖ ≤ 2 ^ 59) :
    (qs.foldl (· * ·) q0).Finite ∧
    ‖exactQ (qs.foldl (· * ·) q0) - exactProduct q0 qs‖ ≤ qs.length / 2 ^ 15 * ‖exactProduct q0 qs‖ := by
  obtain ⟨f, e⟩ := chain q0 h0 qs hf hq hn hr
  refine ⟨f, e.trans ?_⟩
  gcongr
  exact (growth hn).2.2

/-- C88: the sharper bound with one factor `1 + 2^-16` per multiplication. -/
theorem C88_growth (q0 : Quat F32) (h0 : q0.Finite) (qs : List (Quat F32)) (hf : ∀ q ∈ qs, q.Finite)
    (hq : ∀ q ∈ qs, ‖exactQ q‖ ≤ 2 ^ 60) (hn : qs.length ≤ 2 ^ 15)
    (hr : ∀ l, l <+: qs → 1 / 2 ^ 98 ≤ ‖exactProduct q0 l‖ ∧ ‖exactProduct q0 l‖ ≤ 2 ^ 59) :
    ‖exactQ (qs.foldl (· * ·) q0) - exactProduct q0 qs‖ ≤
      ((1 + 1 / 2 ^ 16) ^ qs.length - 1) * ‖exactProduct q0 qs‖ :=
  (chain q0 h0 qs hf hq hn hr).2

theorem product_norm (q0 : Quat F32) (hu : |‖exactQ q0‖ - 1| ≤ 1 / 2 ^ 20) (qs : List (Quat F32))
    (hq : ∀ q ∈ qs, |‖exactQ q‖ - 1| ≤ 1 / 2 ^ 20) :
    (1 - 1 / 2 ^ 20) ^ (qs.length + 1) ≤ ‖exactProduct q0 qs‖ ∧
    ‖exactProduct q0 qs‖ ≤ (1 + 1 / 2 ^ 20) ^ (qs.length + 1) := by
  induction qs using List.reverseRecOn with
  | nil =>
    rw [exactProduct_nil]
    have := abs_le.1 hu
    simp only [List.length_nil, zero_add, pow_one]
    constructor <;> linarith
  | append_singleton qs q ih =>
    obtain ⟨h1, h2⟩ := ih fun q h => hq q (List.mem_append_left _ h)
    have := abs_le.1 (hq q (by simp))
    rw [exactProduct_append, norm_mul, List.length_append, List.length_singleton]
    constructor
    · rw [pow_succ]
      exact mul_le_mul h1 (by linarith) (by norm_num) (norm_nonneg _)
    · rw [pow_succ]
      exact mul_le_mul h2 (by linarith) (norm_nonneg _) (by positivity)

/-- C88 for what users multiply: quaternions that `normalize` returned (norm within `2^-20` of 1).  A product with up to
`2^15` of them is within `n * 2^-14` of the exact one. -/
theorem C88_normalized (q0 : Quat F32) (h0 : q0.Finite) (hu : |‖exactQ q0‖ - 1| ≤ 1 / 2 ^ 20) (qs : List (Quat F32))
    (hf : ∀ q ∈ qs, q.Finite) (hq : ∀ q ∈ qs, |‖exactQ q‖ - 1| ≤ 1 / 2 ^ 20) (hn : qs.length ≤ 2 ^ 15) :
    (qs.foldl (· * ·) q0).Finite ∧
    ‖exactQ (qs.foldl (· * ·) q0) - exactProduct q0 qs‖ ≤ qs.length / 2 ^ 14 := by
  have range : ∀ l, l <+: qs → 1 / 2 ≤ ‖exactProduct q0 l‖ ∧ ‖exactProduct q0 l‖ ≤ 2 := by
    intro l hl
    obtain ⟨h1, h2⟩ := product_norm q0 hu l fun q h => hq q (hl.subset h)
    have hl' : l.length ≤ 2 ^ 15 := hl.length_le.trans hn
    have lr : (l.length : ℝ) ≤ 2 ^ 15 := by exact_mod_cast hl'
    constructor
    · have b := one_add_mul_le_pow (a := (-(1 / 2 ^ 20) : ℝ)) (by norm_num) (l.length + 1)
      push_cast at b
      rw [← sub_eq_add_neg] at b
      refine le_trans ?_ h1
      refine le_trans ?_ b
      nlinarith
    · refine h2.trans ?_
      have g := (growth hl').2.1
      rw [pow_succ]
      have : (1 + 1 / 2 ^ 20 : ℝ) ^ l.length ≤ (1 + 1 / 2 ^ 16) ^ l.length := by
        apply pow_le_pow_left₀ (by norm_num)
        norm_num
      calc (1 + 1 / 2 ^ 20 : ℝ) ^ l.length * (1 + 1 / 2 ^ 20) ≤ 1.75 * (1 + 1 / 2 ^ 20) := by gcongr; linarith
        _ ≤ 2 := by norm_num
  obtain ⟨f, e⟩ := C88_quat q0 h0 qs hf (fun q h => by have := (abs_le.1 (hq q h)).2; linarith) hn fun l hl => by
    obtain ⟨h1, h2⟩ := range l hl
    exact ⟨le_trans (by norm_num) h1, h2.trans (by norm_num)⟩
  refine ⟨f, e.trans ?_⟩
  obtain ⟨-, h2⟩ := range qs List.prefix_rfl
  calc (qs.length : ℝ) / 2 ^ 15 * ‖exactProduct q0 qs‖ ≤ qs.length / 2 ^ 15 * 2 := by gcongr
    _ = _ := by ring

/-- the rotation by 120 degrees about (1, 1, 1): `(1 + i + j + k) / 2` -/
def third : Quat F32 := ⟨lit 0.5, lit 0.5, lit 0.5, lit 0.5⟩

theorem third_norm : third.Finite ∧ ‖exactQ third‖ = 1 := by
  have e : (lit 0.5 : F32).val = 1 / 2 := by decide +kernel
  refine ⟨fun i => by fin_cases i <;> decide +kernel, ?_⟩
  rw [← sq_eq_sq₀ (norm_nonneg _) (by norm_num), norm_sq_quat]
  simp only [exactQ, third, e]
  norm_num

/-- Non-vacuity: a thousand rotations by 120 degrees. -/
example : third.Finite ∧ |‖exactQ third‖ - 1| ≤ 1 / 2 ^ 20 ∧ (∀ q ∈ List.replicate 1000 third, q.Finite) ∧
    (∀ q ∈ List.replicate 1000 third, |‖exactQ q‖ - 1| ≤ 1 / 2 ^ 20) ∧ (List.replicate 1000 third).length ≤ 2 ^ 15 := by
  obtain ⟨f, n⟩ := third_norm
  refine ⟨f, by rw [n]; norm_num, fun q h => ?_, fun q h => ?_, by rw [List.length_replicate]; norm_num⟩
  · rw [List.eq_of_mem_replicate h]; exact f
  · rw [List.eq_of_mem_replicate h, n]; norm_num

/-- Non-vacuity of the general theorem: its range condition for the same history. -/
example : ∀ l, l <+: List.replicate 1000 third →
    1 / 2 ^ 98 ≤ ‖exactProduct third l‖ ∧ ‖exactProduct third l‖ ≤ 2 ^ 59 := by
  intro l hl
  obtain ⟨f, n⟩ := third_norm
  have : ‖exactProduct third l‖ = 1 := by
    have h : ∀ q ∈ l, q = third := fun q h => List.eq_of_mem_replicate (hl.subset h)
    clear hl
    induction l using List.reverseRecOn with
    | nil => rw [exactProduct_nil, n]
    | append_singleton l q ih =>
      rw [exactProduct_append, norm_mul, ih fun q hq => h q (List.mem_append_left _ hq), h q (by simp), n, mul_one]
  rw [this]
  norm_num

end Zcm
