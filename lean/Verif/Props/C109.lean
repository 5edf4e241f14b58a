import Verif.Lemmas.F32ChainRot

/-!
# C109  Long products of matrices in IEEE arithmetic

`m0 * m1 * ... * mn`, evaluated from left to right in binary32 as `operator*` associates, and `m0 * (m1 * (... * (mn * v)))`, for up to
`2^15` factors.  `stretch` is the product of the operator norms of the factors: 1 if they are rotations.
-/

set_option exponentiation.threshold 300

namespace Zcm

open WithLp F32 Quaternion
open scoped Matrix Matrix.Norms.L2Operator

theorem two_sides {E : Type} [SeminormedAddCommGroup E] {x y z : E} {k : ℕ} {T : ℝ} (hk : k + 1 ≤ 2 ^ 15) (T0 : 0 ≤ T)
    (h1 : ‖x - z‖ ≤ ((1 + 17 / 2 ^ 24) ^ (k + 1) - 1) * T) (h2 : ‖y - z‖ ≤ ((1 + 17 / 2 ^ 24) ^ (k + 1) - 1) * T) :
    ‖x - y‖ ≤ (k + 1) * (36 / 2 ^ 24) * T := by
  have g := (chain_growth hk).2.2
  push_cast at g
  have t := norm_sub_le (x - z) (y - z)
  rw [sub_sub_sub_cancel_right] at t
  have := mul_le_mul_of_nonneg_right g T0
  linarith

/-- C109, `mat2`: if the partial products cannot stretch or shrink a vector by more than `2^100`, nothing overflows, and after `n`
multiplications the result is within `n * 18 * 2^-24`, relative to the product of the norms, of the exact product. -/
theorem C109_mat2 (m0 : M2 F32) (f0 : FiniteMat m0) (ms : List (M2 F32)) (hf : ∀ m ∈ ms, FiniteMat m) (hn : ms.length ≤ 2 ^ 15)
    (hr : ∀ l, l <+: ms → 1 / 2 ^ 100 ≤ stretch (m0 :: l) ∧ stretch (m0 :: l) ≤ 2 ^ 100) :
    FiniteMat (ms.foldl (· * ·) m0) ∧
    ‖realMat (ms.foldl (· * ·) m0) - exactChain (m0 :: ms)‖ ≤ ms.length * (18 / 2 ^ 24) * stretch (m0 :: ms) := by
  obtain ⟨f, e⟩ := chain_near C81_mat2_mul (by norm_num) m0 f0 ms hf hn hr
  exact ⟨f, e.trans (mul_le_mul_of_nonneg_right (chain_growth hn).2.2 (stretch_nonneg _))⟩

/-- C109, `mat2`: applying the matrices to a vector one after the other. -/
theorem C109_mat2_vec (ms : List (M2 F32)) (hf : ∀ m ∈ ms, FiniteMat m) (v : V2 F32) (fv : ∀ i, (coord v i).IsFin = true)
    (hn : ms.length ≤ 2 ^ 15)
    (hr : ∀ l, l <:+ ms → 1 / 2 ^ 100 ≤ stretch l * ‖realVec (coord v)‖ ∧ stretch l * ‖realVec (coord v)‖ ≤ 2 ^ 100) :
    (∀ i, (coord (ms.foldr (fun m w => m * w) v) i).IsFin = true) ∧
    ‖realVec (coord (ms.foldr (fun m w => m * w) v)) - applyMat (exactChain ms) (realVec (coord v))‖ ≤
      ms.length * (18 / 2 ^ 24) * (stretch ms * ‖realVec (coord v)‖) := by
  obtain ⟨f, e⟩ := chainVec_near C81_mat2_vec (by norm_num) ms hf v fv hn hr
  exact ⟨f, e.trans (mul_le_mul_of_nonneg_right (chain_growth hn).2.2 (mul_nonneg (stretch_nonneg _) (norm_nonneg _)))⟩

/-- C109, `mat2`: multiplying all the matrices first, or applying them to the vector one after the other, gives almost the same. -/
theorem C109_mat2_order (m0 : M2 F32) (f0 : FiniteMat m0) (ms : List (M2 F32)) (hf : ∀ m ∈ ms, FiniteMat m) (v : V2 F32)
    (fv : ∀ i, (coord v i).IsFin = true) (hn : ms.length < 2 ^ 15)
    (hr : ∀ l, l <+: ms → 1 / 2 ^ 100 ≤ stretch (m0 :: l) ∧ stretch (m0 :: l) ≤ 2 ^ 100)
    (hs : ∀ l, l <:+ m0 :: ms → 1 / 2 ^ 100 ≤ stretch l * ‖realVec (coord v)‖ ∧ stretch l * ‖realVec (coord v)‖ ≤ 2 ^ 100) :
    ‖realVec (coord (ms.foldl (· * ·) m0 * v)) - realVec (coord ((m0 :: ms).foldr (fun m w => m * w) v))‖ ≤
      (ms.length + 1) * (36 / 2 ^ 24) * (stretch (m0 :: ms) * ‖realVec (coord v)‖) := by
  have e1 := (chainThenVec_near C81_mat2_mul C81_mat2_vec (by norm_num) m0 f0 ms hf v fv hn.le hr (hs _ List.suffix_rfl)).2
  have e2 := (chainVec_near C81_mat2_vec (by norm_num) (m0 :: ms) (by simpa using ⟨f0, hf⟩) v fv hn hs).2
  exact two_sides hn (mul_nonneg (stretch_nonneg _) (norm_nonneg _)) e1 e2

/-- C109, `mat3`: if the partial products cannot stretch or shrink a vector by more than `2^100`, nothing overflows, and after `n`
multiplications the result is within `n * 18 * 2^-24`, relative to the product of the norms, of the exact product. -/
theorem C109_mat3 (m0 : M3 F32) (f0 : FiniteMat m0) (ms : List (M3 F32)) (hf : ∀ m ∈ ms, FiniteMat m) (hn : ms.length ≤ 2 ^ 15)
    (hr : ∀ l, l <+: ms → 1 / 2 ^ 100 ≤ stretch (m0 :: l) ∧ stretch (m0 :: l) ≤ 2 ^ 100) :
    FiniteMat (ms.foldl (· * ·) m0) ∧
    ‖realMat (ms.foldl (· * ·) m0) - exactChain (m0 :: ms)‖ ≤ ms.length * (18 / 2 ^ 24) * stretch (m0 :: ms) := by
  obtain ⟨f, e⟩ := chain_near C81_mat3_mul (by norm_num) m0 f0 ms hf hn hr
  exact ⟨f, e.trans (mul_le_mul_of_nonneg_right (chain_growth hn).2.2 (stretch_nonneg _))⟩

/-- C109, `mat3`: applying the matrices to a vector one after the other. -/
theorem C109_mat3_vec (ms : List (M3 F32)) (hf : ∀ m ∈ ms, FiniteMat m) (v : V3 F32) (fv : ∀ i, (coord v i).IsFin = true)
    (hn : ms.length ≤ 2 ^ 15)
    (hr : ∀ l, l <:+ ms → 1 / 2 ^ 100 ≤ stretch l * ‖realVec (coord v)‖ ∧ stretch l * ‖realVec (coord v)‖ ≤ 2 ^ 100) :
    (∀ i, (coord (ms.foldr (fun m w => m * w) v) i).IsFin = true) ∧
    ‖realVec (coord (ms.foldr (fun m w => m * w) v)) - applyMat (exactChain ms) (realVec (coord v))‖ ≤
      ms.length * (18 / 2 ^ 24) * (stretch ms * ‖realVec (coord v)‖) := by
  obtain ⟨f, e⟩ := chainVec_near C81_mat3_vec (by norm_num) ms hf v fv hn hr
  exact ⟨f, e.trans (mul_le_mul_of_nonneg_right (chain_growth hn).2.2 (mul_nonneg (stretch_nonneg _) (norm_nonneg _)))⟩

/-- C109, `mat3`: multiplying all the matrices first, or applying them to the vector one after the other, gives almost the same. -/
theorem C109_mat3_order (m0 : M3 F32) (f0 : FiniteMat m0) (ms : List (M3 F32)) (hf : ∀ m ∈ ms, FiniteMat m) (v : V3 F32)
    (fv : ∀ i, (coord v i).IsFin = true) (hn : ms.length < 2 ^ 15)
    (hr : ∀ l, l <+: ms → 1 / 2 ^ 100 ≤ stretch (m0 :: l) ∧ stretch (m0 :: l) ≤ 2 ^ 100)
    (hs : ∀ l, l <:+ m0 :: ms → 1 / 2 ^ 100 ≤ stretch l * ‖realVec (coord v)‖ ∧ stretch l * ‖realVec (coord v)‖ ≤ 2 ^ 100) :
    ‖realVec (coord (ms.foldl (· * ·) m0 * v)) - realVec (coord ((m0 :: ms).foldr (fun m w => m * w) v))‖ ≤
      (ms.length + 1) * (36 / 2 ^ 24) * (stretch (m0 :: ms) * ‖realVec (coord v)‖) := by
  have e1 := (chainThenVec_near C81_mat3_mul C81_mat3_vec (by norm_num) m0 f0 ms hf v fv hn.le hr (hs _ List.suffix_rfl)).2
  have e2 := (chainVec_near C81_mat3_vec (by norm_num) (m0 :: ms) (by simpa using ⟨f0, hf⟩) v fv hn hs).2
  exact two_sides hn (mul_nonneg (stretch_nonneg _) (norm_nonneg _)) e1 e2

/-- C109, `mat4`: if the partial products cannot stretch or shrink a vector by more than `2^100`, nothing overflows, and after `n`
multiplications the result is within `n * 18 * 2^-24`, relative to the product of the norms, of the exact product. -/
theorem C109_mat4 (m0 : M4 F32) (f0 : FiniteMat m0) (ms : List (M4 F32)) (hf : ∀ m ∈ ms, FiniteMat m) (hn : ms.length ≤ 2 ^ 15)
    (hr : ∀ l, l <+: ms → 1 / 2 ^ 100 ≤ stretch (m0 :: l) ∧ stretch (m0 :: l) ≤ 2 ^ 100) :
    FiniteMat (ms.foldl (· * ·) m0) ∧
    ‖realMat (ms.foldl (· * ·) m0) - exactChain (m0 :: ms)‖ ≤ ms.length * (18 / 2 ^ 24) * stretch (m0 :: ms) := by
  obtain ⟨f, e⟩ := chain_near C81_mat4_mul (by norm_num) m0 f0 ms hf hn hr
  exact ⟨f, e.trans (mul_le_mul_of_nonneg_right (chain_growth hn).2.2 (stretch_nonneg _))⟩

/-- C109, `mat4`: applying the matrices to a vector one after the other. -/
theorem C109_mat4_vec (ms : List (M4 F32)) (hf : ∀ m ∈ ms, FiniteMat m) (v : V4 F32) (fv : ∀ i, (coord v i).IsFin = true)
    (hn : ms.length ≤ 2 ^ 15)
    (hr : ∀ l, l <:+ ms → 1 / 2 ^ 100 ≤ stretch l * ‖realVec (coord v)‖ ∧ stretch l * ‖realVec (coord v)‖ ≤ 2 ^ 100) :
    (∀ i, (coord (ms.foldr (fun m w => m * w) v) i).IsFin = true) ∧
    ‖realVec (coord (ms.foldr (fun m w => m * w) v)) - applyMat (exactChain ms) (realVec (coord v))‖ ≤
      ms.length * (18 / 2 ^ 24) * (stretch ms * ‖realVec (coord v)‖) := by
  obtain ⟨f, e⟩ := chainVec_near C81_mat4_vec (by norm_num) ms hf v fv hn hr
  exact ⟨f, e.trans (mul_le_mul_of_nonneg_right (chain_growth hn).2.2 (mul_nonneg (stretch_nonneg _) (norm_nonneg _)))⟩

/-- C109, `mat4`: multiplying all the matrices first, or applying them to the vector one after the other, gives almost the same. -/
theorem C109_mat4_order (m0 : M4 F32) (f0 : FiniteMat m0) (ms : List (M4 F32)) (hf : ∀ m ∈ ms, FiniteMat m) (v : V4 F32)
    (fv : ∀ i, (coord v i).IsFin = true) (hn : ms.length < 2 ^ 15)
    (hr : ∀ l, l <+: ms → 1 / 2 ^ 100 ≤ stretch (m0 :: l) ∧ stretch (m0 :: l) ≤ 2 ^ 100)
    (hs : ∀ l, l <:+ m0 :: ms → 1 / 2 ^ 100 ≤ stretch l * ‖realVec (coord v)‖ ∧ stretch l * ‖realVec (coord v)‖ ≤ 2 ^ 100) :
    ‖realVec (coord (ms.foldl (· * ·) m0 * v)) - realVec (coord ((m0 :: ms).foldr (fun m w => m * w) v))‖ ≤
      (ms.length + 1) * (36 / 2 ^ 24) * (stretch (m0 :: ms) * ‖realVec (coord v)‖) := by
  have e1 := (chainThenVec_near C81_mat4_mul C81_mat4_vec (by norm_num) m0 f0 ms hf v fv hn.le hr (hs _ List.suffix_rfl)).2
  have e2 := (chainVec_near C81_mat4_vec (by norm_num) (m0 :: ms) (by simpa using ⟨f0, hf⟩) v fv hn hs).2
  exact two_sides hn (mul_nonneg (stretch_nonneg _) (norm_nonneg _)) e1 e2

theorem norm_of_orthogonal {n : ℕ} [NeZero n] {A : Matrix (Fin n) (Fin n) ℝ} (h : Aᵀ * A = 1) : ‖A‖ = 1 := by
  have e := A.l2_opNorm_conjTranspose_mul_self
  rw [Matrix.conjTranspose_eq_transpose_of_trivial, h, norm_one] at e
  nlinarith [norm_nonneg A]

theorem stretch_one {M : Type → Type} {n : ℕ} [Entries M n] {m : M F32} (h : ‖realMat m‖ = 1) {l : List (M F32)} (hl : ∀ a ∈ l, a = m) :
    stretch l = 1 := by
  induction l with
  | nil => rfl
  | cons a l ih => rw [stretch_cons, ih fun b hb => hl b (List.mem_cons_of_mem _ hb), hl a (by simp), h, mul_one]

/-- a signed permutation matrix -/
def turn2 : M2 F32 := ⟨⟨lit 0, lit 1⟩, ⟨lit (-1), lit 0⟩⟩

theorem turn2_ok : FiniteMat turn2 ∧ ‖realMat turn2‖ = 1 := by
  have e0 : ((lit 0 : F32).val : ℝ) = 0 := by have : (lit 0 : F32).val = 0 := by decide +kernel
                                              rw [this]; norm_num
  have e1 : ((lit 1 : F32).val : ℝ) = 1 := by have : (lit 1 : F32).val = 1 := by decide +kernel
                                              rw [this]; norm_num
  have e2 : ((lit (-1) : F32).val : ℝ) = -1 := by have : (lit (-1) : F32).val = -1 := by decide +kernel
                                                  rw [this]; norm_num
  refine ⟨fun c r => by fin_cases c <;> fin_cases r <;> decide +kernel, norm_of_orthogonal ?_⟩
  ext r c
  rw [Matrix.mul_apply, Fin.sum_univ_two]
  fin_cases r <;> fin_cases c <;> simp [realMat, turn2, entry, coord, e0, e1, e2]

/-- Non-vacuity, `mat2`: a thousand signed permutations applied to a vector of length 5. -/
example : FiniteMat turn2 ∧ (∀ m ∈ List.replicate 999 turn2, FiniteMat m) ∧ (List.replicate 999 turn2).length < 2 ^ 15 ∧
    (∀ i, (coord (⟨lit 3, lit 4⟩ : V2 F32) i).IsFin = true) ∧
    (∀ l, l <+: List.replicate 999 turn2 → 1 / 2 ^ 100 ≤ stretch (turn2 :: l) ∧ stretch (turn2 :: l) ≤ 2 ^ 100) ∧
    (∀ l, l <:+ turn2 :: List.replicate 999 turn2 → 1 / 2 ^ 100 ≤ stretch l * ‖realVec (coord (⟨lit 3, lit 4⟩ : V2 F32))‖ ∧
      stretch l * ‖realVec (coord (⟨lit 3, lit 4⟩ : V2 F32))‖ ≤ 2 ^ 100) := by
  obtain ⟨f, e⟩ := turn2_ok
  have all : ∀ m ∈ List.replicate 999 turn2, m = turn2 := fun m h => List.eq_of_mem_replicate h
  have e0 : (lit 0 : F32).val = 0 := by decide +kernel
  have e3 : (lit 3 : F32).val = 3 := by decide +kernel
  have e4 : (lit 4 : F32).val = 4 := by decide +kernel
  have v : ‖realVec (coord (⟨lit 3, lit 4⟩ : V2 F32))‖ = 5 := by
    rw [← sq_eq_sq₀ (norm_nonneg _) (by norm_num), EuclideanSpace.norm_sq_eq, Fin.sum_univ_two]
    simp [realVec, coord, e0, e3, e4]
    norm_num
  refine ⟨f, fun m h => all m h ▸ f, by rw [List.length_replicate]; norm_num, fun i => by fin_cases i <;> decide +kernel, fun l hl => ?_, fun l hl => ?_⟩
  · rw [stretch_one e fun a ha => (List.mem_cons.1 ha).elim id fun h => all a (hl.subset h)]; norm_num
  · rw [stretch_one e fun a ha => (List.mem_cons.1 (hl.subset ha)).elim id fun h => all a h, v]; norm_num

/-- a signed permutation matrix -/
def turn3 : M3 F32 := ⟨⟨lit 0, lit 1, lit 0⟩, ⟨lit 0, lit 0, lit (-1)⟩, ⟨lit 1, lit 0, lit 0⟩⟩

theorem turn3_ok : FiniteMat turn3 ∧ ‖realMat turn3‖ = 1 := by
  have e0 : ((lit 0 : F32).val : ℝ) = 0 := by have : (lit 0 : F32).val = 0 := by decide +kernel
                                              rw [this]; norm_num
  have e1 : ((lit 1 : F32).val : ℝ) = 1 := by have : (lit 1 : F32).val = 1 := by decide +kernel
                                              rw [this]; norm_num
  have e2 : ((lit (-1) : F32).val : ℝ) = -1 := by have : (lit (-1) : F32).val = -1 := by decide +kernel
                                                  rw [this]; norm_num
  refine ⟨fun c r => by fin_cases c <;> fin_cases r <;> decide +kernel, norm_of_orthogonal ?_⟩
  ext r c
  rw [Matrix.mul_apply, Fin.sum_univ_three]
  fin_cases r <;> fin_cases c <;> simp [realMat, turn3, entry, coord, e0, e1, e2]

/-- Non-vacuity, `mat3`: a thousand signed permutations applied to a vector of length 5. -/
example : FiniteMat turn3 ∧ (∀ m ∈ List.replicate 999 turn3, FiniteMat m) ∧ (List.replicate 999 turn3).length < 2 ^ 15 ∧
    (∀ i, (coord (⟨lit 0, lit 3, lit 4⟩ : V3 F32) i).IsFin = true) ∧
    (∀ l, l <+: List.replicate 999 turn3 → 1 / 2 ^ 100 ≤ stretch (turn3 :: l) ∧ stretch (turn3 :: l) ≤ 2 ^ 100) ∧
    (∀ l, l <:+ turn3 :: List.replicate 999 turn3 → 1 / 2 ^ 100 ≤ stretch l * ‖realVec (coord (⟨lit 0, lit 3, lit 4⟩ : V3 F32))‖ ∧
      stretch l * ‖realVec (coord (⟨lit 0, lit 3, lit 4⟩ : V3 F32))‖ ≤ 2 ^ 100) := by
  obtain ⟨f, e⟩ := turn3_ok
  have all : ∀ m ∈ List.replicate 999 turn3, m = turn3 := fun m h => List.eq_of_mem_replicate h
  have e0 : (lit 0 : F32).val = 0 := by decide +kernel
  have e3 : (lit 3 : F32).val = 3 := by decide +kernel
  have e4 : (lit 4 : F32).val = 4 := by decide +kernel
  have v : ‖realVec (coord (⟨lit 0, lit 3, lit 4⟩ : V3 F32))‖ = 5 := by
    rw [← sq_eq_sq₀ (norm_nonneg _) (by norm_num), EuclideanSpace.norm_sq_eq, Fin.sum_univ_three]
    simp [realVec, coord, e0, e3, e4]
    norm_num
  refine ⟨f, fun m h => all m h ▸ f, by rw [List.length_replicate]; norm_num, fun i => by fin_cases i <;> decide +kernel, fun l hl => ?_, fun l hl => ?_⟩
  · rw [stretch_one e fun a ha => (List.mem_cons.1 ha).elim id fun h => all a (hl.subset h)]; norm_num
  · rw [stretch_one e fun a ha => (List.mem_cons.1 (hl.subset ha)).elim id fun h => all a h, v]; norm_num

/-- a signed permutation matrix -/
def turn4 : M4 F32 := ⟨⟨lit 0, lit 1, lit 0, lit 0⟩, ⟨lit 0, lit 0, lit (-1), lit 0⟩, ⟨lit 1, lit 0, lit 0, lit 0⟩, ⟨lit 0, lit 0, lit 0, lit 1⟩⟩

theorem turn4_ok : FiniteMat turn4 ∧ ‖realMat turn4‖ = 1 := by
  have e0 : ((lit 0 : F32).val : ℝ) = 0 := by have : (lit 0 : F32).val = 0 := by decide +kernel
                                              rw [this]; norm_num
  have e1 : ((lit 1 : F32).val : ℝ) = 1 := by have : (lit 1 : F32).val = 1 := by decide +kernel
                                              rw [this]; norm_num
  have e2 : ((lit (-1) : F32).val : ℝ) = -1 := by have : (lit (-1) : F32).val = -1 := by decide +kernel
                                                  rw [this]; norm_num
  refine ⟨fun c r => by fin_cases c <;> fin_cases r <;> decide +kernel, norm_of_orthogonal ?_⟩
  ext r c
  rw [Matrix.mul_apply, Fin.sum_univ_four]
  fin_cases r <;> fin_cases c <;> simp [realMat, turn4, entry, coord, e0, e1, e2]

/-- Non-vacuity, `mat4`: a thousand signed permutations applied to a vector of length 5. -/
example : FiniteMat turn4 ∧ (∀ m ∈ List.replicate 999 turn4, FiniteMat m) ∧ (List.replicate 999 turn4).length < 2 ^ 15 ∧
    (∀ i, (coord (⟨lit 3, lit 0, lit 4, lit 0⟩ : V4 F32) i).IsFin = true) ∧
    (∀ l, l <+: List.replicate 999 turn4 → 1 / 2 ^ 100 ≤ stretch (turn4 :: l) ∧ stretch (turn4 :: l) ≤ 2 ^ 100) ∧
    (∀ l, l <:+ turn4 :: List.replicate 999 turn4 → 1 / 2 ^ 100 ≤ stretch l * ‖realVec (coord (⟨lit 3, lit 0, lit 4, lit 0⟩ : V4 F32))‖ ∧
      stretch l * ‖realVec (coord (⟨lit 3, lit 0, lit 4, lit 0⟩ : V4 F32))‖ ≤ 2 ^ 100) := by
  obtain ⟨f, e⟩ := turn4_ok
  have all : ∀ m ∈ List.replicate 999 turn4, m = turn4 := fun m h => List.eq_of_mem_replicate h
  have e0 : (lit 0 : F32).val = 0 := by decide +kernel
  have e3 : (lit 3 : F32).val = 3 := by decide +kernel
  have e4 : (lit 4 : F32).val = 4 := by decide +kernel
  have v : ‖realVec (coord (⟨lit 3, lit 0, lit 4, lit 0⟩ : V4 F32))‖ = 5 := by
    rw [← sq_eq_sq₀ (norm_nonneg _) (by norm_num), EuclideanSpace.norm_sq_eq, Fin.sum_univ_four]
    simp [realVec, coord, e0, e3, e4]
    norm_num
  refine ⟨f, fun m h => all m h ▸ f, by rw [List.length_replicate]; norm_num, fun i => by fin_cases i <;> decide +kernel, fun l hl => ?_, fun l hl => ?_⟩
  · rw [stretch_one e fun a ha => (List.mem_cons.1 ha).elim id fun h => all a (hl.subset h)]; norm_num
  · rw [stretch_one e fun a ha => (List.mem_cons.1 (hl.subset ha)).elim id fun h => all a h, v]; norm_num

theorem rot_growth {k : ℕ} (h : k ≤ 2 ^ 12) : (1 / 2 : ℝ) ≤ (1 - 3 / 2 ^ 17) ^ k ∧ (1 + 3 / 2 ^ 17 : ℝ) ^ k ≤ 1.2 ∧
    (1 + 3 / 2 ^ 17 : ℝ) ^ k - 1 ≤ k * (3.3 / 2 ^ 17) := by
  have kr : (k : ℝ) ≤ 2 ^ 12 := by exact_mod_cast h
  have k0 : (0 : ℝ) ≤ k := Nat.cast_nonneg k
  have e : (1 + 3 / 2 ^ 17 : ℝ) ^ k ≤ Real.exp (k * (3 / 2 ^ 17)) := by
    rw [Real.exp_nat_mul]
    gcongr
    linarith [Real.add_one_le_exp (3 / 2 ^ 17 : ℝ)]
  have x0 : (0 : ℝ) ≤ k * (3 / 2 ^ 17) := by positivity
  have x1 : (k : ℝ) * (3 / 2 ^ 17) ≤ 3 / 32 := by linarith
  have b := (_root_.abs_le.1 (Real.abs_exp_sub_one_sub_id_le (x := (k : ℝ) * (3 / 2 ^ 17)) (by rw [abs_of_nonneg x0]; linarith))).2
  have l := one_add_mul_le_pow (a := (-(3 / 2 ^ 17) : ℝ)) (by norm_num) k
  rw [← sub_eq_add_neg] at l
  refine ⟨by linarith, ?_, ?_⟩ <;> nlinarith

/-- C109: the product of the matrices `mat3_cast(q0) * ... * mat3_cast(qn)` of normalised quaternions is the matrix of the rotation by
the exact product `q0 ⋯ qn`: each column is within `(n + 1) * 2^-15` of the exactly rotated basis vector. -/
theorem C109_rotations (q0 : Quat F32) (h0 : q0.Finite) (hu : |‖exactQ q0‖ - 1| ≤ 1 / 2 ^ 20) (qs : List (Quat F32))
    (hf : ∀ q ∈ qs, q.Finite) (hq : ∀ q ∈ qs, |‖exactQ q‖ - 1| ≤ 1 / 2 ^ 20) (hn : qs.length < 2 ^ 12) (c : Fin 3) :
    FiniteMat ((qs.map Quat.mat3_cast).foldl (· * ·) (Quat.mat3_cast q0)) ∧
    ‖exactColumn ((qs.map Quat.mat3_cast).foldl (· * ·) (Quat.mat3_cast q0)) c -
      exactProduct q0 qs * axisQ c * (exactProduct q0 qs)⁻¹‖ ≤ (qs.length + 1) / 2 ^ 15 := by
  have range : ∀ l, l <+: qs.map Quat.mat3_cast →
      1 / 2 ^ 100 ≤ stretch (Quat.mat3_cast q0 :: l) ∧ stretch (Quat.mat3_cast q0 :: l) ≤ 2 ^ 100 := by
    intro l hl
    obtain ⟨k, hk, rfl⟩ := List.prefix_map_iff.1 hl
    obtain ⟨-, r1, r2, -⟩ := rot_chain q0 h0 hu k (fun q h => hf q (hk.subset h)) fun q h => hq q (hk.subset h)
    obtain ⟨g1, g2, -⟩ := rot_growth (k := k.length + 1) (lt_of_le_of_lt hk.length_le hn)
    exact ⟨le_trans (by norm_num) (g1.trans r1), (r2.trans g2).trans (by norm_num)⟩
  obtain ⟨F, E⟩ := C109_mat3 (Quat.mat3_cast q0) (cast_near q0 h0 hu).1 (qs.map Quat.mat3_cast) (fun m hm => by
      obtain ⟨q, h, rfl⟩ := List.mem_map.1 hm
      exact (cast_near q (hf q h) (hq q h)).1) (by rw [List.length_map]; omega) range
  refine ⟨F, ?_⟩
  obtain ⟨e1, -, e2, -⟩ := rot_chain q0 h0 hu qs hf hq
  obtain ⟨-, g2, g3⟩ := rot_growth (k := qs.length + 1) hn
  rw [List.length_map] at E
  generalize (qs.map Quat.mat3_cast).foldl (· * ·) (Quat.mat3_cast q0) = X at *
  generalize stretch (Quat.mat3_cast q0 :: qs.map Quat.mat3_cast) = S at *
  generalize exactChain (Quat.mat3_cast q0 :: qs.map Quat.mat3_cast) = A at *
  have k0 : (0 : ℝ) ≤ qs.length := Nat.cast_nonneg _
  have e3 : (qs.length : ℝ) * (18 / 2 ^ 24) * S ≤ qs.length * (18 / 2 ^ 24) * 1.2 := by gcongr; exact e2.trans g2
  have tri := norm_sub_le_norm_sub_add_norm_sub (realMat X) A (rotMat (exactProduct q0 qs))
  have total : ‖realMat X - rotMat (exactProduct q0 qs)‖ ≤ (qs.length + 1) / 2 ^ 15 := by
    push_cast at g3
    linarith
  have col := column_le (realMat X - rotMat (exactProduct q0 qs)) c
  have pure : (exactColumn X c - exactProduct q0 qs * axisQ c * (exactProduct q0 qs)⁻¹).re = 0 := by
    rw [re_sub, re_conj_pure _ _ (axis_re c)]; simp [exactColumn]
  have same : ∀ r, (realMat X - rotMat (exactProduct q0 qs)) r c =
      imag (exactColumn X c - exactProduct q0 qs * axisQ c * (exactProduct q0 qs)⁻¹) r := by
    intro r
    rw [Matrix.sub_apply]
    change ((entry X c r).val : ℝ) - imag (exactProduct q0 qs * axisQ c * (exactProduct q0 qs)⁻¹) r = _
    generalize exactProduct q0 qs * axisQ c * (exactProduct q0 qs)⁻¹ = Y
    fin_cases r
    · exact (imI_sub (exactColumn X c) Y).symm
    · exact (imJ_sub (exactColumn X c) Y).symm
    · exact (imK_sub (exactColumn X c) Y).symm
  simp only [same] at col
  rw [imag_norm pure] at col
  exact (le_of_sq_le_sq col (norm_nonneg _)).trans total

/-- Non-vacuity: a thousand rotations by 120 degrees about (1, 1, 1). -/
example : third.Finite ∧ |‖exactQ third‖ - 1| ≤ 1 / 2 ^ 20 ∧ (∀ q ∈ List.replicate 999 third, q.Finite) ∧
    (∀ q ∈ List.replicate 999 third, |‖exactQ q‖ - 1| ≤ 1 / 2 ^ 20) ∧ (List.replicate 999 third).length < 2 ^ 12 := by
  obtain ⟨f, n⟩ := third_norm
  refine ⟨f, by rw [n]; norm_num, fun q h => ?_, fun q h => ?_, by rw [List.length_replicate]; norm_num⟩
  · rw [List.eq_of_mem_replicate h]; exact f
  · rw [List.eq_of_mem_replicate h, n]; norm_num

end Zcm
