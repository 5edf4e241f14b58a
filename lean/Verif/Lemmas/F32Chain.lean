import Verif.Spec.Chains
import Verif.Spec.Accuracy
import Mathlib.Analysis.SpecialFunctions.Exp
import Mathlib.Tactic.LinearCombination

/-!
# Rounding errors of long products of matrices
-/

set_option exponentiation.threshold 300

namespace Zcm

open WithLp F32
open scoped Matrix Matrix.Norms.L2Operator

variable {M : Type → Type} {n : ℕ}

theorem norm_applyMat (A : Matrix (Fin n) (Fin n) ℝ) (x : EuclideanSpace ℝ (Fin n)) : ‖applyMat A x‖ ≤ ‖A‖ * ‖x‖ :=
  A.l2_opNorm_mulVec x

theorem column_le (A : Matrix (Fin n) (Fin n) ℝ) (c : Fin n) : ∑ r, A r c ^ 2 ≤ ‖A‖ ^ 2 := by
  have h := norm_applyMat A (EuclideanSpace.single c (1 : ℝ))
  rw [PiLp.norm_single, norm_one, mul_one] at h
  have e : ‖applyMat A (EuclideanSpace.single c (1 : ℝ))‖ ^ 2 = ∑ r, A r c ^ 2 := by
    rw [EuclideanSpace.norm_sq_eq]
    refine Finset.sum_congr rfl fun r _ => ?_
    rw [Real.norm_eq_abs, sq_abs]
    congr 1
    change (A *ᵥ Pi.single c (1 : ℝ)) r = A r c
    rw [Matrix.mulVec_single_one]
    rfl
  rw [← e]
  gcongr

theorem row_le (A : Matrix (Fin n) (Fin n) ℝ) (r : Fin n) : ∑ c, A r c ^ 2 ≤ ‖A‖ ^ 2 := by
  have h := column_le Aᵀ r
  rwa [← Matrix.conjTranspose_eq_transpose_of_trivial, Matrix.l2_opNorm_conjTranspose] at h

/-- Cauchy and Schwarz for magnitudes -/
theorem sum_abs_mul_le {f g : Fin n → ℝ} {F G : ℝ} (hF : 0 ≤ F) (hG : 0 ≤ G) (hf : ∑ i, f i ^ 2 ≤ F ^ 2) (hg : ∑ i, g i ^ 2 ≤ G ^ 2) :
    ∑ i, |f i * g i| ≤ F * G := by
  refine le_of_sq_le_sq ?_ (by positivity)
  have := Finset.sum_mul_sq_le_sq_mul_sq Finset.univ (fun i => |f i|) (fun i => |g i|)
  simp only [sq_abs] at this
  simp only [abs_mul]
  refine this.trans ?_
  rw [mul_pow]
  gcongr

/-- a matrix with small entries -/
theorem norm_le_of_entries {A : Matrix (Fin n) (Fin n) ℝ} {e : ℝ} (e0 : 0 ≤ e) (h : ∀ r c, |A r c| ≤ e) : ‖A‖ ≤ n * e := by
  rw [Matrix.l2_opNorm_def]
  refine ContinuousLinearMap.opNorm_le_bound _ (by positivity) fun x => ?_
  refine le_of_sq_le_sq ?_ (by positivity)
  rw [EuclideanSpace.norm_sq_eq]
  have row : ∀ r, ‖(toLp 2 (A *ᵥ ofLp x) : EuclideanSpace ℝ (Fin n)) r‖ ^ 2 ≤ n * e ^ 2 * ‖x‖ ^ 2 := by
    intro r
    rw [Real.norm_eq_abs, sq_abs]
    change (∑ c, A r c * x c) ^ 2 ≤ _
    refine (Finset.sum_mul_sq_le_sq_mul_sq Finset.univ (fun c => A r c) (fun c => x c)).trans ?_
    have s1 : ∑ c, A r c ^ 2 ≤ n * e ^ 2 := by
      calc ∑ c, A r c ^ 2 ≤ ∑ _c : Fin n, e ^ 2 := Finset.sum_le_sum fun c _ => by
            have := h r c
            rw [← sq_abs]
            gcongr
        _ = _ := by simp
    have s2 : ∑ c, x c ^ 2 = ‖x‖ ^ 2 := by
      rw [EuclideanSpace.norm_sq_eq]
      exact Finset.sum_congr rfl fun c _ => by rw [Real.norm_eq_abs, sq_abs]
    rw [s2]
    gcongr
  refine (Finset.sum_le_sum fun r _ => row r).trans (le_of_eq ?_)
  rw [Finset.sum_const, Finset.card_univ, Fintype.card_fin, nsmul_eq_mul]
  ring

theorem norm_le_of_coords {x : EuclideanSpace ℝ (Fin n)} {e : ℝ} (h : ∀ r, |x r| ≤ e) : ‖x‖ ^ 2 ≤ n * e ^ 2 := by
  rw [EuclideanSpace.norm_sq_eq]
  calc ∑ r, ‖x r‖ ^ 2 ≤ ∑ _r : Fin n, e ^ 2 := Finset.sum_le_sum fun r _ => by
        have := h r
        rw [Real.norm_eq_abs]
        gcongr
    _ = _ := by simp

variable [Entries M n] [Mul (M F32)]

/-- what C81 says of `*` -/
def GoodMul (M : Type → Type) {n : ℕ} [Entries M n] [Mul (M F32)] : Prop :=
  ∀ (a b : M F32) (c r : Fin n), AccurateSum (entry (a * b) c r) (fun k => entry a k r) (entry b c)

theorem accurate_real {x : F32} {a b : Fin n → F32} (h : AccurateSum x a b) (hn : n ≤ 4) (fa : ∀ i, (a i).IsFin = true)
    (fb : ∀ i, (b i).IsFin = true) {T : ℝ} (hT : ∑ i, |((a i).val : ℝ) * (b i).val| ≤ T) (T1 : T ≤ 2 ^ 126) :
    x.IsFin = true ∧ |(x.val : ℝ) - ∑ i, ((a i).val : ℝ) * (b i).val| ≤ 4.001 / 2 ^ 24 * T + 1 / 2 ^ 147 := by
  obtain ⟨h1, h2⟩ := h
  have s : ((∑ i, |(a i).val * (b i).val| : ℚ) : ℝ) = ∑ i, |((a i).val : ℝ) * (b i).val| := by push_cast; rfl
  have T0 : 0 ≤ T := le_trans (Finset.sum_nonneg fun i _ => abs_nonneg _) hT
  have f := h1 (fun i => ⟨fa i, fb i⟩) (by
    have : ((∑ i, |(a i).val * (b i).val| : ℚ) : ℝ) ≤ ((2 ^ 126 : ℚ) : ℝ) := by
      rw [s]; refine (hT.trans T1).trans ?_; norm_num
    exact_mod_cast this)
  refine ⟨f, ?_⟩
  have e := h2 f
  have e' : |(x.val : ℝ) - ∑ i, ((a i).val : ℝ) * (b i).val| ≤
      ((1 + 1 / 2 ^ 24) ^ n - 1) * ∑ i, |((a i).val : ℝ) * (b i).val| + n / 2 ^ 149 := by
    have := (Rat.cast_le (K := ℝ)).2 e
    push_cast at this
    exact this
  refine e'.trans ?_
  have g : (1 + 1 / 2 ^ 24 : ℝ) ^ n - 1 ≤ 4.001 / 2 ^ 24 := by
    have : (1 + 1 / 2 ^ 24 : ℝ) ^ n ≤ (1 + 1 / 2 ^ 24) ^ 4 := pow_le_pow_right₀ (by norm_num) hn
    refine (sub_le_sub_right this 1).trans ?_
    norm_num
  have n4 : (n : ℝ) ≤ 4 := by exact_mod_cast hn
  have k : (n : ℝ) / 2 ^ 149 ≤ 1 / 2 ^ 147 := by
    calc (n : ℝ) / 2 ^ 149 ≤ 4 / 2 ^ 149 := by gcongr
      _ = _ := by norm_num
  have g0 : 0 ≤ (1 + 1 / 2 ^ 24 : ℝ) ^ n - 1 := sub_nonneg.2 (one_le_pow₀ (by norm_num))
  have : ((1 + 1 / 2 ^ 24 : ℝ) ^ n - 1) * ∑ i, |((a i).val : ℝ) * (b i).val| ≤ 4.001 / 2 ^ 24 * T := by gcongr
  linarith

/-- one multiplication -/
theorem mul_near (hM : GoodMul M) (hn : n ≤ 4) {a b : M F32} (fa : FiniteMat a) (fb : FiniteMat b)
    (h : ‖realMat a‖ * ‖realMat b‖ ≤ 2 ^ 126) :
    FiniteMat (a * b) ∧ ‖realMat (a * b) - realMat a * realMat b‖ ≤ 16.01 / 2 ^ 24 * (‖realMat a‖ * ‖realMat b‖) + 1 / 2 ^ 145 := by
  have key : ∀ c r, (entry (a * b) c r).IsFin = true ∧ |((entry (a * b) c r).val : ℝ) - ∑ k, ((entry a k r).val : ℝ) * (entry b c k).val| ≤
      4.001 / 2 ^ 24 * (‖realMat a‖ * ‖realMat b‖) + 1 / 2 ^ 147 := fun c r =>
    accurate_real (hM a b c r) hn (fun k => fa k r) (fun k => fb c k)
      (sum_abs_mul_le (norm_nonneg _) (norm_nonneg _) (row_le (realMat a) r) (column_le (realMat b) c)) h
  refine ⟨fun c r => (key c r).1, ?_⟩
  have N0 : 0 ≤ ‖realMat a‖ * ‖realMat b‖ := by positivity
  refine (norm_le_of_entries (e := 4.001 / 2 ^ 24 * (‖realMat a‖ * ‖realMat b‖) + 1 / 2 ^ 147) (by positivity) fun r c => ?_).trans ?_
  · have := (key c r).2
    rw [Matrix.sub_apply, Matrix.mul_apply]
    exact this
  · have n4 : (n : ℝ) ≤ 4 := by exact_mod_cast hn
    calc (n : ℝ) * (4.001 / 2 ^ 24 * (‖realMat a‖ * ‖realMat b‖) + 1 / 2 ^ 147)
        ≤ 4 * (4.001 / 2 ^ 24 * (‖realMat a‖ * ‖realMat b‖) + 1 / 2 ^ 147) := by gcongr
      _ ≤ _ := by linarith

/-- one application to a vector -/
theorem apply_near {m : M F32} {v w : Fin n → F32} (hw : ∀ r, AccurateSum (w r) (fun c => entry m c r) v) (hn : n ≤ 4) (fm : FiniteMat m)
    (fv : ∀ i, (v i).IsFin = true) (h : ‖realMat m‖ * ‖realVec v‖ ≤ 2 ^ 126) :
    (∀ i, (w i).IsFin = true) ∧
    ‖realVec w - applyMat (realMat m) (realVec v)‖ ≤ 8.003 / 2 ^ 24 * (‖realMat m‖ * ‖realVec v‖) + 1 / 2 ^ 146 := by
  have s2 : ∑ c, ((v c).val : ℝ) ^ 2 ≤ ‖realVec v‖ ^ 2 := by
    rw [EuclideanSpace.norm_sq_eq]
    refine le_of_eq (Finset.sum_congr rfl fun c _ => ?_)
    rw [Real.norm_eq_abs, sq_abs]
    rfl
  have key : ∀ r, (w r).IsFin = true ∧ |((w r).val : ℝ) - ∑ c, ((entry m c r).val : ℝ) * (v c).val| ≤
      4.001 / 2 ^ 24 * (‖realMat m‖ * ‖realVec v‖) + 1 / 2 ^ 147 := fun r =>
    accurate_real (hw r) hn (fun k => fm k r) fv
      (sum_abs_mul_le (norm_nonneg _) (norm_nonneg _) (row_le (realMat m) r) s2) h
  refine ⟨fun r => (key r).1, ?_⟩
  have N0 : 0 ≤ ‖realMat m‖ * ‖realVec v‖ := by positivity
  have e := norm_le_of_coords (x := realVec w - applyMat (realMat m) (realVec v)) (e := 4.001 / 2 ^ 24 * (‖realMat m‖ * ‖realVec v‖) + 1 / 2 ^ 147)
    fun r => (key r).2
  have n4 : (n : ℝ) ≤ 4 := by exact_mod_cast hn
  refine le_of_sq_le_sq (e.trans ?_) (by positivity)
  calc (n : ℝ) * (4.001 / 2 ^ 24 * (‖realMat m‖ * ‖realVec v‖) + 1 / 2 ^ 147) ^ 2
      ≤ 4 * (4.001 / 2 ^ 24 * (‖realMat m‖ * ‖realVec v‖) + 1 / 2 ^ 147) ^ 2 := by gcongr
    _ = (2 * (4.001 / 2 ^ 24 * (‖realMat m‖ * ‖realVec v‖) + 1 / 2 ^ 147)) ^ 2 := by ring
    _ ≤ _ := by gcongr ?_ ^ 2; linarith

/-! ### Chains -/

theorem chain_growth {k : ℕ} (h : k ≤ 2 ^ 15) :
    1 ≤ (1 + 17 / 2 ^ 24 : ℝ) ^ k ∧ (1 + 17 / 2 ^ 24 : ℝ) ^ k ≤ 2 ∧ (1 + 17 / 2 ^ 24 : ℝ) ^ k - 1 ≤ k * (18 / 2 ^ 24) := by
  have kr : (k : ℝ) ≤ 2 ^ 15 := by exact_mod_cast h
  have k0 : (0 : ℝ) ≤ k := Nat.cast_nonneg k
  have e : (1 + 17 / 2 ^ 24 : ℝ) ^ k ≤ Real.exp (k * (17 / 2 ^ 24)) := by
    rw [Real.exp_nat_mul]
    gcongr
    linarith [Real.add_one_le_exp (17 / 2 ^ 24 : ℝ)]
  have x0 : (0 : ℝ) ≤ k * (17 / 2 ^ 24) := by positivity
  have x1 : (k : ℝ) * (17 / 2 ^ 24) ≤ 1 / 30 := by linarith
  have b := (_root_.abs_le.1 (Real.abs_exp_sub_one_sub_id_le (x := (k : ℝ) * (17 / 2 ^ 24)) (by rw [abs_of_nonneg x0]; linarith))).2
  refine ⟨one_le_pow₀ (by norm_num), ?_, ?_⟩ <;> nlinarith

omit [Mul (M F32)] in
theorem exactChain_cons (m : M F32) (ms : List (M F32)) : exactChain (m :: ms) = realMat m * exactChain ms := by simp [exactChain]

omit [Mul (M F32)] in
theorem exactChain_append (ms : List (M F32)) (m : M F32) : exactChain (ms ++ [m]) = exactChain ms * realMat m := by simp [exactChain]

omit [Mul (M F32)] in
theorem stretch_cons (m : M F32) (ms : List (M F32)) : stretch (m :: ms) = ‖realMat m‖ * stretch ms := by simp [stretch]

omit [Mul (M F32)] in
theorem stretch_append (ms : List (M F32)) (m : M F32) : stretch (ms ++ [m]) = stretch ms * ‖realMat m‖ := by simp [stretch]

omit [Mul (M F32)] in
theorem stretch_nonneg (ms : List (M F32)) : 0 ≤ stretch ms := by
  induction ms with
  | nil => simp [stretch]
  | cons m ms ih => rw [stretch_cons]; positivity

omit [Mul (M F32)] in
theorem norm_chain_le (m : M F32) (ms : List (M F32)) : ‖exactChain (m :: ms)‖ ≤ stretch (m :: ms) := by
  induction ms using List.reverseRecOn with
  | nil => simp [exactChain, stretch]
  | append_singleton ms a ih =>
    rw [← List.cons_append, exactChain_append, stretch_append]
    exact (Matrix.l2_opNorm_mul _ _).trans (by gcongr)

/-- `m0 * m1 * ... * mn` from left to right -/
theorem chain_near (hM : GoodMul M) (h4 : n ≤ 4) (m0 : M F32) (f0 : FiniteMat m0) (ms : List (M F32)) (hf : ∀ m ∈ ms, FiniteMat m)
    (hn : ms.length ≤ 2 ^ 15) (hr : ∀ l, l <+: ms → 1 / 2 ^ 100 ≤ stretch (m0 :: l) ∧ stretch (m0 :: l) ≤ 2 ^ 100) :
    FiniteMat (ms.foldl (· * ·) m0) ∧
    ‖realMat (ms.foldl (· * ·) m0) - exactChain (m0 :: ms)‖ ≤ ((1 + 17 / 2 ^ 24) ^ ms.length - 1) * stretch (m0 :: ms) := by
  induction ms using List.reverseRecOn with
  | nil => exact ⟨f0, by simp [exactChain]⟩
  | append_singleton ms m ih =>
    have hn' : ms.length ≤ 2 ^ 15 := le_trans (by simp) hn
    obtain ⟨F, E⟩ := ih (fun m h => hf m (List.mem_append_left _ h)) hn' fun l hl => hr l (hl.trans (List.prefix_append _ _))
    obtain ⟨g1, g2, -⟩ := chain_growth hn'
    obtain ⟨r1, r2⟩ := hr _ List.prefix_rfl
    have N := norm_chain_le m0 ms
    rw [List.foldl_append, List.foldl_cons, List.foldl_nil, List.length_append, List.length_singleton, pow_succ]
    rw [← List.cons_append, stretch_append] at r1 r2
    rw [← List.cons_append, exactChain_append, stretch_append]
    have S0 := stretch_nonneg (m0 :: ms)
    generalize ms.foldl (· * ·) m0 = X at *
    generalize exactChain (m0 :: ms) = A at *
    generalize stretch (m0 :: ms) = S at *
    generalize (1 + 17 / 2 ^ 24 : ℝ) ^ ms.length = g at *
    have NX : ‖realMat X‖ ≤ g * S := by
      have := norm_add_le (realMat X - A) A
      rw [sub_add_cancel] at this
      linarith
    have NXm : ‖realMat X‖ * ‖realMat m‖ ≤ g * (S * ‖realMat m‖) := by
      rw [← mul_assoc]; gcongr
    have T0 : 0 ≤ S * ‖realMat m‖ := by positivity
    obtain ⟨F', E'⟩ := mul_near hM h4 F (hf m (by simp)) (by nlinarith)
    refine ⟨F', ?_⟩
    have E2 : ‖(realMat X - A) * realMat m‖ ≤ (g - 1) * (S * ‖realMat m‖) := by
      refine (Matrix.l2_opNorm_mul _ _).trans ?_
      rw [← mul_assoc]; gcongr
    have tri := norm_add_le (realMat (X * m) - realMat X * realMat m) ((realMat X - A) * realMat m)
    rw [sub_mul, sub_add_sub_cancel] at tri
    rw [sub_mul] at E2
    generalize ‖realMat X‖ * ‖realMat m‖ = q at *
    generalize S * ‖realMat m‖ = T at *
    have : T ≤ g * T := le_mul_of_one_le_left T0 g1
    have : (1 : ℝ) / 2 ^ 145 ≤ 1 / 2 ^ 40 * (1 / 2 ^ 100) := by norm_num
    linarith

/-- `m1 * (m2 * (... * (mn * v)))` -/
theorem chainVec_near {V : Type → Type} [Coords V n] [HMul (M F32) (V F32) (V F32)]
    (hV : ∀ (m : M F32) (v : V F32) (r : Fin n), AccurateSum (coord (m * v) r) (fun c => entry m c r) (coord v)) (h4 : n ≤ 4)
    (ms : List (M F32)) (hf : ∀ m ∈ ms, FiniteMat m) (v : V F32) (fv : ∀ i, (coord v i).IsFin = true)
    (hn : ms.length ≤ 2 ^ 15)
    (hr : ∀ l, l <:+ ms → 1 / 2 ^ 100 ≤ stretch l * ‖realVec (coord v)‖ ∧ stretch l * ‖realVec (coord v)‖ ≤ 2 ^ 100) :
    (∀ i, (coord (ms.foldr (fun m w => m * w) v) i).IsFin = true) ∧
    ‖realVec (coord (ms.foldr (fun m w => m * w) v)) - applyMat (exactChain ms) (realVec (coord v))‖ ≤
      ((1 + 17 / 2 ^ 24) ^ ms.length - 1) * (stretch ms * ‖realVec (coord v)‖) := by
  induction ms with
  | nil => exact ⟨fv, by simp [exactChain, applyMat]⟩
  | cons m ms ih =>
    have hn' : ms.length ≤ 2 ^ 15 := le_trans (by simp) hn
    obtain ⟨F, E⟩ := ih (fun m h => hf m (List.mem_cons_of_mem _ h)) hn' fun l hl => hr l (hl.trans (List.suffix_cons _ _))
    obtain ⟨g1, g2, -⟩ := chain_growth hn'
    obtain ⟨r1, r2⟩ := hr _ List.suffix_rfl
    have S0 := stretch_nonneg ms
    have N : ‖applyMat (exactChain ms) (realVec (coord v))‖ ≤ stretch ms * ‖realVec (coord v)‖ := by
      cases ms with
      | nil => simp [exactChain, stretch, applyMat]
      | cons a l => exact (norm_applyMat _ _).trans (by gcongr; exact norm_chain_le a l)
    rw [List.foldr_cons, List.length_cons, pow_succ]
    rw [stretch_cons] at r1 r2
    rw [exactChain_cons, stretch_cons]
    have app : applyMat (realMat m * exactChain ms) (realVec (coord v)) =
        applyMat (realMat m) (applyMat (exactChain ms) (realVec (coord v))) := by
      simp [applyMat]
    rw [app]
    generalize ms.foldr (fun m w => m * w) v = X at *
    generalize applyMat (exactChain ms) (realVec (coord v)) = A at *
    have sm : ‖realMat m‖ * stretch ms * ‖realVec (coord v)‖ = ‖realMat m‖ * (stretch ms * ‖realVec (coord v)‖) := by ring
    rw [sm] at r1 r2 ⊢
    have S0' : 0 ≤ stretch ms * ‖realVec (coord v)‖ := by positivity
    generalize stretch ms * ‖realVec (coord v)‖ = S at *
    generalize (1 + 17 / 2 ^ 24 : ℝ) ^ ms.length = g at *
    have NX : ‖realVec (coord X)‖ ≤ g * S := by
      have := norm_add_le (realVec (coord X) - A) A
      rw [sub_add_cancel] at this
      linarith
    have NXm : ‖realMat m‖ * ‖realVec (coord X)‖ ≤ g * (‖realMat m‖ * S) := by
      rw [mul_left_comm]; gcongr
    have T0 : 0 ≤ ‖realMat m‖ * S := by positivity
    obtain ⟨F', E'⟩ := apply_near (hV m X) h4 (hf m (by simp)) F (by nlinarith)
    refine ⟨F', ?_⟩
    have lin : applyMat (realMat m) (realVec (coord X) - A) = applyMat (realMat m) (realVec (coord X)) - applyMat (realMat m) A := by
      simp [applyMat, Matrix.mulVec_sub]
    have E2 : ‖applyMat (realMat m) (realVec (coord X) - A)‖ ≤ (g - 1) * (‖realMat m‖ * S) := by
      refine (norm_applyMat _ _).trans ?_
      rw [mul_left_comm]; gcongr
    have tri := norm_add_le (realVec (coord (m * X)) - applyMat (realMat m) (realVec (coord X))) (applyMat (realMat m) (realVec (coord X) - A))
    rw [lin, sub_add_sub_cancel] at tri
    rw [lin] at E2
    generalize ‖realMat m‖ * ‖realVec (coord X)‖ = q at *
    generalize ‖realMat m‖ * S = T at *
    have : T ≤ g * T := le_mul_of_one_le_left T0 g1
    have : (1 : ℝ) / 2 ^ 146 ≤ 1 / 2 ^ 40 * (1 / 2 ^ 100) := by norm_num
    linarith

/-- `(m0 * m1 * ... * mn) * v` -/
theorem chainThenVec_near {V : Type → Type} [Coords V n] [HMul (M F32) (V F32) (V F32)] (hM : GoodMul M)
    (hV : ∀ (m : M F32) (v : V F32) (r : Fin n), AccurateSum (coord (m * v) r) (fun c => entry m c r) (coord v)) (h4 : n ≤ 4)
    (m0 : M F32) (f0 : FiniteMat m0) (ms : List (M F32)) (hf : ∀ m ∈ ms, FiniteMat m) (v : V F32) (fv : ∀ i, (coord v i).IsFin = true)
    (hn : ms.length ≤ 2 ^ 15) (hr : ∀ l, l <+: ms → 1 / 2 ^ 100 ≤ stretch (m0 :: l) ∧ stretch (m0 :: l) ≤ 2 ^ 100)
    (hv : 1 / 2 ^ 100 ≤ stretch (m0 :: ms) * ‖realVec (coord v)‖ ∧ stretch (m0 :: ms) * ‖realVec (coord v)‖ ≤ 2 ^ 100) :
    (∀ i, (coord (ms.foldl (· * ·) m0 * v) i).IsFin = true) ∧
    ‖realVec (coord (ms.foldl (· * ·) m0 * v)) - applyMat (exactChain (m0 :: ms)) (realVec (coord v))‖ ≤
      ((1 + 17 / 2 ^ 24) ^ (ms.length + 1) - 1) * (stretch (m0 :: ms) * ‖realVec (coord v)‖) := by
  obtain ⟨F, E⟩ := chain_near hM h4 m0 f0 ms hf hn hr
  obtain ⟨g1, g2, -⟩ := chain_growth hn
  have N := norm_chain_le m0 ms
  have S0 := stretch_nonneg (m0 :: ms)
  rw [pow_succ]
  generalize ms.foldl (· * ·) m0 = X at *
  generalize exactChain (m0 :: ms) = A at *
  generalize stretch (m0 :: ms) = S at *
  generalize (1 + 17 / 2 ^ 24 : ℝ) ^ ms.length = g at *
  have NX : ‖realMat X‖ ≤ g * S := by
    have := norm_add_le (realMat X - A) A
    rw [sub_add_cancel] at this
    linarith
  have v0 := norm_nonneg (realVec (coord v))
  have NXv : ‖realMat X‖ * ‖realVec (coord v)‖ ≤ g * (S * ‖realVec (coord v)‖) := by
    rw [← mul_assoc]; gcongr
  have T0 : 0 ≤ S * ‖realVec (coord v)‖ := by positivity
  obtain ⟨F', E'⟩ := apply_near (hV X v) h4 F fv (by nlinarith)
  refine ⟨F', ?_⟩
  have lin : applyMat (realMat X - A) (realVec (coord v)) = applyMat (realMat X) (realVec (coord v)) - applyMat A (realVec (coord v)) := by
    simp [applyMat, Matrix.sub_mulVec]
  have E2 : ‖applyMat (realMat X - A) (realVec (coord v))‖ ≤ (g - 1) * (S * ‖realVec (coord v)‖) := by
    refine (norm_applyMat _ _).trans ?_
    rw [← mul_assoc]; gcongr
  have tri := norm_add_le (realVec (coord (X * v)) - applyMat (realMat X) (realVec (coord v))) (applyMat (realMat X - A) (realVec (coord v)))
  rw [lin, sub_add_sub_cancel] at tri
  rw [lin] at E2
  obtain ⟨r1, r2⟩ := hv
  generalize ‖realMat X‖ * ‖realVec (coord v)‖ = q at *
  generalize S * ‖realVec (coord v)‖ = T at *
  have : T ≤ g * T := le_mul_of_one_le_left T0 g1
  have : (1 : ℝ) / 2 ^ 146 ≤ 1 / 2 ^ 40 * (1 / 2 ^ 100) := by norm_num
  linarith

end Zcm
