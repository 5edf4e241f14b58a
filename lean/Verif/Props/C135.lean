import Verif.Props.C100

/-!
# C135  Turns about one axis add up in IEEE arithmetic

A wheel turned step by step: after any number of calls of `rotate` with the same axis, the result is what one turn by the
sum of the angles gives, up to an error that grows linearly with the number of calls.  `turnQ`, `direction` and `rodrigues`
are the exact rotations of Spec/Turn.lean, `turnRow θ n A` is the row `A` times the exact rotation matrix.
-/

set_option exponentiation.threshold 300

namespace Zcm

open Quaternion F32

/-! ## Exact facts -/

/-- exact turns about one axis add up -/
theorem turnQ_add {n : Fin 3 → ℝ} (hn : ∑ i, n i ^ 2 = 1) (a b : ℝ) : turnQ a n * turnQ b n = turnQ (a + b) n := by
  rw [Fin.sum_univ_three] at hn
  have c := Real.cos_add (a / 2) (b / 2)
  have s := Real.sin_add (a / 2) (b / 2)
  rw [← add_div] at c s
  ext
  · rw [re_mul]; simp only [turnQ]; rw [c]
    linear_combination (-(Real.sin (a / 2) * Real.sin (b / 2))) * hn
  · rw [imI_mul]; simp only [turnQ]; rw [s]; ring
  · rw [imJ_mul]; simp only [turnQ]; rw [s]; ring
  · rw [imK_mul]; simp only [turnQ]; rw [s]; ring

theorem turnQ_zero (n : Fin 3 → ℝ) : turnQ 0 n = 1 := by
  ext <;> simp [turnQ]

theorem turnQ_sum {n : Fin 3 → ℝ} (hn : ∑ i, n i ^ 2 = 1) (as : List ℝ) : (as.map fun a => turnQ a n).prod = turnQ as.sum n := by
  induction as with
  | nil => exact (turnQ_zero n).symm
  | cons a as ih => rw [List.map_cons, List.prod_cons, ih, turnQ_add hn, List.sum_cons]

/-- turning by a slightly different angle -/
theorem turnQ_diff {n : Fin 3 → ℝ} (hn : ∑ i, n i ^ 2 = 1) (a b : ℝ) : ‖turnQ a n - turnQ b n‖ ≤ |a - b| / 2 := by
  refine le_of_sq_le_sq ?_ (by positivity)
  have c := Real.cos_sub (a / 2) (b / 2)
  have q := Real.one_sub_sq_div_two_le_cos (x := a / 2 - b / 2)
  rw [Fin.sum_univ_three] at hn
  rw [norm_sq_quat, re_sub, imI_sub, imJ_sub, imK_sub, div_pow, sq_abs]
  simp only [turnQ]
  have e : (Real.cos (a / 2) - Real.cos (b / 2)) ^ 2 + (Real.sin (a / 2) * n 0 - Real.sin (b / 2) * n 0) ^ 2 +
      (Real.sin (a / 2) * n 1 - Real.sin (b / 2) * n 1) ^ 2 + (Real.sin (a / 2) * n 2 - Real.sin (b / 2) * n 2) ^ 2 =
      2 - 2 * Real.cos (a / 2 - b / 2) := by
    rw [c]
    linear_combination (Real.sin (a / 2) - Real.sin (b / 2)) ^ 2 * hn + Real.sin_sq_add_cos_sq (a / 2) +
      Real.sin_sq_add_cos_sq (b / 2)
  rw [e]
  nlinarith

theorem vecQ_inj {A B : Fin 3 → ℝ} (h : vecQ A = vecQ B) : A = B := by
  funext i
  have h0 := congrArg QuaternionAlgebra.imI h
  have h1 := congrArg QuaternionAlgebra.imJ h
  have h2 := congrArg QuaternionAlgebra.imK h
  fin_cases i <;> assumption

theorem rodrigues_add {n : Fin 3 → ℝ} (hn : ∑ i, n i ^ 2 = 1) (a b : ℝ) (p : Fin 3 → ℝ) :
    rodrigues a n (rodrigues b n p) = rodrigues (a + b) n p := by
  refine vecQ_inj ?_
  rw [← turnQ_rotates hn, ← turnQ_rotates hn, ← turnQ_rotates hn, ← turnQ_add hn, mul_inv_rev]
  simp only [mul_assoc]

theorem turnRow_add {n : Fin 3 → ℝ} (hn : ∑ i, n i ^ 2 = 1) (a b : ℝ) (A : Fin 3 → ℝ) :
    turnRow b n (turnRow a n A) = turnRow (a + b) n A := by
  rw [turnRow_eq, turnRow_eq, turnRow_eq, rodrigues_add hn]
  congr 1
  ring

theorem turnRow_sum {n : Fin 3 → ℝ} (hn : ∑ i, n i ^ 2 = 1) (as : List ℝ) (A : Fin 3 → ℝ) :
    as.foldl (fun A a => turnRow a n A) A = turnRow as.sum n A := by
  induction as generalizing A with
  | nil =>
    rw [turnRow_eq]
    refine vecQ_inj ?_
    rw [← turnQ_rotates hn]
    simp [turnQ_zero]
  | cons a as ih => rw [List.foldl_cons, ih, turnRow_add hn, List.sum_cons]

theorem turnRow_diff {n : Fin 3 → ℝ} (hn : ∑ i, n i ^ 2 = 1) (a b : ℝ) (A : Fin 3 → ℝ) :
    ‖vecQ (turnRow a n A) - vecQ (turnRow b n A)‖ ≤ 1.005 * |a - b| * ‖vecQ A‖ := by
  rw [turnRow_eq, turnRow_eq, ← turnQ_rotates hn, ← turnQ_rotates hn]
  have d := turnQ_diff hn (-a) (-b)
  rw [show -a - -b = -(a - b) by ring, abs_neg] at d
  refine (conj_close (turnQ_norm hn) (by rw [turnQ_norm hn]; norm_num) d).trans (le_of_eq ?_)
  ring

private theorem add_err {a b : F32} (hs : (a + b).IsFin = true) :
    |((a + b).val : ℝ) - (a.val + b.val)| ≤ |(a.val : ℝ) + b.val| / 2 ^ 24 := by
  have := add_error_rel hs
  have : ((|(a + b).val - (a.val + b.val)| : ℚ) : ℝ) ≤ ((|a.val + b.val| / 2 ^ 24 : ℚ) : ℝ) := by
    refine Rat.cast_le.2 (this.trans (le_of_eq ?_))
    ring
  push_cast at this
  exact this

/-! ## Quaternions -/

section
variable [Libm F32] (hl : GoodTrig)
include hl

/-- C135, quaternions: an orientation turned by up to `2^15` calls of `rotate` about one axis is within `n * 2^-13` of the
orientation turned exactly once, by the sum of the angles. -/
theorem C135_quat (q : Quat F32) (hq : q.Finite) (hu : |‖exactQ q‖ - 1| ≤ 1 / 2 ^ 20) (v : V3 F32) (hv : Medium (coord v))
    (as : List F32) (ha : ∀ a ∈ as, a.IsFin = true) (hn : as.length ≤ 2 ^ 15) :
    (as.foldl (fun q a => Quat.rotate q a v) q).Finite ∧
    ‖exactQ (as.foldl (fun q a => Quat.rotate q a v) q) -
      exactQ q * turnQ (as.map fun a => (a.val : ℝ)).sum (direction v)‖ ≤ as.length / 2 ^ 13 := by
  have h := C100_history hl q hq hu (as.map fun a => (a, v)) (fun t ht => by
    obtain ⟨a, h, rfl⟩ := List.mem_map.1 ht
    exact ⟨ha a h, hv⟩) (by rwa [List.length_map])
  rw [List.foldl_map, List.map_map, List.length_map] at h
  rw [← turnQ_sum (direction_unit hv), List.map_map]
  exact h

/-- C135, quaternions: turning step by step or once by `s`, for every number `s` close to the sum of the angles (for
instance the sum computed by the program). -/
theorem C135_quat_once (q : Quat F32) (hq : q.Finite) (hu : |‖exactQ q‖ - 1| ≤ 1 / 2 ^ 20) (v : V3 F32) (hv : Medium (coord v))
    (as : List F32) (ha : ∀ a ∈ as, a.IsFin = true) (hn : as.length ≤ 2 ^ 15) (s : F32) (hs : s.IsFin = true) :
    ‖exactQ (as.foldl (fun q a => Quat.rotate q a v) q) - exactQ (Quat.rotate q s v)‖ ≤
      (as.length + 1) / 2 ^ 13 + 0.501 * |(as.map fun a => (a.val : ℝ)).sum - s.val| := by
  have h1 := (C135_quat hl q hq hu v hv as ha hn).2
  have h2 := (C135_quat hl q hq hu v hv [s] (by simpa using hs) (by norm_num)).2
  simp only [List.foldl_cons, List.foldl_nil, List.map_cons, List.map_nil, List.sum_cons, List.sum_nil, add_zero,
    List.length_singleton, Nat.cast_one] at h2
  have d := turnQ_diff (direction_unit hv) (as.map fun a => (a.val : ℝ)).sum s.val
  generalize (as.map fun a => (a.val : ℝ)).sum = S at *
  generalize as.foldl (fun q a => Quat.rotate q a v) q = x at *
  have m : ‖exactQ q * turnQ S (direction v) - exactQ q * turnQ s.val (direction v)‖ ≤ 1.002 * (|S - s.val| / 2) := by
    rw [← mul_sub, norm_mul]
    have u := abs_le.1 hu
    have : ‖exactQ q‖ ≤ 1.002 := by linarith
    gcongr
  have t : exactQ x - exactQ (Quat.rotate q s v) = (exactQ x - exactQ q * turnQ S (direction v)) +
      (exactQ q * turnQ S (direction v) - exactQ q * turnQ s.val (direction v)) -
      (exactQ (Quat.rotate q s v) - exactQ q * turnQ s.val (direction v)) := by abel
  rw [t]
  refine (norm_sub_le _ _).trans ((add_le_add ((norm_add_le _ _).trans (add_le_add h1 m)) h2).trans (le_of_eq ?_))
  ring

/-- C135, quaternions: turning by `a` and then by `b` is turning by the float `a + b`. -/
theorem C135_quat_add (q : Quat F32) (hq : q.Finite) (hu : |‖exactQ q‖ - 1| ≤ 1 / 2 ^ 20) (v : V3 F32) (hv : Medium (coord v))
    (a b : F32) (ha : a.IsFin = true) (hb : b.IsFin = true) (hs : (a + b).IsFin = true) :
    ‖exactQ (Quat.rotate (Quat.rotate q a v) b v) - exactQ (Quat.rotate q (a + b) v)‖ ≤
      3 / 2 ^ 13 + |((a.val : ℝ) + b.val)| / 2 ^ 24 := by
  have h := C135_quat_once hl q hq hu v hv [a, b] (by simp [ha, hb]) (by norm_num) (a + b) hs
  simp only [List.foldl_cons, List.foldl_nil, List.map_cons, List.map_nil, List.sum_cons, List.sum_nil, add_zero,
    List.length_cons, List.length_nil] at h
  refine h.trans ?_
  have : |(a.val : ℝ) + b.val - (a + b).val| ≤ |(a.val : ℝ) + b.val| / 2 ^ 24 := by
    rw [abs_sub_comm]
    exact add_err hs
  have p : (0 : ℝ) ≤ |(a.val : ℝ) + b.val| := abs_nonneg _
  generalize |(a.val : ℝ) + b.val| = S at *
  push_cast
  norm_num at *
  linarith

/-- C135, quaternions: the order of the turns about one axis does not matter. -/
theorem C135_quat_order (q : Quat F32) (hq : q.Finite) (hu : |‖exactQ q‖ - 1| ≤ 1 / 2 ^ 20) (v : V3 F32) (hv : Medium (coord v))
    (as bs : List F32) (h : as.Perm bs) (ha : ∀ a ∈ as, a.IsFin = true) (hn : as.length ≤ 2 ^ 15) :
    ‖exactQ (as.foldl (fun q a => Quat.rotate q a v) q) - exactQ (bs.foldl (fun q a => Quat.rotate q a v) q)‖ ≤
      as.length / 2 ^ 12 := by
  have h1 := (C135_quat hl q hq hu v hv as ha hn).2
  have h2 := (C135_quat hl q hq hu v hv bs (fun a m => ha a (h.mem_iff.2 m)) (by rw [← h.length_eq]; exact hn)).2
  rw [← (h.map fun a => (a.val : ℝ)).sum_eq, ← h.length_eq, norm_sub_rev] at h2
  refine (norm_sub_le_norm_sub_add_norm_sub _ _ _).trans ((add_le_add h1 h2).trans (le_of_eq ?_))
  ring

/-- C135, quaternions: after turns that add up to `k` full turns (to within `δ`) the orientation is `(-1)^k` times the first
one, that is the same rotation. -/
theorem C135_quat_full (q : Quat F32) (hq : q.Finite) (hu : |‖exactQ q‖ - 1| ≤ 1 / 2 ^ 20) (v : V3 F32) (hv : Medium (coord v))
    (as : List F32) (ha : ∀ a ∈ as, a.IsFin = true) (hn : as.length ≤ 2 ^ 15) (k : ℤ) (δ : ℝ)
    (hk : |(as.map fun a => (a.val : ℝ)).sum - k * (2 * Real.pi)| ≤ δ) :
    ‖exactQ (as.foldl (fun q a => Quat.rotate q a v) q) - (-1 : ℝ) ^ k • exactQ q‖ ≤ as.length / 2 ^ 13 + 0.501 * δ := by
  have h1 := (C135_quat hl q hq hu v hv as ha hn).2
  have d := turnQ_diff (direction_unit hv) (as.map fun a => (a.val : ℝ)).sum (k * (2 * Real.pi))
  have t : turnQ (k * (2 * Real.pi)) (direction v) = ((-1 : ℝ) ^ k : ℝ) := by
    have e : (k * (2 * Real.pi)) / 2 = k * Real.pi := by ring
    ext
    · show Real.cos _ = _
      rw [e, Real.cos_int_mul_pi, re_coe]
    · show Real.sin _ * _ = _
      rw [e, Real.sin_int_mul_pi, imI_coe, zero_mul]
    · show Real.sin _ * _ = _
      rw [e, Real.sin_int_mul_pi, imJ_coe, zero_mul]
    · show Real.sin _ * _ = _
      rw [e, Real.sin_int_mul_pi, imK_coe, zero_mul]
  rw [t] at d
  generalize (as.map fun a => (a.val : ℝ)).sum = S at *
  have m : ‖exactQ q * turnQ S (direction v) - (-1 : ℝ) ^ k • exactQ q‖ ≤ 1.002 * (δ / 2) := by
    rw [← Quaternion.mul_coe_eq_smul, ← mul_sub, norm_mul]
    have u := abs_le.1 hu
    have : ‖exactQ q‖ ≤ 1.002 := by linarith
    have : ‖turnQ S (direction v) - (((-1 : ℝ) ^ k : ℝ) : ℍ[ℝ])‖ ≤ δ / 2 := d.trans (by linarith)
    gcongr
  refine (norm_sub_le_norm_sub_add_norm_sub _ _ _).trans ((add_le_add h1 m).trans (le_of_eq ?_))
  ring

/-! ## Matrices -/

/-- C135, matrices: each row of a matrix turned by up to `2^15` calls of `rotate` about one axis is within `n * 2^-15`
(relative to its length) of the row turned exactly once, by the sum of the angles. -/
theorem C135_matrix (m : M4 F32) (r : Fin 4) (hm : ∀ k : Fin 3, (entry m k.castSucc r).IsFin = true)
    (h1 : 1 / 2 ^ 98 ≤ ‖vecQ (row3 m r)‖) (h2 : ‖vecQ (row3 m r)‖ ≤ 2 ^ 119) (v : V3 F32) (hv : Medium (coord v))
    (as : List F32) (ha : ∀ a ∈ as, a.IsFin = true) (hn : as.length ≤ 2 ^ 15) :
    (∀ k : Fin 3, (entry (as.foldl (fun m a => M4.rotate m a v) m) k.castSucc r).IsFin = true) ∧
    ‖vecQ (row3 (as.foldl (fun m a => M4.rotate m a v) m) r) -
      vecQ (turnRow (as.map fun a => (a.val : ℝ)).sum (direction v) (row3 m r))‖ ≤ as.length / 2 ^ 15 * ‖vecQ (row3 m r)‖ := by
  have h := C100_matrix_history hl m r hm h1 h2 (as.map fun a => (a, v)) (fun t ht => by
    obtain ⟨a, h, rfl⟩ := List.mem_map.1 ht
    exact ⟨ha a h, hv⟩) (by rwa [List.length_map])
  rw [List.foldl_map, List.foldl_map, List.length_map] at h
  rw [← turnRow_sum (direction_unit hv), List.foldl_map]
  exact h

/-- C135, matrices: turning step by step or once by `s`, for every number `s` close to the sum of the angles. -/
theorem C135_matrix_once (m : M4 F32) (r : Fin 4) (hm : ∀ k : Fin 3, (entry m k.castSucc r).IsFin = true)
    (h1 : 1 / 2 ^ 98 ≤ ‖vecQ (row3 m r)‖) (h2 : ‖vecQ (row3 m r)‖ ≤ 2 ^ 119) (v : V3 F32) (hv : Medium (coord v))
    (as : List F32) (ha : ∀ a ∈ as, a.IsFin = true) (hn : as.length ≤ 2 ^ 15) (s : F32) (hs : s.IsFin = true) :
    ‖vecQ (row3 (as.foldl (fun m a => M4.rotate m a v) m) r) - vecQ (row3 (M4.rotate m s v) r)‖ ≤
      ((as.length + 1) / 2 ^ 15 + 1.005 * |(as.map fun a => (a.val : ℝ)).sum - s.val|) * ‖vecQ (row3 m r)‖ := by
  have e1 := (C135_matrix hl m r hm h1 h2 v hv as ha hn).2
  have e2 := (C135_matrix hl m r hm h1 h2 v hv [s] (by simpa using hs) (by norm_num)).2
  simp only [List.foldl_cons, List.foldl_nil, List.map_cons, List.map_nil, List.sum_cons, List.sum_nil, add_zero,
    List.length_singleton, Nat.cast_one] at e2
  have d := turnRow_diff (direction_unit hv) (as.map fun a => (a.val : ℝ)).sum s.val (row3 m r)
  rw [norm_sub_rev] at e2
  refine (norm_sub_le_norm_sub_add_norm_sub _ _ _).trans ((add_le_add e1
    ((norm_sub_le_norm_sub_add_norm_sub _ _ _).trans (add_le_add d e2))).trans (le_of_eq ?_))
  ring

/-- C135, matrices: turning by `a` and then by `b` is turning by the float `a + b`. -/
theorem C135_matrix_add (m : M4 F32) (r : Fin 4) (hm : ∀ k : Fin 3, (entry m k.castSucc r).IsFin = true)
    (h1 : 1 / 2 ^ 98 ≤ ‖vecQ (row3 m r)‖) (h2 : ‖vecQ (row3 m r)‖ ≤ 2 ^ 119) (v : V3 F32) (hv : Medium (coord v))
    (a b : F32) (ha : a.IsFin = true) (hb : b.IsFin = true) (hs : (a + b).IsFin = true) :
    ‖vecQ (row3 (M4.rotate (M4.rotate m a v) b v) r) - vecQ (row3 (M4.rotate m (a + b) v) r)‖ ≤
      (3 / 2 ^ 15 + |((a.val : ℝ) + b.val)| / 2 ^ 23) * ‖vecQ (row3 m r)‖ := by
  have h := C135_matrix_once hl m r hm h1 h2 v hv [a, b] (by simp [ha, hb]) (by norm_num) (a + b) hs
  simp only [List.foldl_cons, List.foldl_nil, List.map_cons, List.map_nil, List.sum_cons, List.sum_nil, add_zero,
    List.length_cons, List.length_nil] at h
  refine h.trans ?_
  have : |(a.val : ℝ) + b.val - (a + b).val| ≤ |(a.val : ℝ) + b.val| / 2 ^ 24 := by
    rw [abs_sub_comm]
    exact add_err hs
  have p : (0 : ℝ) ≤ |(a.val : ℝ) + b.val| := abs_nonneg _
  clear h
  generalize |(a.val : ℝ) + b.val| = S at *
  gcongr
  · push_cast; norm_num
  · norm_num at *
    linarith

/-- C135, matrices: after turns that add up to full turns (to within `δ`) every row is back where it was. -/
theorem C135_matrix_full (m : M4 F32) (r : Fin 4) (hm : ∀ k : Fin 3, (entry m k.castSucc r).IsFin = true)
    (h1 : 1 / 2 ^ 98 ≤ ‖vecQ (row3 m r)‖) (h2 : ‖vecQ (row3 m r)‖ ≤ 2 ^ 119) (v : V3 F32) (hv : Medium (coord v))
    (as : List F32) (ha : ∀ a ∈ as, a.IsFin = true) (hn : as.length ≤ 2 ^ 15) (k : ℤ) (δ : ℝ)
    (hk : |(as.map fun a => (a.val : ℝ)).sum - k * (2 * Real.pi)| ≤ δ) :
    ‖vecQ (row3 (as.foldl (fun m a => M4.rotate m a v) m) r) - vecQ (row3 m r)‖ ≤
      (as.length / 2 ^ 15 + 1.005 * δ) * ‖vecQ (row3 m r)‖ := by
  have e1 := (C135_matrix hl m r hm h1 h2 v hv as ha hn).2
  have d := turnRow_diff (direction_unit hv) (as.map fun a => (a.val : ℝ)).sum (k * (2 * Real.pi)) (row3 m r)
  have t : turnRow (k * (2 * Real.pi)) (direction v) (row3 m r) = row3 m r := by
    rw [turnRow_eq]
    unfold rodrigues
    rw [Real.cos_neg, Real.sin_neg, Real.cos_int_mul_two_pi, show (k : ℝ) * (2 * Real.pi) = ((2 * k : ℤ) : ℝ) * Real.pi by
      push_cast; ring, Real.sin_int_mul_pi]
    simp
  rw [t] at d
  have n0 := norm_nonneg (vecQ (row3 m r))
  refine (norm_sub_le_norm_sub_add_norm_sub _ _ _).trans ((add_le_add e1 d).trans ?_)
  rw [add_mul]
  gcongr

end

/-! ## Non-vacuity -/

/-- a wheel turned 1000 times by the float nearest to `1/10` about the axis `(0, 3, 4)`, starting with a quaternion that is
a third of a turn -/
example : third.Finite ∧ |‖exactQ third‖ - 1| ≤ 1 / 2 ^ 20 ∧
    Medium (coord (⟨lit 0, lit 3, lit 4⟩ : V3 F32)) ∧
    (∀ a ∈ List.replicate 1000 (lit (1 / 10) : F32), a.IsFin = true) ∧
    (List.replicate 1000 (lit (1 / 10) : F32)).length ≤ 2 ^ 15 := by
  have v : (lit 0 : F32).val = 0 ∧ (lit 3 : F32).val = 3 ∧ (lit 4 : F32).val = 4 := by decide +kernel
  refine ⟨third_norm.1, by rw [third_norm.2]; norm_num, ⟨fun i => by fin_cases i <;> decide +kernel, ?_⟩, fun a h => ?_,
    by norm_num⟩
  · have : exactLength (coord (⟨lit 0, lit 3, lit 4⟩ : V3 F32)) = 5 := by
      unfold exactLength
      rw [Fin.sum_univ_three, show (5 : ℝ) = Real.sqrt (5 ^ 2) by rw [Real.sqrt_sq (by norm_num)]]
      congr 1
      show ((lit 0 : F32).val : ℝ) ^ 2 + ((lit 3 : F32).val : ℝ) ^ 2 + ((lit 4 : F32).val : ℝ) ^ 2 = _
      rw [v.1, v.2.1, v.2.2]
      norm_num
    rw [this]
    norm_num
  · rw [List.eq_of_mem_replicate h]
    decide +kernel

end Zcm
