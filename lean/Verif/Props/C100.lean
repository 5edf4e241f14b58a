import Verif.Lemmas.F32TurnQuat
import Verif.Props.C91

/-!
# C100  Rotations built from an angle are accurate in IEEE arithmetic

`rotate`, `angleAxis`, `quat(eulerAngles)` and everything after them, in binary32, for every C library whose `sinf` and
`cosf` are within `2^-23` (`GoodTrig`).  The reference is Rodrigues' rotation in exact arithmetic, by exactly the angle given
and about exactly the direction given.
-/

set_option exponentiation.threshold 300

namespace Zcm

open Quaternion F32

/-- column `c` of the upper left 3x3 block of a `mat4`, as an exact pure quaternion -/
noncomputable def turnColumn (m : M4 F32) (c : Fin 3) : ℍ[ℝ] :=
  ⟨0, (entry m c.castSucc 0).val, (entry m c.castSucc 1).val, (entry m c.castSucc 2).val⟩

theorem axisQ_norm (c : Fin 3) : ‖axisQ c‖ = 1 := by
  rw [← sq_eq_sq₀ (norm_nonneg _) (by norm_num), norm_sq_quat]
  fin_cases c <;> simp [axisQ]

theorem axisQ_turn {θ : ℝ} {n : Fin 3 → ℝ} (hn : ∑ i, n i ^ 2 = 1) (c : Fin 3) :
    turnQ θ n * axisQ c * (turnQ θ n)⁻¹ = vecQ (rodrigues θ n (Pi.single c 1)) := by
  rw [← turnQ_rotates hn]
  congr 2
  fin_cases c <;> simp [axisQ, vecQ] <;> rfl

theorem default_entry (k : Fin 3) (r : Fin 4) :
    (entry (M4.default : M4 F32) k.castSucc r).IsFin = true ∧
    (entry (M4.default : M4 F32) k.castSucc r).val = if k.castSucc = r then 1 else 0 := by
  fin_cases k <;> fin_cases r <;> decide +kernel

theorem val_round_zero (s : Bool) : (F32.round s 0).val = 0 := by
  unfold val
  rw [key_round, uround_zero]
  simp [cut]

theorem zero_row {x y z a b c : F32} (ha : a.IsFin = true) (hb : b.IsFin = true) (hc : c.IsFin = true)
    (fx : x.IsFin = true) (fy : y.IsFin = true) (fz : z.IsFin = true) (hx : x.val = 0) (hy : y.val = 0) (hz : z.val = 0) :
    (x * a + y * b + z * c).val = 0 := by
  have mul : ∀ {x a : F32}, x.IsFin = true → a.IsFin = true → x.val = 0 → (x * a).IsFin = true ∧ (x * a).val = 0 := by
    intro x a fx fa h
    rw [mul_fin fx fa, h, zero_mul]
    exact ⟨isFin_round (by rw [abs_zero]; positivity), val_round_zero _⟩
  have add : ∀ {x a : F32}, x.IsFin = true → a.IsFin = true → x.val = 0 → a.val = 0 →
      (x + a).IsFin = true ∧ (x + a).val = 0 := by
    intro x a fx fa h h'
    rw [add_fin fx fa, h, h', add_zero]
    exact ⟨isFin_round (by rw [abs_zero]; positivity), val_round_zero _⟩
  obtain ⟨f1, v1⟩ := mul fx ha hx
  obtain ⟨f2, v2⟩ := mul fy hb hy
  obtain ⟨f3, v3⟩ := mul fz hc hz
  obtain ⟨f4, v4⟩ := add f1 f2 v1 v2
  exact (add f4 f3 v4 v3).2

/-- The numbers in row `r` of the first three columns of `m`. -/
noncomputable def row3 (m : M4 F32) (r : Fin 4) (k : Fin 3) : ℝ := (entry m k.castSucc r).val

/-- The row vector `A` times the exact rotation matrix by `θ` about `n`. -/
noncomputable def turnRow (θ : ℝ) (n A : Fin 3 → ℝ) (c : Fin 3) : ℝ := ∑ k, A k * rodrigues θ n (Pi.single c 1) k

theorem turnRow_eq (θ : ℝ) (n A : Fin 3 → ℝ) : turnRow θ n A = rodrigues (-θ) n A := by
  funext c
  unfold turnRow
  obtain ⟨h0, h1, h2⟩ := rodrigues_apply (-θ) n A
  rw [Real.cos_neg, Real.sin_neg] at h0 h1 h2
  simp only [rodrigues_entry, Fin.sum_univ_three]
  fin_cases c
  · refine Eq.trans ?_ h0.symm
    simp [entry, coord]; ring
  · refine Eq.trans ?_ h1.symm
    simp [entry, coord]; ring
  · refine Eq.trans ?_ h2.symm
    simp [entry, coord]; ring

theorem vecQ_norm_sq (A : Fin 3 → ℝ) : ‖vecQ A‖ ^ 2 = ∑ i, A i ^ 2 := by
  rw [norm_sq_quat, Fin.sum_univ_three]
  simp [vecQ]

theorem turnRow_norm {θ : ℝ} {n : Fin 3 → ℝ} (hn : ∑ i, n i ^ 2 = 1) (A : Fin 3 → ℝ) :
    ‖vecQ (turnRow θ n A)‖ = ‖vecQ A‖ := by
  rw [← sq_eq_sq₀ (norm_nonneg _) (norm_nonneg _), vecQ_norm_sq, vecQ_norm_sq, turnRow_eq, rodrigues_norm hn]

theorem vecQ_sub (A B : Fin 3 → ℝ) : vecQ A - vecQ B = vecQ (A - B) := by
  ext
  · exact sub_self (0 : ℝ)
  · rfl
  · rfl
  · rfl

theorem turnRow_sub (θ : ℝ) (n A B : Fin 3 → ℝ) : turnRow θ n A - turnRow θ n B = turnRow θ n (A - B) := by
  funext c
  simp only [turnRow, Pi.sub_apply, sub_mul, Finset.sum_sub_distrib]

theorem abs_sum_le (A : Fin 3 → ℝ) : ∑ k, |A k| ≤ 1.7321 * ‖vecQ A‖ := by
  apply le_of_sq_le_sq _ (by positivity)
  rw [mul_pow, vecQ_norm_sq, Fin.sum_univ_three, Fin.sum_univ_three]
  have := sq_abs (A 0)
  have := sq_abs (A 1)
  have := sq_abs (A 2)
  nlinarith [sq_nonneg (|A 0| - |A 1|), sq_nonneg (|A 0| - |A 2|), sq_nonneg (|A 1| - |A 2|)]

section

variable [Libm F32] (hl : GoodTrig)
include hl

/-- C100, `rotate(mat4, float, vec3)`: column `c` of the result is the combination of the first three columns of `m` given by
the exactly rotated basis vector, to within `49 * 2^-24` of the magnitudes in the row (and no overflow). -/
theorem C100_rotate (m : M4 F32) (a : F32) (v : V3 F32) (ha : a.IsFin = true) (hv : Medium (coord v)) (c : Fin 3)
    (r : Fin 4) (hm : ∀ k : Fin 3, (entry m k.castSucc r).IsFin = true)
    (hs : ∑ k : Fin 3, |((entry m k.castSucc r).val : ℝ)| ≤ 2 ^ 125) :
    (entry (M4.rotate m a v) c.castSucc r).IsFin = true ∧
    |((entry (M4.rotate m a v) c.castSucc r).val : ℝ) -
      ∑ k : Fin 3, (entry m k.castSucc r).val * rodrigues a.val (direction v) (Pi.single c 1) k| ≤
      49 / 2 ^ 24 * ∑ k : Fin 3, |((entry m k.castSucc r).val : ℝ)| + 3 / 2 ^ 149 := by
  have e := (turn_of hl ha hv).entry c
  have b := rodrigues_col (θ := a.val) (direction_unit hv) c
  rw [Fin.sum_univ_three] at hs ⊢
  rw [Fin.sum_univ_three]
  have := row_close (hm 0) (hm 1) (hm 2) (e 0) (e 1) (e 2) (b 0) (b 1) (b 2) hs
  rw [rotate_entry]
  exact this

omit hl in
/-- C100, `rotate(mat4, float, vec3)`: the translation column is untouched. -/
theorem C100_rotate_last (m : M4 F32) (a : F32) (v : V3 F32) (r : Fin 4) :
    entry (M4.rotate m a v) 3 r = entry m 3 r := rotate_last m a v r

/-- C100, angle to quaternion, axis as given: `angleAxis(a, n)` is within `2^-22 max(1, |n|)` of
`cos(a/2) + sin(a/2) n`. -/
theorem C100_angleAxis (a : F32) (n : V3 F32) (ha : a.IsFin = true) (hn : n.Finite) (hs : ‖exactV n‖ ≤ 2 ^ 100) :
    (Quat.angleAxis a n).Finite ∧
    ‖exactQ (Quat.angleAxis a n) - turnQ a.val (numbers n)‖ ≤ 1 / 2 ^ 22 * max 1 ‖exactV n‖ := by
  have e : ∑ i, numbers n i ^ 2 = ‖exactV n‖ ^ 2 := by
    rw [norm_sq_quat, Fin.sum_univ_three]
    simp only [exactV, numbers]
    ring_nf
    rfl
  have := angleAxis_core hl ha hn (N := numbers n) (k := 0) (M := max 1 ‖exactV n‖) (B := 4) le_rfl (by norm_num)
    (fun i => by
      have : ((coord n i).val : ℝ) - numbers n i = 0 := sub_self _
      rw [this]; norm_num) (le_max_left _ _) (max_le (by norm_num) hs) (by
      rw [e]
      have := le_max_right 1 ‖exactV n‖
      gcongr) (by norm_num) (by norm_num)
  refine ⟨this.1, this.2.trans (le_of_eq ?_)⟩
  norm_num

/-- C100, angle to quaternion, axis normalised by the library: within `10 * 2^-24` of the exact unit quaternion, and
therefore of unit norm to within `2^-20`, as C88 to C91 need it. -/
theorem C100_angleAxis_unit (a : F32) (v : V3 F32) (ha : a.IsFin = true) (hv : Medium (coord v)) :
    (Quat.angleAxis a (V3.normalize v)).Finite ∧
    ‖exactQ (Quat.angleAxis a (V3.normalize v)) - turnQ a.val (direction v)‖ ≤ 10 / 2 ^ 24 ∧
    |‖exactQ (Quat.angleAxis a (V3.normalize v))‖ - 1| ≤ 1 / 2 ^ 20 :=
  ⟨(angleAxis_normalize hl ha hv).1, (angleAxis_normalize hl ha hv).2, angleAxis_unit hl ha hv⟩

/-- C100, the whole way: building a quaternion from an angle and an axis and rotating a vector by it gives Rodrigues'
rotation of the vector, to within `2^-15` of its length. -/
theorem C100_vector (a : F32) (v p : V3 F32) (ha : a.IsFin = true) (hv : Medium (coord v)) (hp : p.Finite)
    (h1 : 1 / 2 ^ 100 ≤ ‖exactV p‖) (h2 : ‖exactV p‖ ≤ 2 ^ 120) :
    V3.Finite (Quat.angleAxis a (V3.normalize v) * p) ∧
    ‖exactV (Quat.angleAxis a (V3.normalize v) * p) - vecQ (rodrigues a.val (direction v) (numbers p))‖ ≤
      1 / 2 ^ 15 * ‖exactV p‖ := by
  obtain ⟨f, e⟩ := angleAxis_normalize hl ha hv
  have u := angleAxis_unit hl ha hv
  obtain ⟨g, r⟩ := rotate_close _ p f hp u h1 h2
  refine ⟨g, ?_⟩
  have c := conj_close (P := exactV p) (turnQ_norm (direction_unit hv)) u e
  have t : turnQ a.val (direction v) * exactV p * (turnQ a.val (direction v))⁻¹ =
      vecQ (rodrigues a.val (direction v) (numbers p)) := turnQ_rotates (direction_unit hv) (numbers p)
  rw [t] at c
  refine (norm_sub_le_norm_sub_add_norm_sub _ _ _).trans ((add_le_add r c).trans ?_)
  rw [← add_mul]
  gcongr
  norm_num

/-- C100, `rotate(quat, float, vec3)`: the exact Hamilton product of `q` with the exact rotation, to within `2^-15 |q|`. -/
theorem C100_quat_rotate (q : Quat F32) (a : F32) (v : V3 F32) (ha : a.IsFin = true) (hv : Medium (coord v))
    (hq : q.Finite) (h1 : 1 / 2 ^ 90 ≤ ‖exactQ q‖) (h2 : ‖exactQ q‖ ≤ 2 ^ 60) :
    (Quat.rotate q a v).Finite ∧
    ‖exactQ (Quat.rotate q a v) - exactQ q * turnQ a.val (direction v)‖ ≤ 1 / 2 ^ 15 * ‖exactQ q‖ := by
  obtain ⟨f, e⟩ := angleAxis_normalize hl ha hv
  have u := abs_le.1 (angleAxis_unit hl ha hv)
  rw [quatRotate_def]
  generalize Quat.angleAxis a (V3.normalize v) = d at *
  have q0 := norm_nonneg (exactQ q)
  obtain ⟨g, m⟩ := Quat.mul_norm q d hq f h2 (by linarith) (by
    calc (1 : ℝ) / 2 ^ 100 ≤ 1 / 2 ^ 90 * (1 / 2) := by norm_num
      _ ≤ _ := by gcongr; linarith)
  refine ⟨g, ?_⟩
  have s : ‖exactQ q * exactQ d - exactQ q * turnQ a.val (direction v)‖ ≤ ‖exactQ q‖ * (10 / 2 ^ 24) := by
    rw [← mul_sub, norm_mul]
    gcongr
  have m' : 1 / 2 ^ 16 * (‖exactQ q‖ * ‖exactQ d‖) ≤ 1 / 2 ^ 16 * (‖exactQ q‖ * 1.001) := by
    gcongr
    linarith
  have := norm_sub_le_norm_sub_add_norm_sub (exactQ (q * d)) (exactQ q * exactQ d) (exactQ q * turnQ a.val (direction v))
  linarith

/-- C100, `mat3_cast(angleAxis(a, normalize(v)))`: each entry is that of Rodrigues' rotation, to within `2^-16`. -/
theorem C100_mat3_cast (a : F32) (v : V3 F32) (ha : a.IsFin = true) (hv : Medium (coord v)) (c r : Fin 3) :
    (entry (Quat.mat3_cast (Quat.angleAxis a (V3.normalize v))) c r).IsFin = true ∧
    |((entry (Quat.mat3_cast (Quat.angleAxis a (V3.normalize v))) c r).val : ℝ) -
      rodrigues a.val (direction v) (Pi.single c 1) r| ≤ 1 / 2 ^ 16 := by
  obtain ⟨f, e⟩ := angleAxis_normalize hl ha hv
  have u := angleAxis_unit hl ha hv
  obtain ⟨g, m⟩ := C91_mat3 _ f u c
  refine ⟨g r, ?_⟩
  have cc := conj_close (P := axisQ c) (turnQ_norm (direction_unit hv)) u e
  rw [axisQ_turn (direction_unit hv), axisQ_norm, mul_one] at cc
  have n : ‖exactColumn (Quat.mat3_cast (Quat.angleAxis a (V3.normalize v))) c -
      vecQ (rodrigues a.val (direction v) (Pi.single c 1))‖ ≤ 1 / 2 ^ 16 :=
    (norm_sub_le_norm_sub_add_norm_sub _ _ _).trans ((add_le_add m cc).trans (by norm_num))
  obtain ⟨-, b0, b1, b2⟩ := coord_le4 (norm_nonneg _) (norm_sq_quat
    (exactColumn (Quat.mat3_cast (Quat.angleAxis a (V3.normalize v))) c -
      vecQ (rodrigues a.val (direction v) (Pi.single c 1))))
  fin_cases r
  · exact b0.trans n
  · exact b1.trans n
  · exact b2.trans n

/-- C100, `quat(eulerAngles)`: within `2^-18` of the exact product of the turns about z, y and x. -/
theorem C100_euler (e : V3 F32) (he : e.Finite) :
    (Quat.ofEuler e).Finite ∧
    ‖exactQ (Quat.ofEuler e) -
      turnQ e.z.val ![0, 0, 1] * turnQ e.y.val ![0, 1, 0] * turnQ e.x.val ![1, 0, 0]‖ ≤ 1 / 2 ^ 18 :=
  euler_close hl he

/-- C100, the rotation matrix itself, `rotate(mat4(1), a, v)`: its upper left block is Rodrigues' matrix to within
`50 * 2^-24` per entry, its last row and column are exactly those of the identity. -/
theorem C100_identity (a : F32) (v : V3 F32) (ha : a.IsFin = true) (hv : Medium (coord v)) (c : Fin 3) :
    (∀ r : Fin 3, |((entry (M4.rotate M4.default a v) c.castSucc r.castSucc).val : ℝ) -
      rodrigues a.val (direction v) (Pi.single c 1) r| ≤ 50 / 2 ^ 24) ∧
    (∀ r, (entry (M4.rotate M4.default a v) c.castSucc r).IsFin = true) ∧
    (entry (M4.rotate M4.default a v) c.castSucc 3).val = 0 ∧
    (∀ r, entry (M4.rotate M4.default a v) 3 r = entry M4.default 3 r) := by
  have d := fun r => default_entry (r := r)
  have bound : ∀ r : Fin 4, ∑ k : Fin 3, |((entry (M4.default : M4 F32) k.castSucc r).val : ℝ)| ≤ 1 := by
    intro r
    rw [Fin.sum_univ_three, (d r 0).2, (d r 1).2, (d r 2).2]
    fin_cases r <;> simp
  have key := fun r => C100_rotate hl M4.default a v ha hv c r (fun k => (d r k).1) ((bound r).trans (by norm_num))
  refine ⟨fun r => ?_, fun r => (key r).1, ?_, fun r => rotate_last _ a v r⟩
  · have e := (key r.castSucc).2
    have s : ∑ k : Fin 3, ((entry (M4.default : M4 F32) k.castSucc r.castSucc).val : ℝ) *
        rodrigues a.val (direction v) (Pi.single c 1) k = rodrigues a.val (direction v) (Pi.single c 1) r := by
      rw [Fin.sum_univ_three, (d _ 0).2, (d _ 1).2, (d _ 2).2]
      fin_cases r <;> simp
    rw [s] at e
    refine e.trans ?_
    calc _ ≤ (49 / 2 ^ 24 * 1 + 3 / 2 ^ 149 : ℝ) := by
          have := bound r.castSucc
          gcongr
      _ ≤ _ := by norm_num
  · have e := fun i => ((turn_of hl ha hv).entry c i).fin
    rw [rotate_entry]
    exact zero_row (e 0) (e 1) (e 2) (d 3 0).1 (d 3 1).1 (d 3 2).1 (d 3 0).2 (d 3 1).2 (d 3 2).2

/-- C100: the columns of `rotate(mat4(1), a, v)` are orthonormal to within `2^-15`. -/
theorem C100_orthonormal (a : F32) (v : V3 F32) (ha : a.IsFin = true) (hv : Medium (coord v)) (c d : Fin 3) :
    |∑ r : Fin 3, ((entry (M4.rotate M4.default a v) c.castSucc r.castSucc).val : ℝ) *
      (entry (M4.rotate M4.default a v) d.castSucc r.castSucc).val - (if c = d then 1 else 0)| ≤ 1 / 2 ^ 15 := by
  have u : |‖turnQ a.val (direction v)‖ - 1| ≤ 1 / 2 ^ 20 := by
    rw [turnQ_norm (direction_unit hv)]; norm_num
  have near : ∀ c, ‖turnColumn (M4.rotate M4.default a v) c -
      turnQ a.val (direction v) * axisQ c * (turnQ a.val (direction v))⁻¹‖ ≤ 1 / 2 ^ 17 := by
    intro c
    have i := (C100_identity hl a v ha hv c).1
    rw [axisQ_turn (direction_unit hv)]
    refine (quat_norm_le (e := 50 / 2 ^ 24) (by norm_num) ?_ (i 0) (i 1) (i 2)).trans (by norm_num)
    show |(0 : ℝ) - 0| ≤ _
    norm_num
  have one : ∀ c, ‖turnQ a.val (direction v) * axisQ c * (turnQ a.val (direction v))⁻¹‖ = 1 := by
    intro c
    rw [norm_mul, norm_mul, norm_inv, axisQ_norm, turnQ_norm (direction_unit hv)]
    norm_num
  have h := almost_inner (near c) (near d) (one c) (one d)
  rw [axis_inner _ u] at h
  rw [Fin.sum_univ_three]
  rw [Quaternion.inner_def, re_mul, re_star, imI_star, imJ_star, imK_star] at h
  simpa [turnColumn] using h

/-- C100: the two ways of building a rotation matrix agree to within `2^-15` per entry. -/
theorem C100_agree (a : F32) (v : V3 F32) (ha : a.IsFin = true) (hv : Medium (coord v)) (c r : Fin 3) :
    |((entry (M4.rotate M4.default a v) c.castSucc r.castSucc).val : ℝ) -
      (entry (Quat.mat3_cast (Quat.angleAxis a (V3.normalize v))) c r).val| ≤ 1 / 2 ^ 15 := by
  have h1 := (C100_identity hl a v ha hv c).1 r
  have h2 := (C100_mat3_cast hl a v ha hv c r).2
  rw [abs_sub_comm] at h2
  refine (abs_sub_le _ _ _).trans ((add_le_add h1 h2).trans (by norm_num))

/-- C100, histories: an orientation quaternion turned by up to `2^15` successive calls of `rotate` is within `n * 2^-13` of
the exact product of the exact turns. -/
theorem C100_history (q0 : Quat F32) (h0 : q0.Finite) (hu : |‖exactQ q0‖ - 1| ≤ 1 / 2 ^ 20) (ts : List (F32 × V3 F32))
    (ht : ∀ t ∈ ts, t.1.IsFin = true ∧ Medium (coord t.2)) (hn : ts.length ≤ 2 ^ 15) :
    (ts.foldl (fun q t => Quat.rotate q t.1 t.2) q0).Finite ∧
    ‖exactQ (ts.foldl (fun q t => Quat.rotate q t.1 t.2) q0) -
      exactQ q0 * (ts.map fun t => turnQ t.1.val (direction t.2)).prod‖ ≤ ts.length / 2 ^ 13 := by
  have fold : ts.foldl (fun q t => Quat.rotate q t.1 t.2) q0 =
      (ts.map fun t => Quat.angleAxis t.1 (V3.normalize t.2)).foldl (· * ·) q0 := by
    rw [List.foldl_map]
    rfl
  obtain ⟨f, e⟩ := C88_normalized q0 h0 hu (ts.map fun t => Quat.angleAxis t.1 (V3.normalize t.2)) (fun q hq => by
      obtain ⟨t, h, rfl⟩ := List.mem_map.1 hq
      exact (angleAxis_normalize hl (ht t h).1 (ht t h).2).1) (fun q hq => by
      obtain ⟨t, h, rfl⟩ := List.mem_map.1 hq
      exact angleAxis_unit hl (ht t h).1 (ht t h).2) (by rwa [List.length_map])
  rw [← fold] at f e
  rw [List.length_map] at e
  refine ⟨f, ?_⟩
  have prod : ∀ ts : List (F32 × V3 F32), (∀ t ∈ ts, t.1.IsFin = true ∧ Medium (coord t.2)) → 
      ‖(ts.map fun t => turnQ t.1.val (direction t.2)).prod‖ = 1 ∧
      ‖(ts.map fun t => exactQ (Quat.angleAxis t.1 (V3.normalize t.2))).prod -
        (ts.map fun t => turnQ t.1.val (direction t.2)).prod‖ ≤ (1 + 1 / 2 ^ 16) ^ ts.length - 1 := by
    intro ts
    induction ts with
    | nil => intro _; simp
    | cons t ts ih =>
      intro ht
      obtain ⟨n, p⟩ := ih fun t h => ht t (List.mem_cons_of_mem _ h)
      obtain ⟨t1, t2⟩ := ht t (by simp)
      have a := (angleAxis_normalize hl t1 t2).2
      have u := abs_le.1 (angleAxis_unit hl t1 t2)
      have tn := turnQ_norm (θ := t.1.val) (direction_unit t2)
      simp only [List.map_cons, List.prod_cons, List.length_cons]
      refine ⟨by rw [norm_mul, n, tn, one_mul], ?_⟩
      generalize (ts.map fun t => exactQ (Quat.angleAxis t.1 (V3.normalize t.2))).prod = X at *
      generalize (ts.map fun t => turnQ t.1.val (direction t.2)).prod = Y at *
      generalize exactQ (Quat.angleAxis t.1 (V3.normalize t.2)) = x at *
      generalize turnQ t.1.val (direction t.2) = y at *
      have s : x * X - y * Y = x * (X - Y) + (x - y) * Y := by noncomm_ring
      rw [s, pow_succ]
      refine (norm_add_le _ _).trans ?_
      rw [norm_mul, norm_mul, n, mul_one]
      have g : 1 ≤ (1 + 1 / 2 ^ 16 : ℝ) ^ ts.length := one_le_pow₀ (by norm_num)
      generalize (1 + 1 / 2 ^ 16 : ℝ) ^ ts.length = G at *
      calc ‖x‖ * ‖X - Y‖ + ‖x - y‖ ≤ (1 + 1 / 2 ^ 20) * (G - 1) + 10 / 2 ^ 24 := by
            gcongr
            linarith
        _ ≤ _ := by norm_num; linarith
  obtain ⟨pn, pe⟩ := prod ts ht
  have g := (growth hn).2.2
  have l : exactProduct q0 (ts.map fun t => Quat.angleAxis t.1 (V3.normalize t.2)) =
      exactQ q0 * (ts.map fun t => exactQ (Quat.angleAxis t.1 (V3.normalize t.2))).prod := by
    unfold exactProduct
    rw [List.map_map]
    rfl
  rw [l] at e
  have b : ‖exactQ q0 * (ts.map fun t => exactQ (Quat.angleAxis t.1 (V3.normalize t.2))).prod -
      exactQ q0 * (ts.map fun t => turnQ t.1.val (direction t.2)).prod‖ ≤ 1.001 * (ts.length / 2 ^ 15) := by
    rw [← mul_sub, norm_mul]
    have u := abs_le.1 hu
    have : ‖exactQ q0‖ ≤ 1.001 := by linarith
    have := pe.trans g
    gcongr
  refine (norm_sub_le_norm_sub_add_norm_sub _ _ _).trans ((add_le_add e b).trans ?_)
  have : (0 : ℝ) ≤ ts.length := Nat.cast_nonneg _
  rw [div_add' _ _ _ (by norm_num), div_le_div_iff₀ (by norm_num) (by norm_num)]
  nlinarith

/-- one call of `rotate` on one row of a matrix -/
theorem row_step (m : M4 F32) (a : F32) (v : V3 F32) (ha : a.IsFin = true) (hv : Medium (coord v)) (r : Fin 4)
    (hm : ∀ k : Fin 3, (entry m k.castSucc r).IsFin = true) (h1 : 1 / 2 ^ 100 ≤ ‖vecQ (row3 m r)‖)
    (h2 : ‖vecQ (row3 m r)‖ ≤ 2 ^ 120) :
    (∀ k : Fin 3, (entry (M4.rotate m a v) k.castSucc r).IsFin = true) ∧
    ‖vecQ (row3 (M4.rotate m a v) r) - vecQ (turnRow a.val (direction v) (row3 m r))‖ ≤
      1 / 2 ^ 16 * ‖vecQ (row3 m r)‖ := by
  have s := abs_sum_le (row3 m r)
  have key := fun c => C100_rotate hl m a v ha hv c r hm (by
    refine s.trans ?_
    calc 1.7321 * ‖vecQ (row3 m r)‖ ≤ 1.7321 * 2 ^ 120 := by gcongr
      _ ≤ _ := by norm_num)
  refine ⟨fun c => (key c).1, ?_⟩
  have b : ∀ c, |(row3 (M4.rotate m a v) r - turnRow a.val (direction v) (row3 m r)) c| ≤
      100 / 2 ^ 24 * ‖vecQ (row3 m r)‖ := by
    intro c
    refine (key c).2.trans ?_
    have s' : ∑ k : Fin 3, |((entry m k.castSucc r).val : ℝ)| ≤ 1.7321 * ‖vecQ (row3 m r)‖ := s
    have t : (3 : ℝ) / 2 ^ 149 ≤ 1 / 2 ^ 24 * (1 / 2 ^ 100) := by norm_num
    have t2 : (1 : ℝ) / 2 ^ 24 * (1 / 2 ^ 100) ≤ 1 / 2 ^ 24 * ‖vecQ (row3 m r)‖ := by gcongr
    calc _ ≤ 49 / 2 ^ 24 * (1.7321 * ‖vecQ (row3 m r)‖) + 1 / 2 ^ 24 * ‖vecQ (row3 m r)‖ := by
          gcongr
          exact t.trans t2
      _ = (49 * 1.7321 + 1) / 2 ^ 24 * ‖vecQ (row3 m r)‖ := by ring
      _ ≤ _ := by gcongr; norm_num
  rw [vecQ_sub]
  have n0 := norm_nonneg (vecQ (row3 m r))
  refine (quat_norm_le (e := 100 / 2 ^ 24 * ‖vecQ (row3 m r)‖) (by positivity) ?_ (b 0) (b 1) (b 2)).trans ?_
  · show |(0 : ℝ)| ≤ _
    rw [abs_zero]; positivity
  · rw [← mul_assoc]
    gcongr
    norm_num

/-- C100, histories of matrices: after up to `2^15` successive calls of `rotate` nothing has overflowed, and each row is
within `n * 2^-15` (relative to its length) of that row times the exact rotations. -/
theorem C100_matrix_history (m : M4 F32) (r : Fin 4) (hm : ∀ k : Fin 3, (entry m k.castSucc r).IsFin = true)
    (h1 : 1 / 2 ^ 98 ≤ ‖vecQ (row3 m r)‖) (h2 : ‖vecQ (row3 m r)‖ ≤ 2 ^ 119) (ts : List (F32 × V3 F32))
    (ht : ∀ t ∈ ts, t.1.IsFin = true ∧ Medium (coord t.2)) (hn : ts.length ≤ 2 ^ 15) :
    (∀ k : Fin 3, (entry (ts.foldl (fun m t => M4.rotate m t.1 t.2) m) k.castSucc r).IsFin = true) ∧
    ‖vecQ (row3 (ts.foldl (fun m t => M4.rotate m t.1 t.2) m) r) -
      vecQ (ts.foldl (fun A t => turnRow t.1.val (direction t.2) A) (row3 m r))‖ ≤
      ts.length / 2 ^ 15 * ‖vecQ (row3 m r)‖ := by
  have key : (∀ k : Fin 3, (entry (ts.foldl (fun m t => M4.rotate m t.1 t.2) m) k.castSucc r).IsFin = true) ∧
      ‖vecQ (ts.foldl (fun A t => turnRow t.1.val (direction t.2) A) (row3 m r))‖ = ‖vecQ (row3 m r)‖ ∧
      ‖vecQ (row3 (ts.foldl (fun m t => M4.rotate m t.1 t.2) m) r) -
        vecQ (ts.foldl (fun A t => turnRow t.1.val (direction t.2) A) (row3 m r))‖ ≤
        ((1 + 1 / 2 ^ 16) ^ ts.length - 1) * ‖vecQ (row3 m r)‖ := by
    induction ts using List.reverseRecOn with
    | nil => exact ⟨hm, rfl, by simp⟩
    | append_singleton ts t ih =>
      have hn' : ts.length ≤ 2 ^ 15 := by
        rw [List.length_append] at hn; omega
      obtain ⟨f, n, e⟩ := ih (fun t h => ht t (List.mem_append_left _ h)) hn'
      obtain ⟨t1, t2⟩ := ht t (by simp)
      obtain ⟨g1, g2, -⟩ := growth hn'
      rw [List.foldl_append, List.foldl_cons, List.foldl_nil, List.foldl_append, List.foldl_cons, List.foldl_nil,
        List.length_append, List.length_singleton, pow_succ]
      generalize ts.foldl (fun m t => M4.rotate m t.1 t.2) m = x at *
      generalize ts.foldl (fun A t => turnRow t.1.val (direction t.2) A) (row3 m r) = X at *
      generalize (1 + 1 / 2 ^ 16 : ℝ) ^ ts.length = G at *
      have V0 := norm_nonneg (vecQ (row3 m r))
      have nx := abs_le.1 ((abs_norm_sub_norm_le _ _).trans e)
      rw [n] at nx
      have b2 : ‖vecQ (row3 x r)‖ ≤ G * ‖vecQ (row3 m r)‖ := by linarith [nx.2]
      have b1 : (2 - G) * ‖vecQ (row3 m r)‖ ≤ ‖vecQ (row3 x r)‖ := by linarith [nx.1]
      have c1 : (1 : ℝ) / 2 ^ 100 ≤ ‖vecQ (row3 x r)‖ := by
        refine le_trans ?_ b1
        calc (1 : ℝ) / 2 ^ 100 = 0.25 * (1 / 2 ^ 98) := by norm_num
          _ ≤ _ := mul_le_mul (by norm_num at g2 ⊢; linarith) h1 (by positivity) (by norm_num at g2; linarith)
      have c2 : ‖vecQ (row3 x r)‖ ≤ 2 ^ 120 := by
        refine b2.trans ?_
        calc G * ‖vecQ (row3 m r)‖ ≤ 1.75 * 2 ^ 119 := by gcongr
          _ ≤ _ := by norm_num
      obtain ⟨sf, se⟩ := row_step hl x t.1 t.2 t1 t2 r f c1 c2
      refine ⟨sf, by rw [turnRow_norm (direction_unit t2), n], ?_⟩
      have d : ‖vecQ (turnRow t.1.val (direction t.2) (row3 x r)) - vecQ (turnRow t.1.val (direction t.2) X)‖ ≤
          (G - 1) * ‖vecQ (row3 m r)‖ := by
        rw [vecQ_sub, turnRow_sub, turnRow_norm (direction_unit t2), ← vecQ_sub]
        exact e
      refine (norm_sub_le_norm_sub_add_norm_sub _ _ _).trans ((add_le_add se d).trans ?_)
      have : 1 / 2 ^ 16 * ‖vecQ (row3 x r)‖ ≤ 1 / 2 ^ 16 * (G * ‖vecQ (row3 m r)‖) := by gcongr
      linarith
  refine ⟨key.1, key.2.2.trans ?_⟩
  have := (growth hn).2.2
  gcongr

end

/-- the float nearest to a number within `2^-40` of `y` -/
noncomputable def nearFloat (y : ℝ) : F32 := F32.round false ((⌊y * 2 ^ 40⌋ : ℚ) / 2 ^ 40)

theorem nearFloat_close {y : ℝ} (h : |y| ≤ 1) :
    (nearFloat y).IsFin = true ∧ |((nearFloat y).val : ℝ) - y| ≤ 1 / 2 ^ 23 := by
  have hy := abs_le.1 h
  have f1 := Int.floor_le (y * 2 ^ 40)
  have f2 := Int.lt_floor_add_one (y * 2 ^ 40)
  have d : |(((⌊y * 2 ^ 40⌋ : ℚ) / 2 ^ 40 : ℚ) : ℝ) - y| ≤ 1 / 2 ^ 40 := by
    push_cast
    rw [abs_le]
    constructor
    · have : y - 1 / 2 ^ 40 ≤ (⌊y * 2 ^ 40⌋ : ℝ) / 2 ^ 40 := by
        rw [le_div_iff₀ (by norm_num), sub_mul, one_div, inv_mul_cancel₀ (by norm_num)]
        linarith
      linarith
    · have : (⌊y * 2 ^ 40⌋ : ℝ) / 2 ^ 40 ≤ y := by
        rw [div_le_iff₀ (by norm_num)]
        exact f1
      linarith [show (0 : ℝ) ≤ 1 / 2 ^ 40 by norm_num]
  have b : |(((⌊y * 2 ^ 40⌋ : ℚ) / 2 ^ 40 : ℚ) : ℝ)| ≤ 1.01 := by
    have := abs_le.1 d
    rw [abs_le]
    constructor <;> linarith [show (1 : ℝ) / 2 ^ 40 ≤ 0.01 by norm_num]
  have bq : |(⌊y * 2 ^ 40⌋ : ℚ) / 2 ^ 40| ≤ 1.01 := by
    have : (((|(⌊y * 2 ^ 40⌋ : ℚ) / 2 ^ 40| : ℚ) : ℝ)) ≤ ((1.01 : ℚ) : ℝ) := by
      rw [Rat.cast_abs]
      refine b.trans (le_of_eq ?_)
      norm_num
    exact Rat.cast_le.1 this
  unfold nearFloat
  generalize (⌊y * 2 ^ 40⌋ : ℚ) / 2 ^ 40 = x at *
  have f : (F32.round false x).IsFin = true := isFin_round (bq.trans (by norm_num))
  have e : ((|(F32.round false x).val - x| : ℚ) : ℝ) ≤ ((1.01 / 2 ^ 24 + 1 / 2 ^ 150 : ℚ) : ℝ) := by
    refine Rat.cast_le.2 ((round_error f).trans ?_)
    gcongr
  push_cast at e
  refine ⟨f, (abs_sub_le _ _ _).trans ((add_le_add e d).trans ?_)⟩
  norm_num

/-- a C library with good `sinf` and `cosf` (and nothing else) -/
@[instance_reducible]
noncomputable def goodLibm : Libm F32 where
  expf := id
  logf := id
  log2f := id
  powf x _ := x
  cbrtf := id
  sinf x := nearFloat (Real.sin x.val)
  cosf x := nearFloat (Real.cos x.val)
  tanf := id
  asinf := id
  acosf := id
  atanf := id
  atan2f x _ := x
  sinhf := id
  coshf := id
  tanhf := id
  asinhf := id
  acoshf := id
  atanhf := id

/-- Non-vacuity: C libraries with good trigonometric functions exist. -/
example : @GoodTrig goodLibm := fun _ _ =>
  ⟨nearFloat_close (Real.abs_sin_le_one _), nearFloat_close (Real.abs_cos_le_one _)⟩

/-- Non-vacuity of the other hypotheses: two turns, by one radian about (1, 2, 2) and by -1000 radians about (0, 3, 4). -/
example : (∀ t ∈ ([(lit 1, ⟨lit 1, lit 2, lit 2⟩), (lit (-1000), ⟨lit 0, lit 3, lit 4⟩)] : List (F32 × V3 F32)),
    t.1.IsFin = true ∧ Medium (coord t.2)) := by
  have v : (lit 0 : F32).val = 0 ∧ (lit 1 : F32).val = 1 ∧ (lit 2 : F32).val = 2 ∧ (lit 3 : F32).val = 3 ∧
      (lit 4 : F32).val = 4 := by decide +kernel
  intro t ht
  simp only [List.mem_cons, List.not_mem_nil, or_false] at ht
  rcases ht with rfl | rfl
  · refine ⟨by decide +kernel, fun i => by fin_cases i <;> decide +kernel, ?_⟩
    have : exactLength (coord (⟨lit 1, lit 2, lit 2⟩ : V3 F32)) = 3 := by
      unfold exactLength
      rw [Fin.sum_univ_three, show (3 : ℝ) = Real.sqrt (3 ^ 2) by rw [Real.sqrt_sq (by norm_num)]]
      congr 1
      show ((lit 1 : F32).val : ℝ) ^ 2 + ((lit 2 : F32).val : ℝ) ^ 2 + ((lit 2 : F32).val : ℝ) ^ 2 = _
      rw [v.2.1, v.2.2.1]
      norm_num
    rw [this]
    norm_num
  · refine ⟨by decide +kernel, fun i => by fin_cases i <;> decide +kernel, ?_⟩
    have : exactLength (coord (⟨lit 0, lit 3, lit 4⟩ : V3 F32)) = 5 := by
      unfold exactLength
      rw [Fin.sum_univ_three, show (5 : ℝ) = Real.sqrt (5 ^ 2) by rw [Real.sqrt_sq (by norm_num)]]
      congr 1
      show ((lit 0 : F32).val : ℝ) ^ 2 + ((lit 3 : F32).val : ℝ) ^ 2 + ((lit 4 : F32).val : ℝ) ^ 2 = _
      rw [v.1, v.2.2.2.1, v.2.2.2.2]
      norm_num
    rw [this]
    norm_num

end Zcm
