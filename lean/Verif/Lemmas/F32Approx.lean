import Verif.Lemmas.F32Error
import Verif.Lemmas.F32Correct
import Verif.Spec.Accuracy

/-!
# Forward error analysis of sums of products in the binary32 model
-/

set_option exponentiation.threshold 300

namespace Zcm.F32

theorem isFin_of_add {a b : F32} (h : (a + b).IsFin = true) : a.IsFin = true ∧ b.IsFin = true := by
  change (add a b).IsFin = true at h
  rcases a with _ | s | ⟨s, k, hk⟩ <;> rcases b with _ | t | ⟨t, l, hl⟩ <;> simp only [add] at h
  all_goals first
    | exact ⟨rfl, rfl⟩
    | (exfalso; cases h)
    | (exfalso; split_ifs at h <;> cases h)

theorem isFin_of_sub {a b : F32} (h : (a - b).IsFin = true) : a.IsFin = true ∧ b.IsFin = true := by
  rw [sub_eq] at h
  simpa using isFin_of_add h

theorem isFin_of_mul {a b : F32} (h : (a * b).IsFin = true) : a.IsFin = true ∧ b.IsFin = true := by
  change (mul a b).IsFin = true at h
  rcases a with _ | s | ⟨s, k, hk⟩ <;> rcases b with _ | t | ⟨t, l, hl⟩ <;> simp only [mul] at h
  all_goals first
    | exact ⟨rfl, rfl⟩
    | (exfalso; cases h)
    | (exfalso; split_ifs at h <;> cases h)

/-- Sums do not underflow: the relative error bound holds without exception. -/
theorem add_error_rel {a b : F32} (h : (a + b).IsFin = true) :
    |(a + b).val - (a.val + b.val)| ≤ |a.val + b.val| / 2 ^ 24 := by
  obtain ⟨ha, hb⟩ := isFin_of_add h
  rw [add_fin ha hb] at h ⊢
  have hs : a.val + b.val = ((a.key + b.key : ℤ) : ℚ) / 2 ^ 149 := by
    unfold val; push_cast; ring
  by_cases hk : (a.key + b.key).natAbs < 2 ^ 24
  · have e := uround_of_fin h
    have : (round (a.sgn && b.sgn) (a.val + b.val)).val = a.val + b.val := by
      show ((round (a.sgn && b.sgn) (a.val + b.val)).key : ℚ) / 2 ^ 149 = _
      rw [e, hs, uround_of_rep (rep'_of_lt hk)]
    rw [this, sub_self, abs_zero]
    positivity
  · refine round_error_rel h ?_
    rw [hs, abs_div, abs_of_pos (show (0:ℚ) < 2 ^ 149 by positivity), div_le_div_iff₀ (by positivity) (by positivity)]
    have : (2 : ℤ) ^ 24 ≤ |a.key + b.key| := by
      rw [not_lt] at hk
      have : ((2 ^ 24 : ℕ) : ℤ) ≤ ((a.key + b.key).natAbs : ℤ) := by exact_mod_cast hk
      rw [Int.natCast_natAbs] at this
      exact_mod_cast this
    have h2 : (2 : ℚ) ^ 24 ≤ |((a.key + b.key : ℤ) : ℚ)| := by exact_mod_cast this
    calc (1 : ℚ) * 2 ^ 149 = 2 ^ 23 * 2 ^ 126 := by norm_num
      _ ≤ _ := mul_le_mul_of_nonneg_right (by linarith) (by positivity)

/-- `x` is a computed value of `r`, a sum of terms of total magnitude at most `m`, with at most `k` successive
roundings per term and `c` possible underflows. -/
structure Approx (x : F32) (r m : ℚ) (k c : ℕ) : Prop where
  fin : x.IsFin = true
  le : |r| ≤ m
  err : |x.val - r| ≤ ((1 + 1 / 2 ^ 24) ^ k - 1) * m + c * (1 / 2 ^ 150) * (1 + 1 / 2 ^ 24) ^ k

theorem Approx.mono {x : F32} {r m : ℚ} {k l c : ℕ} (h : Approx x r m k c) (hkl : k ≤ l) : Approx x r m l c := by
  refine ⟨h.fin, h.le, h.err.trans ?_⟩
  have m0 : 0 ≤ m := (abs_nonneg r).trans h.le
  have : (1 + 1 / 2 ^ 24 : ℚ) ^ k ≤ (1 + 1 / 2 ^ 24) ^ l := pow_le_pow_right₀ (by norm_num) hkl
  gcongr

theorem approx_mul {a b : F32} (h : (a * b).IsFin = true) : Approx (a * b) (a.val * b.val) |a.val * b.val| 1 1 := by
  obtain ⟨ha, hb⟩ := isFin_of_mul h
  refine ⟨h, le_rfl, (mul_error ha hb h).trans ?_⟩
  have : (0 : ℚ) ≤ 1 / 2 ^ 150 := by positivity
  rw [pow_one, Nat.cast_one, one_mul, add_sub_cancel_left]
  have := abs_nonneg (a.val * b.val)
  nlinarith

theorem Approx.add {x y : F32} {r m r' m' : ℚ} {k c c' : ℕ} (hx : Approx x r m k c) (hy : Approx y r' m' k c')
    (h : (x + y).IsFin = true) : Approx (x + y) (r + r') (m + m') (k + 1) (c + c') := by
  refine ⟨h, (abs_add_le _ _).trans (add_le_add hx.le hy.le), ?_⟩
  have e := add_error_rel h
  have e1 := hx.err
  have e2 := hy.err
  have t1 : |(x + y).val - (r + r')| ≤ |(x + y).val - (x.val + y.val)| + (|x.val - r| + |y.val - r'|) := by
    calc |(x + y).val - (r + r')| = |((x + y).val - (x.val + y.val)) + ((x.val - r) + (y.val - r'))| := by
          congr 1; ring
      _ ≤ _ := (abs_add_le _ _).trans (add_le_add le_rfl (abs_add_le _ _))
  have t2 : |x.val + y.val| ≤ (m + m') + (|x.val - r| + |y.val - r'|) := by
    calc |x.val + y.val| = |(r + r') + ((x.val - r) + (y.val - r'))| := by congr 1; ring
      _ ≤ |r + r'| + |(x.val - r) + (y.val - r')| := abs_add_le _ _
      _ ≤ (|r| + |r'|) + (|x.val - r| + |y.val - r'|) := add_le_add (abs_add_le _ _) (abs_add_le _ _)
      _ ≤ _ := by have := hx.le; have := hy.le; linarith
  push_cast
  rw [pow_succ]
  have e3 : |x.val - r| + |y.val - r'| ≤ ((1 + 1 / 2 ^ 24) ^ k - 1) * (m + m') +
      (c + c') * (1 / 2 ^ 150) * (1 + 1 / 2 ^ 24) ^ k := by linarith
  generalize (1 + 1 / 2 ^ 24 : ℚ) ^ k = p at *
  generalize (1 / 2 ^ 150 : ℚ) = η at *
  generalize |x.val - r| + |y.val - r'| = E at *
  have : |(x + y).val - (r + r')| ≤ (m + m') / 2 ^ 24 + (1 + 1 / 2 ^ 24) * E := by
    have : |x.val + y.val| / 2 ^ 24 ≤ ((m + m') + E) / 2 ^ 24 := by gcongr
    linarith
  refine this.trans ?_
  have : (1 + 1 / 2 ^ 24 : ℚ) * E ≤ (1 + 1 / 2 ^ 24) * ((p - 1) * (m + m') + (c + c') * η * p) := by gcongr
  linarith

theorem Approx.neg {x : F32} {r m : ℚ} {k c : ℕ} (h : Approx x r m k c) : Approx (-x) (-r) m k c := by
  refine ⟨by simpa using h.fin, by rw [abs_neg]; exact h.le, ?_⟩
  rw [val_neg, show -x.val - -r = -(x.val - r) by ring, abs_neg]
  exact h.err

theorem Approx.sub {x y : F32} {r m r' m' : ℚ} {k c c' : ℕ} (hx : Approx x r m k c) (hy : Approx y r' m' k c')
    (h : (x - y).IsFin = true) : Approx (x - y) (r - r') (m + m') (k + 1) (c + c') := by
  rw [sub_eq] at h ⊢
  rw [sub_eq_add_neg r]
  exact hx.add hy.neg h

/-- the bound in readable form, for up to four roundings -/
theorem Approx.bound {x : F32} {r m : ℚ} {k c : ℕ} (h : Approx x r m k c) (hk : k ≤ 4) :
    |x.val - r| ≤ ((1 + 1 / 2 ^ 24) ^ k - 1) * m + c / 2 ^ 149 := by
  refine h.err.trans ?_
  have : (1 + 1 / 2 ^ 24 : ℚ) ^ k ≤ 2 := (pow_le_pow_right₀ (by norm_num) hk).trans (by norm_num)
  have c0 : (0 : ℚ) ≤ c := by positivity
  have : (c : ℚ) * (1 / 2 ^ 150) * (1 + 1 / 2 ^ 24) ^ k ≤ c * (1 / 2 ^ 150) * 2 := by gcongr
  have e : (c : ℚ) * (1 / 2 ^ 150) * 2 = c / 2 ^ 149 := by
    rw [show (2 : ℚ) ^ 150 = 2 ^ 149 * 2 by norm_num]
    field_simp
  linarith

theorem approx_dot2 {a b c d : F32} (h : (a * b + c * d).IsFin = true) :
    Approx (a * b + c * d) (a.val * b.val + c.val * d.val) (|a.val * b.val| + |c.val * d.val|) 2 2 :=
  (approx_mul (isFin_of_add h).1).add (approx_mul (isFin_of_add h).2) h

theorem approx_dot3 {a b c d e f : F32} (h : (a * b + c * d + e * f).IsFin = true) :
    Approx (a * b + c * d + e * f) (a.val * b.val + c.val * d.val + e.val * f.val)
      (|a.val * b.val| + |c.val * d.val| + |e.val * f.val|) 3 3 :=
  (approx_dot2 (isFin_of_add h).1).add ((approx_mul (isFin_of_add h).2).mono (by norm_num)) h

theorem approx_dot4 {a b c d e f i j : F32} (h : (a * b + c * d + e * f + i * j).IsFin = true) :
    Approx (a * b + c * d + e * f + i * j) (a.val * b.val + c.val * d.val + e.val * f.val + i.val * j.val)
      (|a.val * b.val| + |c.val * d.val| + |e.val * f.val| + |i.val * j.val|) 4 4 :=
  (approx_dot3 (isFin_of_add h).1).add ((approx_mul (isFin_of_add h).2).mono (by norm_num)) h

theorem approx_dot4' {a b c d e f i j : F32} (h : (a * b + c * d + (e * f + i * j)).IsFin = true) :
    Approx (a * b + c * d + (e * f + i * j)) (a.val * b.val + c.val * d.val + (e.val * f.val + i.val * j.val))
      (|a.val * b.val| + |c.val * d.val| + (|e.val * f.val| + |i.val * j.val|)) 3 4 :=
  (approx_dot2 (isFin_of_add h).1).add (approx_dot2 (isFin_of_add h).2) h

theorem approx_cross {a b c d : F32} (h : (a * b - c * d).IsFin = true) :
    Approx (a * b - c * d) (a.val * b.val - c.val * d.val) (|a.val * b.val| + |c.val * d.val|) 2 2 :=
  (approx_mul (isFin_of_sub h).1).sub (approx_mul (isFin_of_sub h).2) h

/-! ### No overflow below 2^126 -/

theorem Approx.abs_le {x : F32} {r m : ℚ} {k c : ℕ} (h : Approx x r m k c) (hk : k ≤ 4) (hc : c ≤ 4) :
    |x.val| ≤ (1 + 1 / 2 ^ 20) * m + 1 := by
  have b := h.bound hk
  have m0 : 0 ≤ m := (abs_nonneg r).trans h.le
  have t : |x.val| ≤ |x.val - r| + |r| := by
    calc |x.val| = |(x.val - r) + r| := by congr 1; ring
      _ ≤ _ := abs_add_le _ _
  have p : (1 + 1 / 2 ^ 24 : ℚ) ^ k - 1 ≤ 1 / 2 ^ 20 := by
    have := (pow_le_pow_right₀ (by norm_num : (1 : ℚ) ≤ 1 + 1 / 2 ^ 24) hk)
    have : (1 + 1 / 2 ^ 24 : ℚ) ^ 4 ≤ 1 + 1 / 2 ^ 20 := by norm_num
    linarith
  have q : ((1 + 1 / 2 ^ 24 : ℚ) ^ k - 1) * m ≤ 1 / 2 ^ 20 * m := mul_le_mul_of_nonneg_right p m0
  have c4 : (c : ℚ) ≤ 4 := by exact_mod_cast hc
  have : (c : ℚ) / 2 ^ 149 ≤ 1 := by
    rw [div_le_one (by positivity)]
    exact c4.trans (by norm_num)
  have := h.le
  linarith

theorem isFin_mul_of_le {a b : F32} (ha : a.IsFin = true) (hb : b.IsFin = true) (h : |a.val * b.val| ≤ 2 ^ 126) :
    (a * b).IsFin = true := by
  rw [mul_fin ha hb]
  exact isFin_round (h.trans (by norm_num))

theorem Approx.isFin_add {x y : F32} {r m r' m' : ℚ} {k c c' : ℕ} (hx : Approx x r m k c) (hy : Approx y r' m' k c')
    (hk : k ≤ 4) (hc : c ≤ 4) (hc' : c' ≤ 4) (h : m + m' ≤ 2 ^ 126) : (x + y).IsFin = true := by
  rw [add_fin hx.fin hy.fin]
  refine isFin_round ?_
  have b := hx.abs_le hk hc
  have b' := hy.abs_le hk hc'
  have : (1 + 1 / 2 ^ 20) * (m + m') ≤ (1 + 1 / 2 ^ 20) * 2 ^ 126 := by gcongr
  have : (1 + 1 / 2 ^ 20 : ℚ) * 2 ^ 126 + 2 ≤ (2 ^ 24 - 1) * 2 ^ 104 := by norm_num
  have := abs_add_le x.val y.val
  linarith

theorem isFin_dot2 {a b c d : F32} (ha : a.IsFin = true) (hb : b.IsFin = true) (hc : c.IsFin = true)
    (hd : d.IsFin = true) (h : |a.val * b.val| + |c.val * d.val| ≤ 2 ^ 126) : (a * b + c * d).IsFin = true := by
  have p := abs_nonneg (a.val * b.val)
  have q := abs_nonneg (c.val * d.val)
  exact (approx_mul (isFin_mul_of_le ha hb (by linarith))).isFin_add (approx_mul (isFin_mul_of_le hc hd (by linarith)))
    (by norm_num) (by norm_num) (by norm_num) h

theorem isFin_dot3 {a b c d e f : F32} (ha : a.IsFin = true) (hb : b.IsFin = true) (hc : c.IsFin = true)
    (hd : d.IsFin = true) (he : e.IsFin = true) (hf : f.IsFin = true)
    (h : |a.val * b.val| + |c.val * d.val| + |e.val * f.val| ≤ 2 ^ 126) : (a * b + c * d + e * f).IsFin = true := by
  have p := abs_nonneg (a.val * b.val)
  have q := abs_nonneg (c.val * d.val)
  have r := abs_nonneg (e.val * f.val)
  exact (approx_dot2 (isFin_dot2 ha hb hc hd (by linarith))).isFin_add
    ((approx_mul (isFin_mul_of_le he hf (by linarith))).mono (by norm_num))
    (by norm_num) (by norm_num) (by norm_num) h

theorem isFin_dot4 {a b c d e f i j : F32} (ha : a.IsFin = true) (hb : b.IsFin = true) (hc : c.IsFin = true)
    (hd : d.IsFin = true) (he : e.IsFin = true) (hf : f.IsFin = true) (hi : i.IsFin = true) (hj : j.IsFin = true)
    (h : |a.val * b.val| + |c.val * d.val| + |e.val * f.val| + |i.val * j.val| ≤ 2 ^ 126) :
    (a * b + c * d + e * f + i * j).IsFin = true := by
  have p := abs_nonneg (a.val * b.val)
  have q := abs_nonneg (c.val * d.val)
  have r := abs_nonneg (e.val * f.val)
  have s := abs_nonneg (i.val * j.val)
  exact (approx_dot3 (isFin_dot3 ha hb hc hd he hf (by linarith))).isFin_add
    ((approx_mul (isFin_mul_of_le hi hj (by linarith))).mono (by norm_num))
    (by norm_num) (by norm_num) (by norm_num) h

theorem isFin_dot4' {a b c d e f i j : F32} (ha : a.IsFin = true) (hb : b.IsFin = true) (hc : c.IsFin = true)
    (hd : d.IsFin = true) (he : e.IsFin = true) (hf : f.IsFin = true) (hi : i.IsFin = true) (hj : j.IsFin = true)
    (h : |a.val * b.val| + |c.val * d.val| + (|e.val * f.val| + |i.val * j.val|) ≤ 2 ^ 126) :
    (a * b + c * d + (e * f + i * j)).IsFin = true := by
  have p := abs_nonneg (a.val * b.val)
  have q := abs_nonneg (c.val * d.val)
  have r := abs_nonneg (e.val * f.val)
  have s := abs_nonneg (i.val * j.val)
  exact (approx_dot2 (isFin_dot2 ha hb hc hd (by linarith))).isFin_add
    (approx_dot2 (isFin_dot2 he hf hi hj (by linarith)))
    (by norm_num) (by norm_num) (by norm_num) h

/-! ### In the words of the specification -/

theorem accurate2 (a b c d : F32) : AccurateSum (a * b + c * d) ![a, c] ![b, d] := by
  constructor
  · intro hf h
    rw [Fin.sum_univ_two] at h
    exact isFin_dot2 (hf 0).1 (hf 0).2 (hf 1).1 (hf 1).2 h
  · intro h
    rw [Fin.sum_univ_two, Fin.sum_univ_two]
    exact (approx_dot2 h).bound (by norm_num)

theorem accurate3 (a b c d e f : F32) : AccurateSum (a * b + c * d + e * f) ![a, c, e] ![b, d, f] := by
  constructor
  · intro hf h
    rw [Fin.sum_univ_three] at h
    exact isFin_dot3 (hf 0).1 (hf 0).2 (hf 1).1 (hf 1).2 (hf 2).1 (hf 2).2 h
  · intro h
    rw [Fin.sum_univ_three, Fin.sum_univ_three]
    exact (approx_dot3 h).bound (by norm_num)

theorem accurate4 (a b c d e f i j : F32) :
    AccurateSum (a * b + c * d + e * f + i * j) ![a, c, e, i] ![b, d, f, j] := by
  constructor
  · intro hf h
    rw [Fin.sum_univ_four] at h
    exact isFin_dot4 (hf 0).1 (hf 0).2 (hf 1).1 (hf 1).2 (hf 2).1 (hf 2).2 (hf 3).1 (hf 3).2 h
  · intro h
    rw [Fin.sum_univ_four, Fin.sum_univ_four]
    exact (approx_dot4 h).bound (by norm_num)

theorem accurate4' (a b c d e f i j : F32) :
    AccurateSum (a * b + c * d + (e * f + i * j)) ![a, c, e, i] ![b, d, f, j] := by
  constructor
  · intro hf h
    rw [Fin.sum_univ_four, add_assoc (_ + _)] at h
    exact isFin_dot4' (hf 0).1 (hf 0).2 (hf 1).1 (hf 1).2 (hf 2).1 (hf 2).2 (hf 3).1 (hf 3).2 h
  · intro h
    rw [Fin.sum_univ_four, Fin.sum_univ_four, add_assoc (_ + _), add_assoc (|_| + |_|)]
    exact ((approx_dot4' h).mono (l := 4) (by norm_num)).bound (by norm_num)

theorem accurate_cross (a b c d : F32) : AccurateSum (a * b - c * d) ![a, -c] ![b, d] := by
  rw [sub_eq, ← neg_mul']
  exact accurate2 a b (-c) d

theorem AccurateSum.swap {x : F32} {n : ℕ} {a b : Fin n → F32} (h : AccurateSum x a b) : AccurateSum x b a := by
  unfold AccurateSum at *
  simp only [fun i => mul_comm (b i).val (a i).val]
  exact ⟨fun hf => h.1 (fun i => (hf i).symm), h.2⟩

/-! ### Relative error of a correctly rounded result -/

theorem CorrectlyRounded.rel {x : F32} {r : ℝ} (h : CorrectlyRounded x r) (h1 : 1 / 2 ^ 126 ≤ |r|)
    (h2 : |r| < (2 ^ 25 - 1) * 2 ^ 103) : x.IsFin = true ∧ |(x.val : ℝ) - r| ≤ |r| / 2 ^ 24 := by
  have pos : ∀ (x : F32) (r : ℝ), 0 ≤ r → CorrectlyRounded x r → 1 / 2 ^ 126 ≤ r → r < (2 ^ 25 - 1) * 2 ^ 103 →
      |(x.val : ℝ) - r| ≤ r / 2 ^ 24 := by
    intro x r h0 h h1 h2
    have c := correct_pack h0
    have q0 : 0 ≤ r * 2 ^ 149 := by positivity
    have lt := lt_of_lt_threshold q0 (by
      rw [show ((2:ℝ) ^ 25 - 1) * 2 ^ 252 = (2 ^ 25 - 1) * 2 ^ 103 * 2 ^ 149 by norm_num]
      exact mul_lt_mul_of_pos_right h2 (by positivity))
    have rep : Rep (roundUnits (r * 2 ^ 149)) := (roundUnits_rep q0).2 lt
    have hv : ((pack false (roundUnits (r * 2 ^ 149))).val : ℝ) = (roundUnits (r * 2 ^ 149) : ℝ) / 2 ^ 149 := by
      rw [val_pack rep, Rat.cast_div, Rat.cast_natCast, Rat.cast_pow, Rat.cast_ofNat]
    have e := roundUnits_error_rel (q := r * 2 ^ 149) (by
      calc (2:ℝ) ^ 23 = 1 / 2 ^ 126 * 2 ^ 149 := by norm_num
        _ ≤ _ := mul_le_mul_of_nonneg_right h1 (by positivity))
    have hx : x.val = (pack false (roundUnits (r * 2 ^ 149))).val := by
      rcases h.unique c with h | ⟨_, _, h, g⟩
      · rw [h]
      · rw [h, g]
    rw [hx, hv, abs_sub_comm]
    have p : (0:ℝ) < 2 ^ 149 := by positivity
    rw [show r - (roundUnits (r * 2 ^ 149) : ℝ) / 2 ^ 149 = (r * 2 ^ 149 - roundUnits (r * 2 ^ 149)) / 2 ^ 149 by
      field_simp, abs_div, abs_of_pos p, div_le_iff₀ p]
    refine e.trans (le_of_eq ?_)
    ring
  refine ⟨(h.1 h2).1.1, ?_⟩
  rcases le_or_gt 0 r with h0 | h0
  · rw [abs_of_nonneg h0] at h1 h2 ⊢
    exact pos x r h0 h h1 h2
  · rw [abs_of_neg h0] at h1 h2 ⊢
    have := pos (-x) (-r) (by linarith) h.neg h1 h2
    rw [val_neg] at this
    push_cast at this
    rwa [show -(x.val : ℝ) - -r = -(x.val - r) by ring, abs_neg] at this

end Zcm.F32
