import Verif.Lemmas.F32Unit
import Verif.Lemmas.F32Oct
import Verif.Lemmas.F32Correct
import Verif.Lemmas.F32Zero
import Verif.Lemmas.F32Mix
import Verif.Lemmas.F32Fract
import Verif.Model.Geometric

/-!
# Lemmas: results that carry no rounding error
-/

set_option exponentiation.threshold 300

namespace Zcm

open F32

/-- The square of a number below `2^64` does not overflow. -/
theorem sq_fin_of_lt {x : F32} (fx : x.IsFin = true) (h : |x.val| < 2 ^ 64) : (x * x).IsFin = true := by
  have rep : Rep (2 ^ 213) := by decide +kernel
  have v : (F32.fin false _ rep).val = 2 ^ 64 := by
    simp only [val, key_fin_false]; norm_num
  have g := gap24_of_lt (isFin_fabs fx) (f := .fin false _ rep) rfl (by rw [val_fabsQ]; positivity)
    (by rw [val_fabsQ, v]; exact h)
  rw [val_fabsQ, v] at g
  have hx : |x.val| ≤ 2 ^ 64 - 2 ^ 40 := by
    norm_num at g ⊢
    linarith
  rw [mul_fin fx fx]
  refine isFin_round ?_
  rw [abs_mul]
  refine (mul_le_mul hx hx (abs_nonneg _) (by norm_num)).trans (by norm_num)

/-- Squaring and taking the root gives the magnitude back, bit for bit, unless the square over- or underflows. -/
theorem sqrt_sq_exact {x : F32} (fx : x.IsFin = true) (h1 : 1 / 2 ^ 63 ≤ |x.val|) (h2 : |x.val| < 2 ^ 64) :
    F.sqrt (x * x) = F.abs x := by
  have f := sq_fin_of_lt fx h2
  have x0 : 0 < |x.val| := lt_of_lt_of_le (by norm_num) h1
  have low := abs_le_sqrt_of_sq' fx f f h1 le_rfl
  have sq : x.val * x.val = |x.val| * |x.val| := by rw [abs_mul_abs_self]
  have big : 1 / 2 ^ 126 ≤ |x.val * x.val| := by
    rw [abs_mul]
    calc (1 / 2 ^ 126 : ℚ) = 1 / 2 ^ 63 * (1 / 2 ^ 63) := by norm_num
      _ ≤ _ := mul_le_mul h1 h1 (by norm_num) x0.le
  have err : |(x * x).val - x.val * x.val| ≤ |x.val * x.val| / 2 ^ 24 := mul_error_rel fx fx f big
  rw [sq, abs_of_nonneg (a := |x.val| * |x.val|) (by positivity)] at err
  have S0 : 0 ≤ (x * x).val := sq_nonneg_val fx
  have c := sqrt_correct f S0
  have small : |Real.sqrt (x * x).val| < (2 ^ 25 - 1) * 2 ^ 103 := by
    rw [abs_of_nonneg (Real.sqrt_nonneg _)]
    have : ((x * x).val : ℝ) < 2 ^ 128 := by exact_mod_cast val_lt f
    rw [Real.sqrt_lt' (by norm_num)]
    exact this.trans (by norm_num)
  have n := (c.1 small).1
  change Nearest (F.sqrt (x * x)) _ at n
  have up : (F.sqrt (x * x)).val ≤ |x.val| := by
    by_contra hc
    rw [not_le] at hc
    have g := gap24_of_lt (isFin_fabs fx) n.1 (by rw [val_fabsQ]; exact x0.le) (by rw [val_fabsQ]; exact hc)
    rw [val_fabsQ] at g
    have near := n.2 (F.abs x) (isFin_fabs fx)
    rw [val_fabs] at near
    have gR : ((F.sqrt (x * x)).val : ℝ) ≤ 2 ^ 24 * ((F.sqrt (x * x)).val - |(x.val : ℝ)|) := by exact_mod_cast g
    have hcR : |(x.val : ℝ)| < (F.sqrt (x * x)).val := by exact_mod_cast hc
    have xR : 0 < |(x.val : ℝ)| := by exact_mod_cast x0
    have dR : ((x * x).val : ℝ) ≤ |(x.val : ℝ)| * |(x.val : ℝ)| + |(x.val : ℝ)| * |(x.val : ℝ)| / 2 ^ 24 := by
      have : (x * x).val ≤ |x.val| * |x.val| + |x.val| * |x.val| / 2 ^ 24 := by linarith [(abs_le.1 err).2]
      exact_mod_cast this
    have rs := Real.mul_self_sqrt (show (0 : ℝ) ≤ (x * x).val by exact_mod_cast S0)
    have r0 := Real.sqrt_nonneg ((x * x).val : ℝ)
    rw [← rs] at dR
    generalize ((F.sqrt (x * x)).val : ℝ) = s at *
    generalize Real.sqrt ((x * x).val : ℝ) = r at *
    generalize |(x.val : ℝ)| = y at *
    have mid : (s + y) / 2 ≤ r := by
      by_contra hm
      rw [not_le] at hm
      rw [abs_of_pos (by linarith)] at near
      rcases le_total r y with h | h
      · rw [abs_of_nonneg (by linarith)] at near; linarith
      · rw [abs_of_nonpos (by linarith)] at near; linarith
    have r1 : y * (1 + 1 / (2 ^ 25 - 2)) ≤ r := by
      norm_num at gR ⊢
      linarith
    have r2 : y * (1 + 1 / (2 ^ 25 - 2)) * (y * (1 + 1 / (2 ^ 25 - 2))) ≤ r * r :=
      mul_le_mul r1 r1 (by norm_num; positivity) r0
    have : 0 < y * y := by positivity
    have e1 : y * y + y * y / 2 ^ 24 = y * y * (1 + 1 / 2 ^ 24) := by ring
    rw [e1] at dR
    have : y * y * ((1 + 1 / (2 ^ 25 - 2)) * (1 + 1 / (2 ^ 25 - 2))) ≤ y * y * (1 + 1 / 2 ^ 24) := by linarith
    have := le_of_mul_le_mul_left this (by positivity)
    norm_num at this
  refine eq_of_key (isFin_ne_nan n.1) (isFin_ne_nan (isFin_fabs fx)) (key_eq_iff.2 ?_) ?_
  · rw [val_fabsQ]; exact le_antisymm up low
  · rw [Ne, key_eq_zero]; exact (lt_of_lt_of_le x0 low).ne'

theorem sgn_sq {x : F32} (fx : x.IsFin = true) : (x * x).sgn = false := by
  rw [mul_fin fx fx, sgn_round]
  split_ifs with h
  · simp
  · simpa using mul_self_nonneg _

theorem isZ_of_beq {z : F32} (h : (z == lit 0) = true) : IsZ z := by
  obtain ⟨h1, -, h3⟩ := beq_iff.1 h
  rw [key_lit_zero] at h3
  refine ⟨(isFin_iff h1).2 (by rw [h3]; norm_num), key_eq_zero.1 h3⟩

theorem sq_isZ {z : F32} (h : IsZ z) : z * z = lit 0 := by
  rw [mul_fin h.1 h.1, h.2]
  cases z.sgn <;> decide +kernel

theorem add_lit_zero {a : F32} (fa : a.IsFin = true) (h : a.sgn = false) : a + lit 0 = a := by
  rw [add_fin fa isFin_lit_zero, val_lit_zero, add_zero, sgn_lit_zero, Bool.and_false, ← h, round_val fa]

theorem lit_zero_add {a : F32} (fa : a.IsFin = true) (h : a.sgn = false) : lit 0 + a = a := by
  rw [add_comm', add_lit_zero fa h]

/-- Gradual underflow: a difference is zero only if the numbers are equal. -/
theorem sub_isZ_iff {a b : F32} (fa : a.IsFin = true) (fb : b.IsFin = true) : (a - b).val = 0 ↔ a.val = b.val := by
  have rep : Rep 1 := by decide +kernel
  have v : (F32.fin false 1 rep).val = 1 / 2 ^ 149 := by simp [val, key_fin_false]
  rw [sub_fin fa fb]
  constructor
  · intro h
    have k := key_eq_zero.2 h
    rcases lt_trichotomy a.key b.key with c | c | c
    · exfalso
      have : a.val - b.val ≤ (-F32.fin false 1 rep).val := by
        rw [val_neg, v]
        have : (a.key : ℚ) + 1 ≤ b.key := by exact_mod_cast c
        unfold val
        rw [← sub_div, ← neg_div, div_le_div_iff_of_pos_right (by positivity)]
        linarith
      have := key_round_le (a := -F32.fin false 1 rep) rfl this (a.sgn && !b.sgn)
      rw [k, F32.key_neg, key_fin_false] at this
      norm_num at this
    · exact key_eq_iff.1 c
    · exfalso
      have : (F32.fin false 1 rep).val ≤ a.val - b.val := by
        rw [v]
        have : (b.key : ℚ) + 1 ≤ a.key := by exact_mod_cast c
        unfold val
        rw [← sub_div, div_le_div_iff_of_pos_right (by positivity)]
        linarith
      have := le_key_round (a := F32.fin false 1 rep) rfl this (a.sgn && !b.sgn)
      rw [k, key_fin_false] at this
      norm_num at this
  · intro h
    rw [h, sub_self]
    exact (isZ_round _).2

/-- Twice a number below `2^127` is a number. -/
theorem exists_twice {c : F32} (fc : c.IsFin = true) (h : |c.val| < 2 ^ 127) :
    ∃ d : F32, d.IsFin = true ∧ d.val = 2 * c.val := by
  have r' : Rep' ((2 * c.key).natAbs) := by
    obtain ⟨m, hm, hm'⟩ := Rep'.exists_mul (rep_of_isFin fc).1
    rw [Int.natAbs_mul, hm, show (2 : ℤ).natAbs = 2 from rfl, mul_left_comm, ← pow_succ']
    exact rep'_mul_pow hm'.le
  have hk : (2 * c.key).natAbs < 2 ^ 277 := by
    unfold val at h
    rw [abs_div, abs_of_pos (show (0 : ℚ) < 2 ^ 149 by positivity), div_lt_iff₀ (by positivity)] at h
    have : |c.key| < 2 ^ 276 := by
      have : ((|c.key| : ℤ) : ℚ) < ((2 ^ 276 : ℤ) : ℚ) := by push_cast; refine h.trans_le (le_of_eq ?_); norm_num
      exact_mod_cast this
    rw [Int.abs_eq_natAbs] at this
    omega
  have := val_round_of_rep (z := 2 * c.key) ⟨r', hk⟩ false
  refine ⟨_, this.1, this.2.trans ?_⟩
  unfold val; push_cast; ring

theorem uround_big {x : ℚ} (h : 2 ^ 128 ≤ x) : 2 ^ 277 ≤ uround x := by
  have e := uround_of_rep (n := 2 ^ 277) (by simpa [Int.natAbs_pow] using rep'_mul_pow (m := 1) (e := 277) (by norm_num))
  rw [← e]
  refine uround_mono (le_trans (le_of_eq ?_) h)
  push_cast; norm_num

theorem uround_low {x : ℚ} (h : x ≤ -2 ^ 128) : uround x ≤ -2 ^ 277 := by
  have e := uround_of_rep (n := -2 ^ 277) (by simpa [Int.natAbs_pow] using rep'_mul_pow (m := 1) (e := 277) (by norm_num))
  rw [← e]
  refine uround_mono (le_trans h (le_of_eq ?_))
  push_cast; norm_num

theorem val_lt_pow {x : F32} (hf : x.IsFin = true) : -2 ^ 128 < x.val ∧ x.val < 2 ^ 128 := by
  have := val_lt hf
  have h2 := val_lt (x := -x) (by rw [isFin_neg]; exact hf)
  rw [val_neg] at h2
  exact ⟨by linarith, this⟩

/-- The midpoint of two numbers lies between them. -/
theorem midpoint {a b : F32} (f : (a + b).IsFin = true) (h : a ≤ b) :
    (a ≤ (a + b) / lit 2 ∧ (a + b) / lit 2 ≤ b) ∧ (a + b) * lit 0.5 = (a + b) / lit 2 := by
  obtain ⟨fa, fb⟩ := isFin_of_add f
  have ab := key_le_iff.1 h.2.2
  have e : (a + b) * lit 0.5 = (a + b) / lit 2 := by
    rw [mul_fin f isFin_lit_half, div_fin f isFin_lit_two (by rw [val_lit_two]; norm_num), F32.val_lit_half, val_lit_two]
    have s1 : (lit 0.5 : F32).sgn = (lit 2 : F32).sgn := by decide +kernel
    rw [s1]
    congr 1
    ring
  have lim := val_lt_pow f
  have low : 2 * a.val ≤ (a + b).val := by
    by_cases c : |a.val| < 2 ^ 127
    · obtain ⟨d, fd, hd⟩ := exists_twice fa c
      rw [← hd, add_fin fa fb]
      exact key_le_iff.1 (le_key_round fd (by rw [hd]; linarith) _)
    · rw [not_lt, le_abs'] at c
      rcases c with c | c
      · linarith
      · exfalso
        rw [add_fin fa fb] at f
        have k := uround_of_fin f
        have := uround_big (x := a.val + b.val) (by linarith)
        have := (key_bound_fin f).2
        omega
  have up : (a + b).val ≤ 2 * b.val := by
    by_cases c : |b.val| < 2 ^ 127
    · obtain ⟨d, fd, hd⟩ := exists_twice fb c
      rw [← hd, add_fin fa fb]
      exact key_le_iff.1 (key_round_le fd (by rw [hd]; linarith) _)
    · rw [not_lt, le_abs'] at c
      rcases c with c | c
      · exfalso
        rw [add_fin fa fb] at f
        have k := uround_of_fin f
        have := uround_low (x := a.val + b.val) (by linarith)
        have := (key_bound_fin f).1
        omega
      · linarith
  refine ⟨?_, e⟩
  have n2 : (lit 2 : F32).val ≠ 0 := by rw [val_lit_two]; norm_num
  rw [div_fin f isFin_lit_two n2, val_lit_two]
  exact ⟨⟨isFin_ne_nan fa, round_ne_nan _ _, le_key_round fa (by linarith) _⟩,
    ⟨round_ne_nan _ _, isFin_ne_nan fb, key_round_le fb (by linarith) _⟩⟩

/-- A number divided by its magnitude is exactly 1 or -1. -/
theorem div_abs_self {x : F32} (fx : x.IsFin = true) (h : x.val ≠ 0) :
    x / F.abs x = if x.val < 0 then lit (-1) else lit 1 := by
  have fa := isFin_fabs fx
  have va : (F.abs x).val = |x.val| := val_fabsQ x
  have sa : (F.abs x).sgn = false := by
    obtain ⟨s, k, hk, rfl⟩ := exists_fin fx; rfl
  rw [div_fin fx fa (by rw [va]; exact abs_ne_zero.2 h), va, sa, Bool.xor_false]
  split_ifs with c
  · rw [abs_of_neg c, div_neg, div_self h]
    have : ∀ s : Bool, round s (-1) = lit (-1) := by decide +kernel
    exact this _
  · rw [abs_of_nonneg (not_lt.1 c), div_self h]
    have : ∀ s : Bool, round s 1 = lit 1 := by decide +kernel
    exact this _

theorem zero_div_pos {z a : F32} (hz : IsZ z) (fa : a.IsFin = true) (ha : 0 < a.val) : z / a = z := by
  have sa : a.sgn = false := sgn_of_key_pos (key_pos.2 ha)
  rw [div_fin hz.1 fa ha.ne', sa, Bool.xor_false, hz.2, zero_div]
  have := round_val hz.1
  rwa [hz.2] at this

theorem zero_mul_pos {z a : F32} (hz : IsZ z) (fa : a.IsFin = true) (ha : 0 < a.val) : z * a = z := by
  have sa : a.sgn = false := sgn_of_key_pos (key_pos.2 ha)
  rw [mul_fin hz.1 fa, sa, Bool.xor_false, hz.2, zero_mul]
  have := round_val hz.1
  rwa [hz.2] at this

/-- A number times the rounded reciprocal of its magnitude is 1 or the number just below 1, up to the sign. -/
theorem mul_recip {x : F32} (fx : x.IsFin = true) (h1 : 1 / 2 ^ 63 ≤ |x.val|) (h2 : |x.val| < 2 ^ 64) :
    (lit 1 / F.abs x).IsFin = true ∧ 0 < (lit 1 / F.abs x).val ∧ (x * (lit 1 / F.abs x)).IsFin = true ∧
    ((x * (lit 1 / F.abs x)).val = x.val / |x.val| ∨
      (x * (lit 1 / F.abs x)).val = x.val / |x.val| * (1 - 1 / 2 ^ 24)) := by
  have x0 : 0 < |x.val| := lt_of_lt_of_le (by norm_num) h1
  have fa := isFin_fabs fx
  have va : (F.abs x).val = |x.val| := val_fabsQ x
  have e1 := div_fin isFin_lit_one fa (by rw [va]; exact x0.ne')
  rw [val_lit_one, va] at e1
  have rb : 1 / |x.val| ≤ 2 ^ 63 := by
    rw [div_le_iff₀ x0]
    rw [div_le_iff₀ (by norm_num)] at h1
    linarith
  have rs : 1 / 2 ^ 64 ≤ 1 / |x.val| := one_div_le_one_div_of_le x0 h2.le
  have r0 : 0 < 1 / |x.val| := by positivity
  have f1 : (lit 1 / F.abs x).IsFin = true := by
    rw [e1]; exact isFin_round (by rw [abs_of_pos r0]; exact rb.trans (by norm_num))
  have er := round_error_sharp (s := (lit 1 : F32).sgn ^^ (F.abs x).sgn) (x := 1 / |x.val|) (by rw [← e1]; exact f1)
    (by rw [abs_of_pos r0]; exact le_trans (by norm_num) rs)
  rw [← e1, abs_of_pos r0] at er
  generalize (lit 1 / F.abs x) = g at *
  have pe : abs (|x.val| * g.val - 1) ≤ 1 / (2 ^ 24 + 1) := by
    have : |x.val| * g.val - 1 = |x.val| * (g.val - 1 / |x.val|) := by field_simp
    rw [this, abs_mul, abs_abs]
    refine (mul_le_mul_of_nonneg_left er x0.le).trans (le_of_eq ?_)
    field_simp
  have g0 : 0 < g.val := by
    have : (0 : ℚ) < |x.val| * g.val := by linarith [(abs_le.1 pe).1, show (1 : ℚ) / (2 ^ 24 + 1) < 1 by norm_num]
    exact (pos_iff_pos_of_mul_pos this).1 x0
  have key : ∀ s : Bool, ∀ p : ℚ, |p - 1| ≤ 1 / (2 ^ 24 + 1) →
      (round s p).IsFin = true ∧ ((round s p).val = 1 ∨ (round s p).val = 1 - 1 / 2 ^ 24) := by
    intro s p hp
    obtain ⟨p1, p2⟩ := abs_le.1 hp
    have k1 : ∀ s : Bool, (round s (1 + 1 / (2 ^ 24 + 1))).IsFin = true ∧ (round s (1 + 1 / (2 ^ 24 + 1))).val = 1 := by
      decide +kernel
    have k2 : ∀ s : Bool, (round s (1 - 1 / (2 ^ 24 + 1))).IsFin = true ∧
        (round s (1 - 1 / (2 ^ 24 + 1))).val = 1 - 1 / 2 ^ 24 := by
      decide +kernel
    have hi := key_round_mono (x := p) (y := 1 + 1 / (2 ^ 24 + 1)) (by linarith) s s
    have lo := key_round_mono (x := 1 - 1 / (2 ^ 24 + 1)) (y := p) (by linarith) s s
    have fp : (round s p).IsFin = true := by
      rw [isFin_iff (round_ne_nan _ _)]
      have := key_bound_fin (k1 s).1
      have := key_bound_fin (k2 s).1
      omega
    rw [key_le_iff, (k1 s).2] at hi
    rw [key_le_iff, (k2 s).2] at lo
    refine ⟨fp, ?_⟩
    rcases hi.lt_or_eq with c | c
    · right
      have g := gap24_of_lt fp isFin_lit_one (by norm_num at lo; linarith) (by rw [val_lit_one]; exact c)
      rw [val_lit_one] at g
      norm_num at g lo ⊢
      linarith
    · exact .inl c
  refine ⟨f1, g0, ?_⟩
  rw [mul_fin fx f1]
  rcases lt_or_gt_of_ne (abs_pos.1 x0) with c | c
  · rw [abs_of_neg c] at pe ⊢
    obtain ⟨k1, k2⟩ := key (!(x.sgn ^^ g.sgn)) _ pe
    have e : round (x.sgn ^^ g.sgn) (x.val * g.val) = -round (!(x.sgn ^^ g.sgn)) (-x.val * g.val) := by
      rw [neg_mul, ← round_neg]; simp
    rw [e, isFin_neg, val_neg, div_neg, div_self c.ne]
    refine ⟨k1, ?_⟩
    rcases k2 with k2 | k2
    · left; rw [k2]
    · right; rw [k2]; ring
  · rw [abs_of_pos c] at pe ⊢
    obtain ⟨k1, k2⟩ := key (x.sgn ^^ g.sgn) _ pe
    rw [div_self c.ne']
    exact ⟨k1, by simpa using k2⟩

/-- The reciprocal of a power of two is exact. -/
theorem mul_recip_pow {x : F32} (fx : x.IsFin = true) (h1 : 1 / 2 ^ 63 ≤ |x.val|) (h2 : |x.val| < 2 ^ 64) (k : ℤ)
    (hk : |x.val| = (2 : ℚ) ^ k) : x * (lit 1 / F.abs x) = if x.val < 0 then lit (-1) else lit 1 := by
  have x0 : 0 < |x.val| := lt_of_lt_of_le (by norm_num) h1
  have fa := isFin_fabs fx
  have va : (F.abs x).val = |x.val| := val_fabsQ x
  have e1 := div_fin isFin_lit_one fa (by rw [va]; exact x0.ne')
  rw [val_lit_one, va] at e1
  have l1 : -63 ≤ k := by
    rw [hk] at h1
    by_contra c
    have : (2 : ℚ) ^ k < 2 ^ (-63 : ℤ) := zpow_lt_zpow_right₀ (by norm_num) (not_le.1 c)
    rw [zpow_neg] at this
    norm_num at this h1
    linarith
  have l2 : k < 64 := by
    rw [hk] at h2
    by_contra c
    have : (2 : ℚ) ^ (64 : ℤ) ≤ 2 ^ k := zpow_le_zpow_right₀ (by norm_num) (not_lt.1 c)
    norm_num at this h2
    linarith
  obtain ⟨n, hn⟩ := Int.eq_ofNat_of_zero_le (show 0 ≤ 149 - k by omega)
  have rep : Rep ((2 ^ n : ℤ)).natAbs := by
    rw [Int.natAbs_pow]
    refine ⟨by simpa [Rep'] using rep'_mul_pow (m := 1) (e := n) (by norm_num), ?_⟩
    exact Nat.pow_lt_pow_right (by norm_num) (by omega)
  have inv : 1 / |x.val| = ((2 ^ n : ℤ) : ℚ) / 2 ^ 149 := by
    rw [hk, one_div, ← zpow_neg, eq_div_iff (by positivity)]
    push_cast
    rw [← zpow_natCast (2 : ℚ) 149, ← zpow_natCast (2 : ℚ) n, ← zpow_add₀ (by norm_num), ← hn]
    congr 1
    push_cast
    ring
  rw [inv] at e1
  obtain ⟨f1, v1⟩ := val_round_of_rep rep ((lit 1 : F32).sgn ^^ (F.abs x).sgn)
  rw [← e1] at f1 v1
  rw [← inv] at v1
  rw [mul_fin fx f1, v1]
  split_ifs with c
  · rw [abs_of_neg c, mul_one_div, div_neg, div_self c.ne]
    have : ∀ s : Bool, round s (-1) = lit (-1) := by decide +kernel
    exact this _
  · have c' : 0 < x.val := lt_of_le_of_ne (not_lt.1 c) (Ne.symm (abs_pos.1 x0))
    rw [abs_of_pos c', mul_one_div, div_self c'.ne']
    have : ∀ s : Bool, round s 1 = lit 1 := by decide +kernel
    exact this _

end Zcm
