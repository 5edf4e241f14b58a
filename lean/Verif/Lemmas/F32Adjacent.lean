import Verif.Lemmas.F32Grid
import Mathlib.Data.Nat.Log
import Mathlib.Data.Int.GCD
import Mathlib.RingTheory.Coprime.Lemmas

/-!
# Quotients of binary32 numbers that are at most 1 apart
-/

set_option exponentiation.threshold 300

namespace Zcm.F32

theorem exists_form {a : F32} (h : a.IsFin = true) : ∃ (m : ℤ) (e : ℕ), |m| < 2 ^ 24 ∧ a.val = m * 2 ^ e / 2 ^ 149 := by
  obtain ⟨s, k, hk, rfl⟩ := exists_fin h
  obtain ⟨m, e1, e2⟩ := Rep'.exists_mul hk.1
  cases s
  · refine ⟨m, ulpExp k, by rw [abs_of_nonneg (by positivity)]; exact_mod_cast e2, ?_⟩
    change (((k : ℤ) : ℚ)) / 2 ^ 149 = _
    congr 1
    exact_mod_cast e1
  · refine ⟨-m, ulpExp k, by rw [abs_neg, abs_of_nonneg (by positivity)]; exact_mod_cast e2, ?_⟩
    change (((-(k : ℤ) : ℤ)) : ℚ) / 2 ^ 149 = _
    congr 1
    push_cast
    rw [neg_mul]
    congr 1
    exact_mod_cast e1

theorem exists_float {M : ℤ} {t : ℕ} (h : |M| ≤ 2 ^ 24) (ht : t ≤ 149) : ∃ z : F32, z.IsFin = true ∧ z.val = M / 2 ^ t := by
  have hb := _root_.abs_le.1 h
  obtain ⟨d, hd⟩ := Nat.exists_eq_add_of_le ht
  have r : Rep' (M * 2 ^ d).natAbs := by
    rw [Int.natAbs_mul]
    have : ((2 : ℤ) ^ d).natAbs = 2 ^ d := by simp [Int.natAbs_pow]
    rw [this]
    exact rep'_mul_pow (by omega)
  have u := uround_of_rep r
  have e : ((M * 2 ^ d : ℤ) : ℚ) / 2 ^ 149 = M / 2 ^ t := by
    rw [hd, pow_add]; push_cast; field_simp
  have dl : (2 : ℤ) ^ d ≤ 2 ^ 149 := pow_le_pow_right₀ (by norm_num) (by omega)
  have dp : (0 : ℤ) < 2 ^ d := by positivity
  have b1 : -(2 ^ 24 * 2 ^ 149) ≤ M * 2 ^ d := by nlinarith
  have b2 : M * 2 ^ d ≤ 2 ^ 24 * 2 ^ 149 := by nlinarith
  rw [e] at u
  have k : (round false (M / 2 ^ t)).key = M * 2 ^ d := by
    rw [key_round, u]
    exact cut_of (by norm_num at b1 b2 ⊢; omega) (by norm_num at b1 b2 ⊢; omega)
  refine ⟨round false (M / 2 ^ t), ?_, ?_⟩
  · rw [isFin_iff (round_ne_nan _ _), k]
    norm_num at b1 b2 ⊢
    omega
  · change ((round false (M / 2 ^ t)).key : ℚ) / 2 ^ 149 = _
    rw [k]
    exact e

theorem quotient_no_tie {q s : F32} (fq : q.IsFin = true) (fs : s.IsFin = true) (h0 : s.val ≠ 0) {M : ℤ} {t : ℕ}
    (hM : Odd M) (hb : 2 ^ 24 ≤ |M|) : q.val / s.val ≠ M / 2 ^ t := by
  intro h
  obtain ⟨a, b, ha, ea⟩ := exists_form fq
  obtain ⟨c, d, hc, ec⟩ := exists_form fs
  have c0 : c ≠ 0 := by
    rintro rfl
    apply h0; rw [ec]; simp
  rw [div_eq_div_iff h0 (by positivity), ea, ec] at h
  have k : a * 2 ^ b * 2 ^ t = M * (c * 2 ^ d) := by
    have : ((a * 2 ^ b * 2 ^ t : ℤ) : ℚ) = ((M * (c * 2 ^ d) : ℤ) : ℚ) := by
      push_cast
      field_simp at h
      linarith
    exact_mod_cast this
  have dv : M ∣ a * 2 ^ (b + t) := ⟨c * 2 ^ d, by rw [pow_add, ← mul_assoc]; exact k⟩
  have cp : IsCoprime M (2 ^ (b + t)) := by
    apply IsCoprime.pow_right
    obtain ⟨r, rfl⟩ := hM
    exact ⟨1, -r, by ring⟩
  have da := cp.dvd_of_dvd_mul_right dv
  have a0 : a ≠ 0 := by
    rintro rfl
    rw [zero_mul, zero_mul, eq_comm, mul_eq_zero] at k
    rcases k with rfl | k
    · simp at hb
    · rw [mul_eq_zero] at k
      rcases k with k | k
      · exact c0 k
      · exact absurd k (by positivity)
  have := Int.le_of_dvd (abs_pos.2 a0) ((abs_dvd_abs M a).2 da)
  omega

theorem scaled_gap {p s : F32} (fp : p.IsFin = true) (fs : s.IsFin = true) (j : ℕ) (h0 : 0 < s.val) (h : p.val < 2 ^ j * s.val) :
    2 ^ j * s.val ≤ 2 ^ 24 * (2 ^ j * s.val - p.val) := by
  obtain ⟨a, b, ha, ea⟩ := exists_form fp
  obtain ⟨c, d, hc, ec⟩ := exists_form fs
  have hk : a * 2 ^ b < c * 2 ^ (d + j) := by
    have : ((a * 2 ^ b : ℤ) : ℚ) < ((c * 2 ^ (d + j) : ℤ) : ℚ) := by
      rw [ea, ec] at h
      push_cast
      rw [div_lt_iff₀ (by positivity)] at h
      refine h.trans_le (le_of_eq ?_)
      rw [pow_add]; field_simp
    exact_mod_cast this
  have c0 : 0 < c := by
    have : (0 : ℚ) < c := by
      rw [ec] at h0
      by_contra hc
      have : (c : ℚ) * 2 ^ d / 2 ^ 149 ≤ 0 := div_nonpos_of_nonpos_of_nonneg (mul_nonpos_of_nonpos_of_nonneg (not_lt.1 hc) (by positivity)) (by positivity)
      linarith
    exact_mod_cast this
  have goal : c * 2 ^ (d + j) ≤ 2 ^ 24 * (c * 2 ^ (d + j) - a * 2 ^ b) := by
    generalize d + j = e at *
    have ha' := abs_lt.1 ha
    have hc' := abs_lt.1 hc
    rcases le_or_gt e b with g | g
    · obtain ⟨r, rfl⟩ := Nat.exists_eq_add_of_le g
      have e0 : (0 : ℤ) < 2 ^ e := by positivity
      have e1 : a * 2 ^ (e + r) = (a * 2 ^ r) * 2 ^ e := by rw [pow_add]; ring
      rw [e1] at hk ⊢
      have : a * 2 ^ r < c := lt_of_mul_lt_mul_right hk e0.le
      have : 2 ^ e ≤ (c - a * 2 ^ r) * 2 ^ e := by
        have : 1 ≤ c - a * 2 ^ r := by omega
        nlinarith
      nlinarith
    · obtain ⟨r, rfl⟩ := Nat.exists_eq_add_of_le g.le
      have e0 : (0 : ℤ) < 2 ^ b := by positivity
      have e1 : c * 2 ^ (b + r) = (c * 2 ^ r) * 2 ^ b := by rw [pow_add]; ring
      rw [e1] at hk ⊢
      have lt : a < c * 2 ^ r := lt_of_mul_lt_mul_right hk e0.le
      have : c * 2 ^ r ≤ 2 ^ 24 * (c * 2 ^ r - a) := by
        generalize c * 2 ^ r = T at *
        omega
      nlinarith
  have : ((c * 2 ^ (d + j) : ℤ) : ℚ) ≤ ((2 ^ 24 * (c * 2 ^ (d + j) - a * 2 ^ b) : ℤ) : ℚ) := by exact_mod_cast goal
  push_cast at this
  rw [ea, ec]
  have e1 : (2 : ℚ) ^ j * (c * 2 ^ d / 2 ^ 149) = c * 2 ^ (d + j) / 2 ^ 149 := by rw [pow_add]; ring
  rw [e1, ← sub_div, ← mul_div_assoc]
  exact div_le_div_of_nonneg_right this (by positivity)

theorem float_below {f : F32} (hf : f.IsFin = true) {K : ℤ} {t : ℕ} (ht : t ≤ 149) (hK : 2 ^ 23 < K ∨ K ≤ -2 ^ 23)
    (h : f.val < K / 2 ^ t) : f.val ≤ (K - 1) / 2 ^ t := by
  by_contra hc
  rw [not_le] at hc
  obtain ⟨m, e, hm, em⟩ := exists_form hf
  obtain ⟨d, hd⟩ := Nat.exists_eq_add_of_le ht
  have s1 : ∀ z : ℤ, ((z : ℚ) / 2 ^ t) = (z * 2 ^ d) / 2 ^ 149 := fun z => by rw [hd, pow_add]; field_simp
  have z1 : m * 2 ^ e < K * 2 ^ d := by
    rw [em, s1, div_lt_div_iff_of_pos_right (by positivity)] at h
    exact_mod_cast h
  have z2 : (K - 1) * 2 ^ d < m * 2 ^ e := by
    have := s1 (K - 1)
    push_cast at this
    rw [em, this, div_lt_div_iff_of_pos_right (by positivity)] at hc
    exact_mod_cast hc
  have hm' := abs_lt.1 hm
  have d0 : (0 : ℤ) < 2 ^ d := by positivity
  have de : d ≤ e := by
    by_contra hlt
    rw [not_le] at hlt
    have : (2 : ℤ) ^ e * 2 ≤ 2 ^ d := by
      rw [← pow_succ]; exact pow_le_pow_right₀ (by norm_num) hlt
    have e0 : (0 : ℤ) < 2 ^ e := by positivity
    rcases hK with hK | hK <;> nlinarith
  obtain ⟨r, rfl⟩ := Nat.exists_eq_add_of_le de
  have e1 : m * 2 ^ (d + r) = (m * 2 ^ r) * 2 ^ d := by rw [pow_add]; ring
  rw [e1] at z1 z2
  have := lt_of_mul_lt_mul_right z1 d0.le
  have := lt_of_mul_lt_mul_right z2 d0.le
  omega

/-- No finite float is nearer to the exact quotient. -/
theorem quotient_nearest {q s z : F32} (fq : q.IsFin = true) (fs : s.IsFin = true) (h0 : s.val ≠ 0) (hb : |q.val / s.val| ≤ 2 ^ 24)
    (fz : z.IsFin = true) : |(q / s).val - q.val / s.val| ≤ |z.val - q.val / s.val| := by
  have c := (div_correct fq fs h0).1 (by
    have : ((|q.val / s.val| : ℚ) : ℝ) ≤ ((2 ^ 24 : ℚ) : ℝ) := by exact_mod_cast hb
    push_cast at this
    refine lt_of_le_of_lt this (by norm_num))
  exact_mod_cast c.1.2 z fz

theorem exists_scale {N : ℤ} (h1 : 1 ≤ N) (h2 : N ≤ 2 ^ 24) : ∃ t : ℕ, t ≤ 24 ∧ 2 ^ 23 < N * 2 ^ t ∧ N * 2 ^ t ≤ 2 ^ 24 := by
  obtain ⟨n, rfl⟩ := Int.eq_ofNat_of_zero_le (by omega : 0 ≤ N)
  have n1 : 1 ≤ n := by omega
  have n2 : n ≤ 2 ^ 24 := by omega
  have c : Nat.clog 2 n ≤ 24 := Nat.clog_le_of_le_pow n2
  have u : n ≤ 2 ^ Nat.clog 2 n := Nat.le_pow_clog (by norm_num) n
  have k : 2 ^ Nat.clog 2 n < 2 * n := by
    rcases Nat.lt_or_ge 1 n with g | g
    · have := Nat.pow_pred_clog_lt_self (b := 2) (by norm_num) g
      have p : 0 < Nat.clog 2 n := Nat.clog_pos (by norm_num) g
      have e : 2 ^ Nat.clog 2 n = 2 * 2 ^ (Nat.clog 2 n).pred := by
        rw [← pow_succ', ← Nat.succ_eq_add_one, Nat.succ_pred_eq_of_pos p]
      omega
    · have : n = 1 := by omega
      subst this; simp
  generalize Nat.clog 2 n = c' at *
  obtain ⟨t, ht⟩ := Nat.exists_eq_add_of_le c
  refine ⟨t, by omega, ?_, ?_⟩
  · have : 2 ^ c' * 2 ^ t < 2 * n * 2 ^ t := Nat.mul_lt_mul_of_pos_right k (by positivity)
    rw [← pow_add, ← ht] at this
    have : 2 ^ 23 < n * 2 ^ t := by linarith
    exact_mod_cast this
  · have : n * 2 ^ t ≤ 2 ^ c' * 2 ^ t := Nat.mul_le_mul_right _ u
    rw [← pow_add, ← ht] at this
    exact_mod_cast this

/-- The floors of two computed quotients that are at most 1 apart in exact arithmetic are at most 1 apart. -/
theorem quotient_floor_le {p q s : F32} (fp : p.IsFin = true) (fq : q.IsFin = true) (fs : s.IsFin = true) (h0 : 0 < s.val)
    (hp : |p.val| ≤ 2 ^ 23 * s.val) (hq : |q.val| ≤ 2 ^ 23 * s.val) (h : q.val - p.val ≤ s.val) :
    ⌊(q / s).val⌋ ≤ ⌊(p / s).val⌋ + 1 := by
  have bx : |p.val / s.val| ≤ 2 ^ 23 := by rwa [abs_div, abs_of_pos h0, div_le_iff₀ h0]
  have bY : |q.val / s.val| ≤ 2 ^ 23 := by rwa [abs_div, abs_of_pos h0, div_le_iff₀ h0]
  have nx := fun z fz => quotient_nearest (z := z) fp fs h0.ne' (bx.trans (by norm_num)) fz
  have ny := fun z fz => quotient_nearest (z := z) fq fs h0.ne' (bY.trans (by norm_num)) fz
  have tie := fun (M : ℤ) (t : ℕ) (hM : Odd M) (hb : 2 ^ 24 ≤ |M|) => quotient_no_tie (t := t) fq fs h0.ne' hM hb
  have gp := fun j => scaled_gap fp fs j h0
  have gq := fun j => scaled_gap fq fs j h0
  have ix : (p / s).IsFin = true ∧ (⌊p.val / s.val⌋ : ℚ) ≤ (p / s).val ∧ (p / s).val ≤ ⌈p.val / s.val⌉ := by
    rw [div_fin fp fs h0.ne']; exact round_between_ints (bx.trans (by norm_num)) _
  have iy : (q / s).IsFin = true ∧ (⌊q.val / s.val⌋ : ℚ) ≤ (q / s).val ∧ (q / s).val ≤ ⌈q.val / s.val⌉ := by
    rw [div_fin fq fs h0.ne']; exact round_between_ints (bY.trans (by norm_num)) _
  have xy : q.val / s.val ≤ p.val / s.val + 1 := by
    rw [div_add_one h0.ne', div_le_div_iff_of_pos_right h0]; linarith
  have px : p.val = p.val / s.val * s.val := (div_mul_cancel₀ _ h0.ne').symm
  have qy : q.val = q.val / s.val * s.val := (div_mul_cancel₀ _ h0.ne').symm
  generalize p.val / s.val = x at *
  generalize q.val / s.val = y at *
  by_contra hc
  rw [not_le] at hc
  obtain ⟨n, hn⟩ : ∃ n : ℤ, n = ⌊(p / s).val⌋ + 1 := ⟨_, rfl⟩
  have Xn : (p / s).val < n := by rw [hn]; push_cast; exact Int.lt_floor_add_one _
  have Yn : ((n + 1 : ℤ) : ℚ) ≤ (q / s).val := (Int.cast_le.2 (by omega)).trans (Int.floor_le _)
  have xn : x < n := by
    by_contra g
    have g1 : n ≤ ⌊x⌋ := Int.le_floor.2 (not_lt.1 g)
    have : (n : ℚ) ≤ ⌊x⌋ := by exact_mod_cast g1
    linarith [ix.2.1]
  have yn : y < n + 1 := by linarith
  have Ye : (q / s).val = n + 1 := by
    apply le_antisymm _ (by push_cast at Yn; exact Yn)
    have : ⌈y⌉ ≤ n + 1 := Int.ceil_le.2 (by push_cast; exact yn.le)
    have : ((⌈y⌉ : ℤ) : ℚ) ≤ ((n + 1 : ℤ) : ℚ) := Int.cast_le.2 this
    push_cast at this
    exact iy.2.2.trans this
  have bx' := _root_.abs_le.1 bx
  have bY' := _root_.abs_le.1 bY
  -- the integers involved are floats
  have nb1 : n ≤ 2 ^ 23 + 1 := by
    have : ((⌊(p / s).val⌋ : ℤ) : ℚ) ≤ (⌈x⌉ : ℤ) := (Int.floor_le _).trans ix.2.2
    have a : ⌊(p / s).val⌋ ≤ ⌈x⌉ := by exact_mod_cast this
    have b : ⌈x⌉ ≤ 2 ^ 23 := Int.ceil_le.2 (by push_cast; exact bx'.2)
    omega
  have nb2 : -(2 ^ 23) ≤ n := by
    have : (-(2 ^ 23 : ℤ) : ℚ) < n := by push_cast; linarith
    have : -(2 ^ 23 : ℤ) < n := by exact_mod_cast this
    omega
  obtain ⟨zn, fzn, vzn⟩ := exists_float (M := n) (t := 0) (by rw [_root_.abs_le]; constructor <;> omega) (by norm_num)
  have hx := nx zn fzn
  rw [vzn, pow_zero, div_one, abs_of_pos (by linarith : 0 < (n : ℚ) - x)] at hx
  have hx' := _root_.abs_le.1 hx
  rw [Ye] at ny
  have stepY : ∀ (K : ℤ) (t : ℕ), t ≤ 149 → |K - 1| ≤ 2 ^ 24 → ((n + 1 : ℤ) : ℚ) = K / 2 ^ t → (n : ℚ) + 1 - y ≤ 1 / 2 ^ (t + 1) := by
    intro K t ht hK e
    obtain ⟨z, fz, vz⟩ := exists_float hK ht
    have a := ny z fz
    have t0 : (0 : ℚ) < 1 / 2 ^ t := by positivity
    have vz' : z.val = n + 1 - 1 / 2 ^ t := by
      push_cast at e vz
      rw [vz, sub_div, ← e]
    have e2 : (1 : ℚ) / 2 ^ (t + 1) = 1 / 2 ^ t / 2 := by rw [pow_succ]; field_simp
    rw [abs_of_pos (by linarith : 0 < (n : ℚ) + 1 - y), vz'] at a
    rw [e2]
    rcases le_abs.1 a with a | a <;> linarith
  have stepX : ∀ (K : ℤ) (t : ℕ), t ≤ 149 → (2 ^ 23 < K ∨ K ≤ -2 ^ 23) → (n : ℚ) = K / 2 ^ t → 1 / 2 ^ (t + 1) ≤ (n : ℚ) - x := by
    intro K t ht hK e
    have a := float_below ix.1 ht hK (by rw [← e]; exact Xn)
    rw [sub_div, ← e] at a
    have e2 : (1 : ℚ) / 2 ^ (t + 1) = 1 / 2 ^ t / 2 := by rw [pow_succ]; field_simp
    rw [e2]
    linarith
  rcases lt_trichotomy (n + 1) 0 with N | N | N
  · -- below 0
    obtain ⟨t, t24, k1, k2⟩ : ∃ t : ℕ, t ≤ 24 ∧ 2 ^ 23 ≤ -(n + 1) * 2 ^ t ∧ -(n + 1) * 2 ^ t < 2 ^ 24 := by
      obtain ⟨t, t24, k1, k2⟩ := exists_scale (N := -(n + 1)) (by omega) (by omega)
      rcases lt_or_eq_of_le k2 with g | g
      · exact ⟨t, t24, k1.le, g⟩
      · cases t with
        | zero => omega
        | succ t =>
          refine ⟨t, by omega, ?_, ?_⟩ <;> rw [pow_succ, ← mul_assoc] at g <;> omega
    have p2 : (0 : ℚ) < 2 ^ t := by positivity
    have p3 : (0 : ℤ) < 2 ^ t := by positivity
    have eN : ((n + 1 : ℤ) : ℚ) = (((n + 1) * 2 ^ t : ℤ) : ℚ) / 2 ^ t := by push_cast; field_simp
    have eN' : ((n : ℤ) : ℚ) = ((n * 2 ^ t : ℤ) : ℚ) / 2 ^ t := by push_cast; field_simp
    have w : -(n + 1) * 2 ^ t = -((n + 1) * 2 ^ t) := by ring
    rw [w] at k1 k2
    have y1 := stepY _ t (by omega) (by rw [_root_.abs_le]; constructor <;> omega) eN
    have x1 := stepX _ t (by omega) (.inr (by nlinarith)) eN'
    have ye : y = ((2 * ((n + 1) * 2 ^ t) - 1 : ℤ) : ℚ) / 2 ^ (t + 1) := by
      have : y = n + 1 - 1 / 2 ^ (t + 1) := by linarith
      rw [this]; push_cast; rw [pow_succ]; field_simp
    refine tie _ _ ⟨(n + 1) * 2 ^ t - 1, by ring⟩ ?_ ye
    rw [abs_of_nonpos (by omega)]; omega
  · -- from -1 to 0
    have n1 : n = -1 := by omega
    have x1 := stepX (-2 ^ 23) 23 (by norm_num) (.inr le_rfl) (by rw [n1]; norm_num)
    have y1 := stepY 0 26 (by norm_num) (by norm_num) (by rw [N]; norm_num)
    norm_num at x1 y1
    linarith
  · obtain ⟨t, t24, k1, k2⟩ := exists_scale (N := n + 1) (by omega) (by omega)
    have p2 : (0 : ℚ) < 2 ^ t := by positivity
    have eN : ((n + 1 : ℤ) : ℚ) = (((n + 1) * 2 ^ t : ℤ) : ℚ) / 2 ^ t := by push_cast; field_simp
    have eN' : ((n : ℤ) : ℚ) = ((n * 2 ^ t : ℤ) : ℚ) / 2 ^ t := by push_cast; field_simp
    have y1 := stepY _ t (by omega) (by rw [_root_.abs_le]; constructor <;> omega) eN
    have contra : 1 / 2 ^ (t + 1) ≤ (n : ℚ) - x → False := by
      intro g
      have ye : y = ((2 * ((n + 1) * 2 ^ t) - 1 : ℤ) : ℚ) / 2 ^ (t + 1) := by
        have : y = n + 1 - 1 / 2 ^ (t + 1) := by linarith
        rw [this]; push_cast; rw [pow_succ]; field_simp
      refine tie _ _ ⟨(n + 1) * 2 ^ t - 1, by ring⟩ ?_ ye
      rw [abs_of_nonneg (by omega)]; omega
    rcases lt_or_ge (2 ^ 23) (n * 2 ^ t) with g | g
    · exact contra (stepX _ t (by omega) (.inl g) eN')
    · rcases Nat.lt_or_ge t 24 with ht | ht
      · obtain ⟨j, hj⟩ := Nat.exists_eq_add_of_le (Nat.lt_succ_iff.1 ht)
        have nj : n = 2 ^ j := by
          have e : (2 : ℤ) ^ 23 = 2 ^ j * 2 ^ t := by rw [← pow_add, add_comm, ← hj]
          rw [e] at g k1
          have p2 : (0 : ℤ) < 2 ^ t := by positivity
          have := le_of_mul_le_mul_right g p2
          have := lt_of_mul_lt_mul_right k1 p2.le
          omega
        have := gp j (by rw [px]; refine mul_lt_mul_of_pos_right ?_ h0; rw [nj] at xn; push_cast at xn; exact xn)
        apply contra
        have e : (n : ℚ) = 2 ^ j := by rw [nj]; push_cast; rfl
        rw [← e, px, ← sub_mul, ← mul_assoc] at this
        have := le_of_mul_le_mul_right this h0
        have e3 : (1 : ℚ) / 2 ^ (t + 1) = n / 2 ^ 24 := by
          have : (2 : ℚ) ^ 24 = 2 ^ j * 2 ^ (t + 1) := by rw [← pow_add]; congr 1; omega
          rw [e, this]; field_simp
        rw [e3, div_le_iff₀ (by positivity)]
        linarith
      · have t' : t = 24 := by omega
        subst t'
        have n0 : n = 0 := by omega
        subst n0
        have := gq 0 (by rw [qy, pow_zero]; refine mul_lt_mul_of_pos_right ?_ h0; simpa using yn)
        rw [pow_zero, one_mul, qy] at this
        have : 1 * s.val ≤ 2 ^ 24 * (1 - y) * s.val := by linarith
        have := le_of_mul_le_mul_right this h0
        norm_num at y1 this
        linarith

theorem quotient_bound {x s : F32} (fs : s.IsFin = true) (h0 : 0 < s.val) (fx : x.IsFin = true) (hx : |x.val| ≤ 2 ^ 23 * s.val) :
    (x / s).IsFin = true ∧ |⌊(x / s).val⌋| ≤ 2 ^ 23 := by
  have b : |x.val / s.val| ≤ 2 ^ 23 := by rwa [abs_div, abs_of_pos h0, div_le_iff₀ h0]
  rw [div_fin fx fs h0.ne']
  obtain ⟨f, l, u⟩ := round_between_ints (b.trans (by norm_num)) (x.sgn ^^ s.sgn)
  refine ⟨f, ?_⟩
  have b' := _root_.abs_le.1 b
  have a1 : ⌊x.val / s.val⌋ ≤ ⌊(round (x.sgn ^^ s.sgn) (x.val / s.val)).val⌋ := Int.le_floor.2 l
  have a2 : ⌊(round (x.sgn ^^ s.sgn) (x.val / s.val)).val⌋ ≤ ⌈x.val / s.val⌉ := by
    have := (Int.floor_le _).trans u
    exact_mod_cast this
  have a3 : -(2 ^ 23) ≤ ⌊x.val / s.val⌋ := Int.le_floor.2 (by push_cast; exact b'.1)
  have a4 : ⌈x.val / s.val⌉ ≤ 2 ^ 23 := Int.ceil_le.2 (by push_cast; exact b'.2)
  rw [_root_.abs_le]; omega

theorem cell_adjacent {p q s : F32} (fs : s.IsFin = true) (h0 : lit 0 < s) (fp : p.IsFin = true) (fq : q.IsFin = true)
    (hp : |p.val| ≤ 2 ^ 23 * s.val) (hq : |q.val| ≤ 2 ^ 23 * s.val) (h : |p.val - q.val| ≤ s.val) :
    ∃ m n : ℤ, IsInt (F.floor (p / s)) m ∧ IsInt (F.floor (q / s)) n ∧ |m - n| ≤ 1 ∧ |n| ≤ 2 ^ 23 := by
  have s0 := cell_size_pos h0
  obtain ⟨f1, b1⟩ := quotient_bound fs s0 fp hp
  obtain ⟨f2, b2⟩ := quotient_bound fs s0 fq hq
  have h' := _root_.abs_le.1 h
  have i1 := quotient_floor_le fp fq fs s0 hp hq (by linarith)
  have i2 := quotient_floor_le fq fp fs s0 hq hp (by linarith)
  exact ⟨_, _, ⟨isFin_floor f1, val_floor f1⟩, ⟨isFin_floor f2, val_floor f2⟩, by rw [_root_.abs_le]; omega, b2⟩

theorem cell_around {p q s : F32} (fs : s.IsFin = true) (h0 : lit 0 < s) (fp : p.IsFin = true) (fq : q.IsFin = true)
    (hp : |p.val| ≤ 2 ^ 23 * s.val) (hq : |q.val| ≤ 2 ^ 23 * s.val) (h : |p.val - q.val| ≤ s.val) :
    F.floor (q / s) - lit 1 ≤ F.floor (p / s) ∧ F.floor (p / s) ≤ F.floor (q / s) + lit 1 := by
  obtain ⟨m, n, im, i, d, b⟩ := cell_adjacent fs h0 fp fq hp hq h
  have e := i.ex b
  have one : Ex (lit 1 : F32) ((1 : ℤ) : ℝ) 1 := by simpa using Ex.ofLit (n := 1) (by norm_num)
  have a1 := e.sub one (by norm_num)
  have a2 := e.add one (by norm_num)
  rw [← Int.cast_sub] at a1
  rw [← Int.cast_add] at a2
  have d' := _root_.abs_le.1 d
  refine ⟨⟨isFin_ne_nan a1.fin, isFin_ne_nan im.1, key_le_iff.2 ?_⟩, ⟨isFin_ne_nan im.1, isFin_ne_nan a2.fin, key_le_iff.2 ?_⟩⟩
  · rw [a1.isInt.1.2, im.2]; exact_mod_cast (by omega : n - 1 ≤ m)
  · rw [a2.isInt.1.2, im.2]; exact_mod_cast (by omega : m ≤ n + 1)

end Zcm.F32
