import Verif.Lemmas.F32Persp
import Verif.Lemmas.F32Oct
import Verif.Props.C83

/-!
# The components of a normalised vector do not exceed 1

`sqrt(x * x)` is not less than `|x|` in binary32, and adding squares does not make it smaller.
-/

set_option exponentiation.threshold 300

namespace Zcm.F32

section

variable {K : Type*} [Field K] [LinearOrder K] [IsStrictOrderedRing K] [FloorRing K]

/-- the rounding error is at most `q / (2^24 + 1)` -/
theorem roundUnits_error_sharp {q : K} (h : 2 ^ 23 ≤ q) : |q - roundUnits q| ≤ q / (2 ^ 24 + 1) := by
  have h0 : 0 ≤ q := le_trans (by positivity) h
  have t1 : (2 : K) ^ 23 ≤ q / 2 ^ ulpExp ⌊q⌋.toNat := by
    rcases Nat.eq_zero_or_pos (ulpExp ⌊q⌋.toNat) with he | he
    · rw [he]; simpa using h
    · have h2 := pow_le_of_floor h0 he.ne'
      rw [le_div_iff₀ (by positivity), ← pow_add, add_comm]
      exact h2
  rw [roundUnits_cast h0]
  generalize ulpExp ⌊q⌋.toNat = e at *
  have p : (0 : K) < 2 ^ e := by positivity
  have h4 : q - (roundHalfEven (q / 2 ^ e) : K) * 2 ^ e = (q / 2 ^ e - roundHalfEven (q / 2 ^ e)) * 2 ^ e := by
    field_simp
  have h5 : q / (2 ^ 24 + 1) = (q / 2 ^ e) / (2 ^ 24 + 1) * 2 ^ e := by
    field_simp
  rw [h4, h5, abs_mul, abs_of_pos p]
  refine mul_le_mul_of_nonneg_right ?_ p.le
  have a := rhe_abs_sub_le (q / 2 ^ e)
  have b := rhe_nearest (q / 2 ^ e) (2 ^ 23)
  generalize q / 2 ^ e = t at *
  rw [Int.cast_pow, Int.cast_ofNat, abs_of_nonneg (a := t - 2 ^ 23) (by linarith)] at b
  rw [le_div_iff₀ (by positivity)]
  rcases le_total t (2 ^ 23 + 1 / 2) with c | c
  · have : |t - roundHalfEven t| * (2 ^ 24 + 1) ≤ (t - 2 ^ 23) * (2 ^ 24 + 1) := by gcongr
    norm_num at *
    linarith
  · have : |t - roundHalfEven t| * (2 ^ 24 + 1) ≤ (1 / 2) * (2 ^ 24 + 1) := by gcongr
    norm_num at *
    linarith

end

theorem round_error_sharp {s : Bool} {x : ℚ} (h : (round s x).IsFin = true) (hx : 1 / 2 ^ 126 ≤ |x|) :
    |(round s x).val - x| ≤ |x| / (2 ^ 24 + 1) := by
  rw [val_round_sub h, uround_abs, div_le_iff₀ (by positivity)]
  have h23 : (2 : ℚ) ^ 23 ≤ |x| * 2 ^ 149 := by
    rw [div_le_iff₀ (by positivity)] at hx
    norm_num at hx ⊢
    linarith
  refine (roundUnits_error_sharp h23).trans (le_of_eq ?_)
  ring

theorem rep_gap24 {k l : ℕ} (hk : Rep k) (hl : Rep l) (h : l < k) : k ≤ 2 ^ 24 * (k - l) := by
  by_cases c : 2 * l ≤ k
  · omega
  have k0 : k ≠ 0 := by omega
  have l0 : l ≠ 0 := by omega
  have u : k < 2 ^ (Nat.log2 k + 1) := Nat.lt_log2_self
  have v : l < 2 ^ (Nat.log2 l + 1) := Nat.lt_log2_self
  have a := Nat.log2_self_le k0
  by_cases small : Nat.log2 k ≤ 23
  · have : 2 ^ (Nat.log2 k + 1) ≤ 2 ^ 24 := Nat.pow_le_pow_right (by norm_num) (by omega)
    omega
  have lg : Nat.log2 k ≤ Nat.log2 l + 1 := by
    by_contra hc
    have : 2 ^ (Nat.log2 l + 1 + 1) ≤ 2 ^ Nat.log2 k := Nat.pow_le_pow_right (by norm_num) (by omega)
    rw [pow_succ] at this
    omega
  have dk : 2 ^ (Nat.log2 k - 23) ∣ k := hk.1
  have big : ∀ g, 2 ^ (Nat.log2 k - 23) ≤ g → k ≤ 2 ^ 24 * g := by
    intro g hg
    calc k ≤ 2 ^ (Nat.log2 k + 1) := u.le
      _ = 2 ^ 24 * 2 ^ (Nat.log2 k - 23) := by rw [← pow_add]; congr 1; omega
      _ ≤ _ := by gcongr
  by_cases same : Nat.log2 k ≤ Nat.log2 l
  · have dl : 2 ^ (Nat.log2 k - 23) ∣ l := (pow_dvd_pow 2 (by unfold ulpExp; omega)).trans hl.1
    exact big _ (Nat.le_of_dvd (by omega) (Nat.dvd_sub dk dl))
  have le : l < 2 ^ Nat.log2 k := lt_of_lt_of_le v (Nat.pow_le_pow_right (by norm_num) (by omega))
  rcases eq_or_lt_of_le a with e | e
  · have dl : 2 ^ (Nat.log2 k - 24) ∣ l := (pow_dvd_pow 2 (by unfold ulpExp; omega)).trans hl.1
    have dk' : 2 ^ (Nat.log2 k - 24) ∣ k := (pow_dvd_pow 2 (by omega)).trans dk
    have d := Nat.le_of_dvd (by omega) (Nat.dvd_sub dk' dl)
    calc k = 2 ^ Nat.log2 k := e.symm
      _ = 2 ^ 24 * 2 ^ (Nat.log2 k - 24) := by rw [← pow_add]; congr 1; omega
      _ ≤ _ := by gcongr
  · have dp : 2 ^ (Nat.log2 k - 23) ∣ 2 ^ Nat.log2 k := pow_dvd_pow 2 (by omega)
    have := Nat.le_of_dvd (by omega) (Nat.dvd_sub dk dp)
    exact big _ (by omega)

theorem gap24_of_lt {n f : F32} (hn : n.IsFin = true) (hf : f.IsFin = true) (h0 : 0 ≤ n.val) (h : n.val < f.val) :
    f.val ≤ 2 ^ 24 * (f.val - n.val) := by
  rcases h0.eq_or_lt with e | h0
  · rw [← e]; linarith
  obtain ⟨s, k, hk, rfl⟩ := exists_fin hf
  obtain ⟨t, l, hl, rfl⟩ := exists_fin hn
  have ek := val_pos_fin (h0.trans h)
  have el := val_pos_fin h0
  rw [ek, el] at h ⊢
  have lt : l < k := by
    have := (div_lt_div_iff_of_pos_right (show (0 : ℚ) < 2 ^ 149 by positivity)).1 h
    exact Nat.cast_lt.1 this
  have q : (k : ℚ) ≤ 2 ^ 24 * (k - l) := by
    have : (k : ℚ) ≤ ((2 ^ 24 * (k - l) : ℕ) : ℚ) := Nat.cast_le.2 (rep_gap24 hk hl lt)
    rw [Nat.cast_mul, Nat.cast_sub lt.le] at this
    norm_num at this ⊢
    exact this
  rw [← sub_div, mul_div_assoc', div_le_div_iff_of_pos_right (by positivity)]
  exact q

/-- `sqrt(d) ≥ |x|` as soon as `d ≥ x * x` in floats -/
theorem abs_le_sqrt_of_sq' {x d : F32} (hx : x.IsFin = true) (hd : d.IsFin = true) (f : (x * x).IsFin = true)
    (h1 : 1 / 2 ^ 63 ≤ |x.val|) (h : (x * x).val ≤ d.val) : |x.val| ≤ (F.sqrt d).val := by
  have x0 : 0 < |x.val| := lt_of_lt_of_le (by norm_num) h1
  have sq : x.val * x.val = |x.val| * |x.val| := by rw [abs_mul_abs_self]
  have big : 1 / 2 ^ 126 ≤ |x.val * x.val| := by
    rw [sq, abs_mul, abs_abs]
    calc (1 : ℚ) / 2 ^ 126 ≤ 1 / 2 ^ 63 * (1 / 2 ^ 63) := by norm_num
      _ ≤ _ := by gcongr
  have e := mul_fin hx hx
  have er : |(x * x).val - x.val * x.val| ≤ |x.val * x.val| / (2 ^ 24 + 1) := by
    rw [e] at f ⊢
    exact round_error_sharp f big
  rw [sq, abs_of_nonneg (a := |x.val| * |x.val|) (by positivity)] at er
  have er1 := (abs_le.1 er).1
  have dpos : 0 ≤ d.val := by
    have : |x.val| * |x.val| / (2 ^ 24 + 1) ≤ |x.val| * |x.val| := div_le_self (by positivity) (by norm_num)
    linarith
  have c := sqrt_correct hd dpos
  have small : |Real.sqrt d.val| < (2 ^ 25 - 1) * 2 ^ 103 := by
    rw [abs_of_nonneg (Real.sqrt_nonneg _)]
    have : (d.val : ℝ) < 2 ^ 128 := by exact_mod_cast val_lt hd
    rw [Real.sqrt_lt' (by norm_num)]
    exact this.trans (by norm_num)
  have n := (c.1 small).1
  by_contra hc
  rw [not_le] at hc
  have s0 : 0 ≤ (F.sqrt d).val := by
    have := n.2 (F.abs (F.sqrt d)) (isFin_fabs n.1)
    by_contra hneg
    rw [not_le] at hneg
    rw [val_fabs] at this
    have hneg : ((F.sqrt d).val : ℝ) < 0 := by exact_mod_cast hneg
    have r0 := Real.sqrt_nonneg (d.val : ℝ)
    change |((F.sqrt d).val : ℝ) - _| ≤ |(|((F.sqrt d).val : ℝ)|) - _| at this
    generalize ((F.sqrt d).val : ℝ) = s at *
    rw [abs_of_neg hneg, abs_of_neg (by linarith)] at this
    rcases le_total (-s) (Real.sqrt d.val) with h | h
    · rw [abs_of_nonpos (by linarith)] at this; linarith
    · rw [abs_of_nonneg (by linarith)] at this
      have : Real.sqrt d.val = 0 := by linarith
      have d0 : (0 : ℝ) < d.val := by
        have : 0 < d.val := by
          have : |x.val| * |x.val| / (2 ^ 24 + 1) < |x.val| * |x.val| := div_lt_self (by positivity) (by norm_num)
          linarith
        exact_mod_cast this
      exact absurd this (Real.sqrt_pos.2 d0).ne'
  have g := gap24_of_lt n.1 (isFin_fabs hx) s0 (by rw [val_fabsQ]; exact hc)
  rw [val_fabsQ] at g
  have near := n.2 (F.abs x) (isFin_fabs hx)
  rw [val_fabs] at near
  have gR : |(x.val : ℝ)| ≤ 2 ^ 24 * (|(x.val : ℝ)| - (F.sqrt d).val) := by exact_mod_cast g
  have s0R : (0 : ℝ) ≤ (F.sqrt d).val := by exact_mod_cast s0
  have hcR : ((F.sqrt d).val : ℝ) < |(x.val : ℝ)| := by exact_mod_cast hc
  have xR : 0 < |(x.val : ℝ)| := by exact_mod_cast x0
  have dR : |(x.val : ℝ)| * |(x.val : ℝ)| - |(x.val : ℝ)| * |(x.val : ℝ)| / (2 ^ 24 + 1) ≤ d.val := by
    have : |x.val| * |x.val| - |x.val| * |x.val| / (2 ^ 24 + 1) ≤ d.val := by linarith
    exact_mod_cast this
  change |((F.sqrt d).val : ℝ) - _| ≤ _ at near
  have rs := Real.mul_self_sqrt (show (0 : ℝ) ≤ d.val by exact_mod_cast dpos)
  have r0 := Real.sqrt_nonneg (d.val : ℝ)
  rw [← rs] at dR
  generalize ((F.sqrt d).val : ℝ) = s at *
  generalize Real.sqrt d.val = r at *
  generalize |(x.val : ℝ)| = y at *
  have mid : r ≤ (s + y) / 2 := by
    by_contra hm
    rw [not_le] at hm
    rw [abs_of_neg (by linarith)] at near
    rcases le_total r y with h | h
    · rw [abs_of_nonneg (by linarith)] at near; linarith
    · rw [abs_of_nonpos (by linarith)] at near; linarith
  have r1 : r ≤ y * (1 - 1 / 2 ^ 25) := by
    norm_num at gR ⊢
    linarith
  have r2 : r * r ≤ y * (1 - 1 / 2 ^ 25) * (y * (1 - 1 / 2 ^ 25)) := mul_le_mul r1 r1 r0 (by positivity)
  have : 0 < y * y := by positivity
  have e1 : y * y - y * y / (2 ^ 24 + 1) = y * y * (1 - 1 / (2 ^ 24 + 1)) := by ring
  rw [e1] at dR
  have : y * y * (1 - 1 / (2 ^ 24 + 1)) ≤ y * y * ((1 - 1 / 2 ^ 25) * (1 - 1 / 2 ^ 25)) := by linarith
  have := le_of_mul_le_mul_left this (by positivity)
  norm_num at this

theorem abs_le_sqrt_of_sq {x d : F32} (hx : x.IsFin = true) (hd : d.IsFin = true) (f : (x * x).IsFin = true)
    (h1 : 1 / 2 ^ 60 ≤ |x.val|) (h : (x * x).val ≤ d.val) : |x.val| ≤ (F.sqrt d).val :=
  abs_le_sqrt_of_sq' hx hd f (le_trans (by norm_num) h1) h

theorem le_add_left {a b : F32} (f : (a + b).IsFin = true) (hb : 0 ≤ b.val) : a.val ≤ (a + b).val := by
  obtain ⟨ha, hb'⟩ := isFin_of_add f
  rw [add_fin ha hb']
  exact key_le_iff.1 (le_key_round ha (by linarith) _)

theorem le_add_right {a b : F32} (f : (a + b).IsFin = true) (ha : 0 ≤ a.val) : b.val ≤ (a + b).val := by
  obtain ⟨ha', hb⟩ := isFin_of_add f
  rw [add_fin ha' hb]
  exact key_le_iff.1 (le_key_round hb (by linarith) _)

theorem sq_nonneg_val {x : F32} (hx : x.IsFin = true) : 0 ≤ (x * x).val := by
  rw [mul_fin hx hx, ← val_lit_zero]
  refine key_le_iff.1 (le_key_round isFin_lit_zero ?_ _)
  rw [val_lit_zero]
  exact mul_self_nonneg _

/-- `d` is a finite float, at least the square of every component -/
def Dominates {n : ℕ} (v : Fin n → F32) (d : F32) : Prop :=
  d.IsFin = true ∧ ∀ i, (v i * v i).IsFin = true ∧ (v i * v i).val ≤ d.val

theorem dominates2 {v : Fin 2 → F32} (h : Medium v) : Dominates v (v 0 * v 0 + v 1 * v 1) := by
  obtain ⟨k, c, a, -, -⟩ := sqLen2 h
  have f1 := a.1
  obtain ⟨f2, f3⟩ := isFin_of_add f1
  have s := fun i => sq_nonneg_val (h.1 i)
  refine ⟨f1, fun i => ?_⟩
  fin_cases i
  · exact ⟨f2, le_add_left f1 (s 1)⟩
  · exact ⟨f3, le_add_right f1 (s 0)⟩

theorem dominates3 {v : Fin 3 → F32} (h : Medium v) : Dominates v (v 0 * v 0 + v 1 * v 1 + v 2 * v 2) := by
  obtain ⟨k, c, a, -, -⟩ := sqLen3 h
  have f1 := a.1
  obtain ⟨f2, f3⟩ := isFin_of_add f1
  obtain ⟨f4, f5⟩ := isFin_of_add f2
  have s := fun i => sq_nonneg_val (h.1 i)
  have l0 := le_add_left f2 (s 1)
  have l1 := le_add_right f2 (s 0)
  have l2 := le_add_left f1 (s 2)
  have l3 := le_add_right f1 ((s 0).trans l0)
  refine ⟨f1, fun i => ?_⟩
  fin_cases i
  · exact ⟨f4, l0.trans l2⟩
  · exact ⟨f5, l1.trans l2⟩
  · exact ⟨f3, l3⟩

theorem dominates4 {v : Fin 4 → F32} (h : Medium v) : Dominates v (v 0 * v 0 + v 1 * v 1 + v 2 * v 2 + v 3 * v 3) := by
  obtain ⟨k, c, a, -, -⟩ := sqLen4 h
  have f0 := a.1
  obtain ⟨f1, f6⟩ := isFin_of_add f0
  obtain ⟨f2, f3⟩ := isFin_of_add f1
  obtain ⟨f4, f5⟩ := isFin_of_add f2
  have s := fun i => sq_nonneg_val (h.1 i)
  have l0 := le_add_left f2 (s 1)
  have l1 := le_add_right f2 (s 0)
  have l2 := le_add_left f1 (s 2)
  have l3 := le_add_right f1 ((s 0).trans l0)
  have l4 := le_add_left f0 (s 3)
  have l5 := le_add_right f0 ((s 0).trans (l0.trans l2))
  refine ⟨f0, fun i => ?_⟩
  fin_cases i
  · exact ⟨f4, l0.trans (l2.trans l4)⟩
  · exact ⟨f5, l1.trans (l2.trans l4)⟩
  · exact ⟨f3, l3.trans l4⟩
  · exact ⟨f6, l5⟩

/-- small components cannot reach 1 -/
theorem AlmostUnit.small {n : ℕ} {v m : Fin n → F32} (a : AlmostUnit v m) (h : Medium v) {i : Fin n}
    (hi : |(v i).val| < 1 / 2 ^ 60) : |(m i).val| ≤ 1 := by
  have := (a i).2
  have hR : |((v i).val : ℝ)| < 1 / 2 ^ 60 := by
    have := (Rat.cast_lt (K := ℝ)).2 hi
    push_cast at this ⊢
    exact this
  have q : |((v i).val : ℝ)| / exactLength v ≤ 1 / 2 := by
    rw [div_le_iff₀ h.pos]
    have := h.2.1
    norm_num at this hR ⊢
    linarith
  have e : |((v i).val : ℝ) / exactLength v| = |((v i).val : ℝ)| / exactLength v := by
    rw [abs_div, abs_of_pos h.pos]
  have t : |((m i).val : ℝ)| ≤ |((m i).val : ℝ) - (v i).val / exactLength v| + |((v i).val : ℝ) / exactLength v| := by
    calc |((m i).val : ℝ)| = |(((m i).val : ℝ) - (v i).val / exactLength v) + (v i).val / exactLength v| := by ring_nf
      _ ≤ _ := abs_add_le _ _
  rw [e] at t
  have : |((m i).val : ℝ)| ≤ 1 := by
    norm_num at *
    linarith
  exact_mod_cast this

theorem normalize_le_one {n : ℕ} {v m : Fin n → F32} {d : F32} (h : Medium v) (hs : SqLen v d) (hd : Dominates v d)
    (e : ∀ i, m i = v i * (lit 1 / FloatOps.sqrt d)) (i : Fin n) : |(m i).val| ≤ 1 := by
  rcases lt_or_ge |(v i).val| (1 / 2 ^ 60) with c | c
  · exact (hs.normalize h e).small h c
  · have s := hs.sqrt h
    have r := inv_rel s.1 h.2.1 h.2.2 s.2
    have le := abs_le_sqrt_of_sq (h.1 i) hd.1 (hd.2 i).1 c (hd.2 i).2
    change |(v i).val| ≤ (FloatOps.sqrt d).val at le
    have S0 : 0 < (FloatOps.sqrt d).val := lt_of_lt_of_le (lt_of_lt_of_le (by norm_num) c) le
    rw [e i]
    have eR := div_fin isFin_lit_one s.1 S0.ne'
    rw [val_lit_one] at eR
    have fR := r.1
    have q1 : 1 / 2 ^ 126 ≤ |1 / (FloatOps.sqrt d).val| := by
      rw [abs_of_pos (by positivity), div_le_div_iff₀ (by positivity) S0]
      have : (FloatOps.sqrt d).val ≤ 2 ^ 64 := by
        have b := (abs_le.1 s.2).2
        have := h.2.2
        have : ((FloatOps.sqrt d).val : ℝ) ≤ 2 ^ 64 := by
          norm_num at *
          linarith
        exact_mod_cast this
      norm_num at this ⊢
      linarith
    have rR : |(lit 1 / FloatOps.sqrt d : F32).val - 1 / (FloatOps.sqrt d).val| ≤ 1 / (FloatOps.sqrt d).val / 2 ^ 24 := by
      have := round_error_rel (s := (lit 1 : F32).sgn ^^ (FloatOps.sqrt d : F32).sgn) (x := 1 / (FloatOps.sqrt d).val)
        (by rw [← eR]; exact fR) q1
      rwa [← eR, abs_of_pos (a := 1 / (FloatOps.sqrt d : F32).val) (by positivity)] at this
    rw [mul_fin (h.1 i) fR]
    generalize (lit 1 / FloatOps.sqrt d : F32) = R at *
    generalize (FloatOps.sqrt d : F32).val = S at *
    refine (round_le_one ?_).2
    rw [abs_mul]
    have : |R.val| ≤ 1 / S * (1 + 1 / 2 ^ 24) := by
      have := _root_.abs_le.1 rR
      have : 0 < 1 / S := by positivity
      rw [_root_.abs_le]
      constructor <;> linarith
    calc |(v i).val| * |R.val| ≤ S * (1 / S * (1 + 1 / 2 ^ 24)) := by gcongr
      _ = _ := by field_simp

theorem quotient_le_one {n : ℕ} {v m : Fin n → F32} {d : F32} (h : Medium v) (hs : SqLen v d) (hd : Dominates v d)
    (e : ∀ i, m i = v i / FloatOps.sqrt d) (i : Fin n) : |(m i).val| ≤ 1 := by
  rcases lt_or_ge |(v i).val| (1 / 2 ^ 60) with c | c
  · exact (hs.quotient h e).small h c
  · have s := hs.sqrt h
    have le := abs_le_sqrt_of_sq (h.1 i) hd.1 (hd.2 i).1 c (hd.2 i).2
    change |(v i).val| ≤ (FloatOps.sqrt d).val at le
    have S0 : 0 < (FloatOps.sqrt d).val := lt_of_lt_of_le (lt_of_lt_of_le (by norm_num) c) le
    rw [e i, div_fin (h.1 i) s.1 S0.ne']
    refine (round_le_one ?_).2
    rw [abs_div, abs_of_pos S0]
    refine ((div_le_one S0).2 le).trans (by norm_num)

end Zcm.F32
