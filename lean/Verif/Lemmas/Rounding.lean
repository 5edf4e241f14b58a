import Verif.Spec.Rounding
import Verif.Lemmas.F32Int

/-!
# Lemmas on rounding to integers
-/

set_option linter.unusedSectionVars false

namespace Zcm

variable {K : Type} [Field K] [LinearOrder K] [IsStrictOrderedRing K] [FloorRing K]

theorem isFloor_floor (x : K) : IsFloor x ⌊x⌋ := ⟨Int.floor_le x, fun _ h => Int.le_floor.2 h⟩

theorem isCeil_ceil (x : K) : IsCeil x ⌈x⌉ := ⟨Int.le_ceil x, fun _ h => Int.ceil_le.2 h⟩

theorem isTrunc_trunc (x : K) : IsTrunc x (if 0 ≤ x then ⌊x⌋ else ⌈x⌉) := by
  unfold IsTrunc
  split_ifs with h
  · have h0 : (0 : K) ≤ (⌊x⌋ : K) := by exact_mod_cast Int.floor_nonneg.2 h
    rw [abs_of_nonneg h0, abs_of_nonneg h]
    exact ⟨Int.floor_le x, Int.lt_floor_add_one x, mul_nonneg h0 h⟩
  · have hx : x < 0 := not_le.1 h
    have h0 : ((⌈x⌉ : ℤ) : K) ≤ 0 := by
      have : ⌈x⌉ ≤ 0 := Int.ceil_le.2 (by simpa using hx.le)
      exact_mod_cast this
    rw [abs_of_nonpos h0, abs_of_neg hx]
    refine ⟨?_, ?_, mul_nonneg_of_nonpos_of_nonpos h0 hx.le⟩
    · linarith [Int.le_ceil x]
    · linarith [Int.ceil_lt_add_one x]

theorem isRound_round (x : K) : IsRound x (if 0 ≤ x then ⌊x + 1/2⌋ else ⌈x - 1/2⌉) := by
  unfold IsRound
  split_ifs with h
  · have h1 := Int.floor_le (x + 1/2)
    have h2 := Int.lt_floor_add_one (x + 1/2)
    have h0 : (0 : K) ≤ (⌊x + 1/2⌋ : K) := by exact_mod_cast Int.floor_nonneg.2 (by linarith)
    refine ⟨?_, fun ht => ?_⟩
    · rw [abs_le]; constructor <;> linarith
    · rw [abs_of_nonneg h, abs_of_nonneg h0]
      rcases le_total 0 (x - ⌊x + 1/2⌋) with h3 | h3
      · rw [abs_of_nonneg h3] at ht; linarith
      · rw [abs_of_nonpos h3] at ht; linarith
  · have hx : x < 0 := not_le.1 h
    have h1 := Int.le_ceil (x - 1/2)
    have h2 := Int.ceil_lt_add_one (x - 1/2)
    have h0 : ((⌈x - 1/2⌉ : ℤ) : K) ≤ 0 := by
      have : ⌈x - 1/2⌉ ≤ 0 := Int.ceil_le.2 (by push_cast; linarith)
      exact_mod_cast this
    refine ⟨?_, fun ht => ?_⟩
    · rw [abs_le]; constructor <;> linarith
    · rw [abs_of_neg hx, abs_of_nonpos h0]
      rcases le_total 0 (x - ⌈x - 1/2⌉) with h3 | h3
      · rw [abs_of_nonneg h3] at ht; linarith
      · rw [abs_of_nonpos h3] at ht; linarith

theorem isRoundEven_rhe (x : K) : IsRoundEven x (roundHalfEven x) := by
  refine ⟨rhe_abs_sub_le x, fun ht => ?_⟩
  rw [Int.even_iff]
  rcases rhe_cases x with ⟨h', hx⟩ | ⟨h', hx⟩ <;> rw [h'] at ht ⊢ <;> push_cast at ht
  · rcases hx with hx | ⟨_, hx⟩
    · rw [abs_of_nonneg (by linarith [Int.floor_le x])] at ht; linarith
    · exact hx
  · rcases hx with hx | ⟨_, hx⟩
    · rw [abs_of_nonpos (by linarith [Int.lt_floor_add_one x])] at ht; linarith
    · omega

omit [FloorRing K] in
theorem IsRoundEven.unique {x : K} {m n : ℤ} (hm : IsRoundEven x m) (hn : IsRoundEven x n) : m = n := by
  by_contra hne
  have h1 : (1 : K) ≤ |(m : K) - n| := by
    rw [← Int.cast_sub, ← Int.cast_abs]
    exact_mod_cast Int.one_le_abs (sub_ne_zero.2 hne)
  have h2 := abs_sub_le (m : K) x n
  rw [abs_sub_comm (m : K) x] at h2
  have h3 : |x - m| = 1/2 := by linarith [hm.1, hn.1]
  have h4 : |x - n| = 1/2 := by linarith [hm.1, hn.1]
  have h5 := hm.2 h3
  have h6 := hn.2 h4
  have h7 : |(m : K) - n| ≤ 1 := by linarith
  rw [← Int.cast_sub, ← Int.cast_abs] at h7
  have h8 : |m - n| ≤ 1 := by exact_mod_cast h7
  rw [Int.even_iff] at h5 h6
  rw [abs_le] at h8
  omega

end Zcm
