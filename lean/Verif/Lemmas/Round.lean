import Verif.Model.F32
import Mathlib.Tactic.Ring
import Mathlib.Algebra.Order.Floor.Ring
import Mathlib.Algebra.Field.GeomSum

/-!
# Lemmas on rounding
-/

set_option linter.unusedSectionVars false

namespace Zcm

section RHE

variable {K : Type*} [Field K] [LinearOrder K] [IsStrictOrderedRing K] [FloorRing K]

theorem rhe_cases (x : K) :
    (roundHalfEven x = ⌊x⌋ ∧ (x - ⌊x⌋ < 1/2 ∨ (x - ⌊x⌋ = 1/2 ∧ ⌊x⌋ % 2 = 0))) ∨
    (roundHalfEven x = ⌊x⌋ + 1 ∧ (1/2 < x - ⌊x⌋ ∨ (x - ⌊x⌋ = 1/2 ∧ ⌊x⌋ % 2 = 1))) := by
  unfold roundHalfEven
  split_ifs with h1 h2 h3
  · exact Or.inl ⟨rfl, Or.inl h1⟩
  · exact Or.inr ⟨rfl, Or.inl h2⟩
  · exact Or.inl ⟨rfl, Or.inr ⟨le_antisymm (not_lt.1 h2) (not_lt.1 h1), h3⟩⟩
  · exact Or.inr ⟨rfl, Or.inr ⟨le_antisymm (not_lt.1 h2) (not_lt.1 h1), by omega⟩⟩

@[simp] theorem rhe_int (n : ℤ) : roundHalfEven (n : K) = n := by
  simp [roundHalfEven]

@[simp] theorem rhe_nat (n : ℕ) : roundHalfEven (n : K) = n := by
  simp [roundHalfEven]

theorem rhe_abs_sub_le (x : K) : |x - roundHalfEven x| ≤ 1/2 := by
  rw [abs_le]
  have h0 := Int.floor_le x
  have h1 := Int.lt_floor_add_one x
  rcases rhe_cases x with ⟨h, h'⟩ | ⟨h, h'⟩ <;> rw [h] <;> push_cast <;>
    rcases h' with h' | ⟨h', -⟩ <;> constructor <;> linarith

theorem rhe_mono {x y : K} (hxy : x ≤ y) : roundHalfEven x ≤ roundHalfEven y := by
  have hf : ⌊x⌋ ≤ ⌊y⌋ := Int.floor_mono hxy
  rcases lt_or_eq_of_le hf with hf | hf
  · rcases rhe_cases x with ⟨h, -⟩ | ⟨h, -⟩ <;> rcases rhe_cases y with ⟨h', -⟩ | ⟨h', -⟩ <;> omega
  · rcases rhe_cases x with ⟨h, hx⟩ | ⟨h, hx⟩ <;> rcases rhe_cases y with ⟨h', hy⟩ | ⟨h', hy⟩
    · omega
    · omega
    · exfalso
      rw [hf] at hx
      rcases hx with hx | ⟨hx, hx'⟩ <;> rcases hy with hy | ⟨hy, hy'⟩
      · linarith
      · linarith
      · linarith
      · omega
    · omega

theorem le_rhe {n : ℤ} {x : K} (h : (n : K) ≤ x) : n ≤ roundHalfEven x := by
  simpa using rhe_mono h

theorem rhe_le {n : ℤ} {x : K} (h : x ≤ (n : K)) : roundHalfEven x ≤ n := by
  simpa using rhe_mono h

theorem rhe_nonneg {x : K} (h : 0 ≤ x) : 0 ≤ roundHalfEven x := le_rhe (by simpa using h)

theorem rhe_neg (x : K) : roundHalfEven (-x) = -roundHalfEven x := by
  by_cases hi : (⌊x⌋ : K) = x
  · rw [← hi, ← Int.cast_neg, rhe_int, rhe_int]
  · have h0 : (⌊x⌋ : K) < x := lt_of_le_of_ne (Int.floor_le x) hi
    have h1 := Int.lt_floor_add_one x
    have hfl : ⌊-x⌋ = -⌊x⌋ - 1 := by
      rw [Int.floor_eq_iff]; push_cast; constructor <;> linarith
    rcases rhe_cases x with ⟨h, hx⟩ | ⟨h, hx⟩ <;> rcases rhe_cases (-x) with ⟨h', hy⟩ | ⟨h', hy⟩ <;>
      rw [h, h', hfl] <;> rw [hfl] at hy <;> push_cast at hy
    · exfalso
      rcases hx with hx | ⟨hx, hx'⟩ <;> rcases hy with hy | ⟨hy, hy'⟩
      · linarith
      · linarith
      · linarith
      · omega
    · ring
    · ring
    · exfalso
      rcases hx with hx | ⟨hx, hx'⟩ <;> rcases hy with hy | ⟨hy, hy'⟩
      · linarith
      · linarith
      · linarith
      · omega

end RHE

/-! ### The unit in the last place -/

theorem ulpExp_mono {m n : ℕ} (h : m ≤ n) : ulpExp m ≤ ulpExp n := by
  unfold ulpExp
  rw [Nat.log2_eq_log_two, Nat.log2_eq_log_two]
  exact Nat.sub_le_sub_right (Nat.log_mono_right h) _

theorem lt_ulp (n : ℕ) : n < 2 ^ (ulpExp n + 24) := by
  unfold ulpExp
  rw [Nat.log2_eq_log_two]
  calc n < 2 ^ (Nat.log 2 n + 1) := Nat.lt_pow_succ_log_self (by norm_num) n
    _ ≤ _ := Nat.pow_le_pow_right (by norm_num) (by omega)

theorem ulp_le {n : ℕ} (h : ulpExp n ≠ 0) : 2 ^ (ulpExp n + 23) ≤ n := by
  unfold ulpExp at h ⊢
  rw [Nat.log2_eq_log_two] at h ⊢
  have hn : n ≠ 0 := by rintro rfl; simp at h
  calc 2 ^ (Nat.log 2 n - 23 + 23) = 2 ^ Nat.log 2 n := by congr 1; omega
    _ ≤ n := Nat.pow_log_le_self 2 hn

theorem ulpExp_le_of_lt {n e : ℕ} (h : n < 2 ^ (e + 24)) : ulpExp n ≤ e := by
  by_contra hc
  have h0 : ulpExp n ≠ 0 := by omega
  have := ulp_le h0
  have : 2 ^ (e + 24) ≤ 2 ^ (ulpExp n + 23) := Nat.pow_le_pow_right (by norm_num) (by omega)
  omega

theorem le_ulpExp_of_le {n e : ℕ} (h : 2 ^ (e + 23) ≤ n) : e ≤ ulpExp n := by
  by_contra hc
  have := lt_ulp n
  have : 2 ^ (ulpExp n + 24) ≤ 2 ^ (e + 23) := Nat.pow_le_pow_right (by norm_num) (by omega)
  omega

/-- The unbounded-exponent part of representability. -/
def Rep' (k : ℕ) : Prop := 2 ^ ulpExp k ∣ k

theorem rep_iff {k : ℕ} : Rep k ↔ Rep' k ∧ k < 2 ^ 277 := Iff.rfl

theorem rep'_of_lt {k : ℕ} (h : k < 2 ^ 24) : Rep' k := by
  have : ulpExp k ≤ 0 := ulpExp_le_of_lt (by simpa using h)
  simp [Rep', Nat.le_zero.1 this]

/-- A multiple `m · 2^e` of a power of two with `m ≤ 2²⁴` is representable. -/
theorem rep'_mul_pow {m e : ℕ} (h : m ≤ 2 ^ 24) : Rep' (m * 2 ^ e) := by
  rcases lt_or_eq_of_le h with h | rfl
  · have : ulpExp (m * 2 ^ e) ≤ e := by
      apply ulpExp_le_of_lt
      rw [pow_add, mul_comm]
      exact Nat.mul_lt_mul_of_pos_left h (by positivity)
    exact (pow_dvd_pow 2 this).trans (Dvd.intro_left _ rfl)
  · have : ulpExp (2 ^ 24 * 2 ^ e) ≤ e + 1 := by
      apply ulpExp_le_of_lt
      rw [← pow_add]
      exact Nat.pow_lt_pow_right (by norm_num) (by omega)
    refine (pow_dvd_pow 2 this).trans ?_
    rw [← pow_add]
    exact pow_dvd_pow 2 (by omega)

/-- A representable number is `m · 2^e` with `m < 2²⁴`. -/
theorem Rep'.exists_mul {k : ℕ} (h : Rep' k) : ∃ m, k = m * 2 ^ ulpExp k ∧ m < 2 ^ 24 := by
  obtain ⟨m, hm⟩ := h
  refine ⟨m, by rw [mul_comm]; exact hm, ?_⟩
  have := lt_ulp k
  rw [hm, pow_add] at this
  have h2 : ulpExp (2 ^ ulpExp k * m) = ulpExp k := by rw [← hm]
  rw [h2] at this
  exact Nat.lt_of_mul_lt_mul_left this

namespace F32

section

variable {K : Type*} [Field K] [LinearOrder K] [IsStrictOrderedRing K] [FloorRing K]

theorem floor_toNat_le {q : K} (h : 0 ≤ q) : ((⌊q⌋.toNat : ℕ) : K) ≤ q := by
  have h0 : 0 ≤ ⌊q⌋ := Int.floor_nonneg.2 h
  have : ((⌊q⌋.toNat : ℤ) : K) = (⌊q⌋ : K) := by rw [Int.toNat_of_nonneg h0]
  rw [Int.cast_natCast] at this
  rw [this]; exact Int.floor_le q

theorem lt_floor_toNat {q : K} (h : 0 ≤ q) : q < ((⌊q⌋.toNat : ℕ) : K) + 1 := by
  have h0 : 0 ≤ ⌊q⌋ := Int.floor_nonneg.2 h
  have : ((⌊q⌋.toNat : ℤ) : K) = (⌊q⌋ : K) := by rw [Int.toNat_of_nonneg h0]
  rw [Int.cast_natCast] at this
  rw [this]; exact Int.lt_floor_add_one q

theorem lt_pow_of_floor {q : K} (h : 0 ≤ q) : q < 2 ^ (ulpExp ⌊q⌋.toNat + 24) := by
  have h1 : ⌊q⌋.toNat + 1 ≤ 2 ^ (ulpExp ⌊q⌋.toNat + 24) := lt_ulp _
  have h2 : ((⌊q⌋.toNat + 1 : ℕ) : K) ≤ ((2 ^ (ulpExp ⌊q⌋.toNat + 24) : ℕ) : K) := Nat.cast_le.2 h1
  push_cast at h2
  exact lt_of_lt_of_le (lt_floor_toNat h) h2

theorem pow_le_of_floor {q : K} (h : 0 ≤ q) (h0 : ulpExp ⌊q⌋.toNat ≠ 0) :
    2 ^ (ulpExp ⌊q⌋.toNat + 23) ≤ q := by
  have h1 := ulp_le h0
  have h2 : ((2 ^ (ulpExp ⌊q⌋.toNat + 23) : ℕ) : K) ≤ ((⌊q⌋.toNat : ℕ) : K) := Nat.cast_le.2 h1
  push_cast at h2
  exact h2.trans (floor_toNat_le h)

/-- The significand chosen by `roundUnits`. -/
theorem sig_le {q : K} (h : 0 ≤ q) : roundHalfEven (q / 2 ^ ulpExp ⌊q⌋.toNat) ≤ 2 ^ 24 := by
  apply rhe_le
  rw [div_le_iff₀ (by positivity)]
  have h1 := lt_pow_of_floor h
  rw [pow_add] at h1
  push_cast
  linarith

theorem sig_nonneg {q : K} (h : 0 ≤ q) : 0 ≤ roundHalfEven (q / 2 ^ ulpExp ⌊q⌋.toNat) :=
  rhe_nonneg (by positivity)

theorem roundUnits_rep' {q : K} (h : 0 ≤ q) : Rep' (roundUnits q) := by
  unfold roundUnits
  apply rep'_mul_pow
  have := sig_le h
  have := sig_nonneg h
  omega

/-- `roundUnits` does nothing to representable numbers. -/
theorem roundUnits_of_rep' {k : ℕ} (h : Rep' k) : roundUnits (k : K) = k := by
  unfold roundUnits
  obtain ⟨m, hm, -⟩ := h.exists_mul
  have h0 : ⌊(k : K)⌋.toNat = k := by simp
  rw [h0]
  have h1 : (k : K) / 2 ^ ulpExp k = (m : K) := by
    rw [div_eq_iff (by positivity)]
    have : ((k : ℕ) : K) = ((m * 2 ^ ulpExp k : ℕ) : K) := by rw [← hm]
    simpa using this
  rw [h1, rhe_nat]
  simpa using hm.symm

theorem roundUnits_mono {p q : K} (hp : 0 ≤ p) (hpq : p ≤ q) : roundUnits p ≤ roundUnits q := by
  have hq : 0 ≤ q := hp.trans hpq
  have hf : ⌊p⌋.toNat ≤ ⌊q⌋.toNat := Int.toNat_le_toNat (Int.floor_mono hpq)
  have he := ulpExp_mono hf
  rcases lt_or_eq_of_le he with he | he
  · -- different binades
    have h1 : roundUnits p ≤ 2 ^ (ulpExp ⌊p⌋.toNat + 24) := by
      unfold roundUnits
      rw [pow_add, mul_comm]
      have h1 := sig_le hp
      have h2 := sig_nonneg hp
      exact Nat.mul_le_mul_left _ (by omega)
    have h2 : 2 ^ (ulpExp ⌊q⌋.toNat + 23) ≤ roundUnits q := by
      unfold roundUnits
      rw [pow_add, mul_comm]
      apply Nat.mul_le_mul_right
      have : (2 : ℤ) ^ 23 ≤ roundHalfEven (q / 2 ^ ulpExp ⌊q⌋.toNat) := by
        apply le_rhe
        rw [le_div_iff₀ (by positivity)]
        have h1 := pow_le_of_floor hq (by omega)
        rw [pow_add] at h1
        push_cast
        linarith
      omega
    have h3 : 2 ^ (ulpExp ⌊p⌋.toNat + 24) ≤ 2 ^ (ulpExp ⌊q⌋.toNat + 23) :=
      Nat.pow_le_pow_right (by norm_num) (by omega)
    omega
  · unfold roundUnits
    rw [he]
    apply Nat.mul_le_mul_right
    apply Int.toNat_le_toNat
    apply rhe_mono
    gcongr

theorem roundUnits_zero : roundUnits (0 : K) = 0 := by
  have := roundUnits_of_rep' (K := K) (k := 0) (rep'_of_lt (by norm_num))
  simpa using this

/-- Between representable bounds: rounding stays between them. -/
theorem le_roundUnits {k : ℕ} {q : K} (hk : Rep' k) (h : (k : K) ≤ q) : k ≤ roundUnits q := by
  have := roundUnits_mono (Nat.cast_nonneg k) h
  rwa [roundUnits_of_rep' hk] at this

theorem roundUnits_le {k : ℕ} {q : K} (hk : Rep' k) (hq : 0 ≤ q) (h : q ≤ (k : K)) : roundUnits q ≤ k := by
  have := roundUnits_mono hq h
  rwa [roundUnits_of_rep' hk] at this

theorem roundUnits_rep {q : K} (h : 0 ≤ q) : Rep (roundUnits q) ↔ roundUnits q < 2 ^ 277 :=
  ⟨fun h => h.2, fun h' => ⟨roundUnits_rep' h, h'⟩⟩

/-- Half an ulp error. -/
theorem roundUnits_error {q : K} (h : 0 ≤ q) :
    |q - roundUnits q| ≤ 2 ^ ulpExp ⌊q⌋.toNat / 2 := by
  have h1 := rhe_abs_sub_le (q / 2 ^ ulpExp ⌊q⌋.toNat)
  have h2 := sig_nonneg h
  have h3 : ((roundUnits q : ℕ) : K) = (roundHalfEven (q / 2 ^ ulpExp ⌊q⌋.toNat) : K) * 2 ^ ulpExp ⌊q⌋.toNat := by
    unfold roundUnits
    push_cast
    congr 1
    have : (((roundHalfEven (q / 2 ^ ulpExp ⌊q⌋.toNat)).toNat : ℤ) : K) = (roundHalfEven (q / 2 ^ ulpExp ⌊q⌋.toNat) : K) := by
      rw [Int.toNat_of_nonneg h2]
    rwa [Int.cast_natCast] at this
  rw [h3]
  have h4 : q - (roundHalfEven (q / 2 ^ ulpExp ⌊q⌋.toNat) : K) * 2 ^ ulpExp ⌊q⌋.toNat =
      (q / 2 ^ ulpExp ⌊q⌋.toNat - roundHalfEven (q / 2 ^ ulpExp ⌊q⌋.toNat)) * 2 ^ ulpExp ⌊q⌋.toNat := by
    field_simp
  rw [h4, abs_mul, abs_of_pos (show (0:K) < 2 ^ ulpExp ⌊q⌋.toNat by positivity)]
  calc _ ≤ 1/2 * (2:K) ^ ulpExp ⌊q⌋.toNat := by gcongr
    _ = _ := by ring

/-! ### Nearest, ties to even -/

theorem roundUnits_cast {q : K} (h : 0 ≤ q) :
    ((roundUnits q : ℕ) : K) = (roundHalfEven (q / 2 ^ ulpExp ⌊q⌋.toNat) : K) * 2 ^ ulpExp ⌊q⌋.toNat := by
  unfold roundUnits
  push_cast
  congr 1
  have : (((roundHalfEven (q / 2 ^ ulpExp ⌊q⌋.toNat)).toNat : ℤ) : K) =
      (roundHalfEven (q / 2 ^ ulpExp ⌊q⌋.toNat) : K) := by
    rw [Int.toNat_of_nonneg (sig_nonneg h)]
  rwa [Int.cast_natCast] at this

/-- `roundHalfEven` is a nearest integer. -/
theorem rhe_nearest (x : K) (n : ℤ) : |x - roundHalfEven x| ≤ |x - n| := by
  by_cases hn : n = roundHalfEven x
  · rw [hn]
  · have h1 := rhe_abs_sub_le x
    have h2 : (1 : K) ≤ |(roundHalfEven x : K) - n| := by
      rw [← Int.cast_sub, ← Int.cast_abs]
      exact_mod_cast Int.one_le_abs (sub_ne_zero.2 (Ne.symm hn))
    have h3 := abs_sub_le (roundHalfEven x : K) x n
    rw [abs_sub_comm (roundHalfEven x : K) x] at h3
    linarith

/-- If another integer is as near, `roundHalfEven` has chosen the even one. -/
theorem rhe_tie (x : K) (n : ℤ) (hn : n ≠ roundHalfEven x) (h : |x - n| = |x - roundHalfEven x|) :
    roundHalfEven x % 2 = 0 := by
  have h1 := rhe_abs_sub_le x
  have h2 : (1 : K) ≤ |(roundHalfEven x : K) - n| := by
    rw [← Int.cast_sub, ← Int.cast_abs]
    exact_mod_cast Int.one_le_abs (sub_ne_zero.2 (Ne.symm hn))
  have h3 := abs_sub_le (roundHalfEven x : K) x n
  rw [abs_sub_comm (roundHalfEven x : K) x] at h3
  have h4 : |x - roundHalfEven x| = 1/2 := by linarith
  rcases rhe_cases x with ⟨h', hx⟩ | ⟨h', hx⟩ <;> rw [h'] at h4 ⊢ <;> push_cast at h4
  · rcases hx with hx | ⟨_, hx⟩
    · rw [abs_of_nonneg (by linarith [Int.floor_le x])] at h4; linarith
    · exact hx
  · rcases hx with hx | ⟨_, hx⟩
    · rw [abs_of_nonpos (by linarith [Int.lt_floor_add_one x])] at h4; linarith
    · omega

/-- A representable number, seen on the grid of the binade of `q`. -/
theorem rep'_grid {q : K} (h : 0 ≤ q) {k : ℕ} (hk : Rep' k) :
    (∃ m : ℤ, (k : K) = m * 2 ^ ulpExp ⌊q⌋.toNat) ∨
      ((k : K) < 2 ^ (ulpExp ⌊q⌋.toNat + 23) ∧ (2 : K) ^ (ulpExp ⌊q⌋.toNat + 23) ≤ q) := by
  by_cases he : ulpExp ⌊q⌋.toNat ≤ ulpExp k
  · left
    obtain ⟨m, hm⟩ := (pow_dvd_pow 2 he).trans hk
    refine ⟨m, ?_⟩
    have : ((k : ℕ) : K) = ((2 ^ ulpExp ⌊q⌋.toNat * m : ℕ) : K) := by rw [← hm]
    rw [this]; push_cast; ring
  · right
    refine ⟨?_, pow_le_of_floor h (by omega)⟩
    have h1 := lt_ulp k
    have h2 : 2 ^ (ulpExp k + 24) ≤ 2 ^ (ulpExp ⌊q⌋.toNat + 23) := Nat.pow_le_pow_right (by norm_num) (by omega)
    have h3 : (k : K) < ((2 ^ (ulpExp ⌊q⌋.toNat + 23) : ℕ) : K) := Nat.cast_lt.2 (by omega)
    rwa [Nat.cast_pow, Nat.cast_ofNat] at h3

theorem roundUnits_nearest_grid {q : K} (h : 0 ≤ q) (m : ℤ) :
    |q - roundUnits q| ≤ |q - m * 2 ^ ulpExp ⌊q⌋.toNat| := by
  have hp : (0 : K) < 2 ^ ulpExp ⌊q⌋.toNat := by positivity
  have h1 := rhe_nearest (q / 2 ^ ulpExp ⌊q⌋.toNat) m
  have e : ∀ z : K, q - z * 2 ^ ulpExp ⌊q⌋.toNat = (q / 2 ^ ulpExp ⌊q⌋.toNat - z) * 2 ^ ulpExp ⌊q⌋.toNat := by
    intro z; field_simp
  rw [roundUnits_cast h, e, e, abs_mul, abs_mul]
  gcongr

/-- `roundUnits q` is a representable number nearest to `q`. -/
theorem roundUnits_nearest {q : K} (h : 0 ≤ q) {k : ℕ} (hk : Rep' k) :
    |q - roundUnits q| ≤ |q - k| := by
  rcases rep'_grid h hk with ⟨m, hm⟩ | ⟨h1, h2⟩
  · rw [hm]; exact roundUnits_nearest_grid h m
  · have h3 := roundUnits_nearest_grid h (2 ^ 23)
    have e : (((2 ^ 23 : ℤ) : K)) * 2 ^ ulpExp ⌊q⌋.toNat = 2 ^ (ulpExp ⌊q⌋.toNat + 23) := by
      push_cast; rw [pow_add]; ring
    rw [e, abs_of_nonneg (show 0 ≤ q - 2 ^ (ulpExp ⌊q⌋.toNat + 23) by linarith)] at h3
    rw [abs_of_nonneg (show 0 ≤ q - k by linarith)]
    linarith

/-- If another representable number is as near, the chosen one has an even last place. -/
theorem roundUnits_tie {q : K} (h : 0 ≤ q) {k : ℕ} (hk : Rep' k) (hne : k ≠ roundUnits q)
    (ht : |q - k| = |q - roundUnits q|) : 2 ^ (ulpExp (roundUnits q) + 1) ∣ roundUnits q := by
  have hp : (0 : K) < 2 ^ ulpExp ⌊q⌋.toNat := by positivity
  have e : ∀ z : K, q - z * 2 ^ ulpExp ⌊q⌋.toNat = (q / 2 ^ ulpExp ⌊q⌋.toNat - z) * 2 ^ ulpExp ⌊q⌋.toNat := by
    intro z; field_simp
  have key : ∃ m : ℤ, (k : K) = m * 2 ^ ulpExp ⌊q⌋.toNat := by
    rcases rep'_grid h hk with h' | ⟨h1, h2⟩
    · exact h'
    · exfalso
      have h3 := roundUnits_nearest_grid h (2 ^ 23)
      have e : (((2 ^ 23 : ℤ) : K)) * 2 ^ ulpExp ⌊q⌋.toNat = 2 ^ (ulpExp ⌊q⌋.toNat + 23) := by
        push_cast; rw [pow_add]; ring
      rw [e, abs_of_nonneg (show 0 ≤ q - 2 ^ (ulpExp ⌊q⌋.toNat + 23) by linarith)] at h3
      rw [abs_of_nonneg (show 0 ≤ q - k by linarith)] at ht
      linarith
  obtain ⟨m, hm⟩ := key
  have hmne : m ≠ roundHalfEven (q / 2 ^ ulpExp ⌊q⌋.toNat) := by
    rintro rfl
    rw [← roundUnits_cast h] at hm
    exact hne (by exact_mod_cast hm)
  have hev : roundHalfEven (q / 2 ^ ulpExp ⌊q⌋.toNat) % 2 = 0 := by
    refine rhe_tie _ m hmne ?_
    rw [hm, roundUnits_cast h, e, e, abs_mul, abs_mul] at ht
    exact mul_right_cancel₀ (abs_pos.2 hp.ne').ne' ht
  have hle := sig_le h
  have hnn := sig_nonneg h
  generalize hE : ulpExp ⌊q⌋.toNat = E at *
  have hr : roundUnits q = (roundHalfEven (q / 2 ^ E)).toNat * 2 ^ E := by unfold roundUnits; rw [hE]
  generalize roundHalfEven (q / 2 ^ E) = n at *
  rw [hr]
  obtain ⟨j, hj⟩ : ∃ j : ℕ, n.toNat = 2 * j := ⟨n.toNat / 2, by omega⟩
  rw [hj]
  by_cases hlt : 2 * j < 2 ^ 24
  · have h5 : ulpExp (2 * j * 2 ^ E) ≤ E := by
      apply ulpExp_le_of_lt
      rw [pow_add, mul_comm]
      exact Nat.mul_lt_mul_of_pos_left hlt (by positivity)
    refine (pow_dvd_pow 2 (Nat.add_le_add_right h5 1)).trans ⟨j, ?_⟩
    ring
  · have h6 : 2 * j = 2 ^ 24 := by omega
    rw [h6, ← pow_add]
    have h5 : ulpExp (2 ^ (24 + E)) ≤ E + 1 := by
      apply ulpExp_le_of_lt
      exact Nat.pow_lt_pow_right (by norm_num) (by omega)
    exact pow_dvd_pow 2 (by omega)

end

end F32

end Zcm
