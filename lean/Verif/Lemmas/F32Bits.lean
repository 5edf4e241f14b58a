import Verif.Lemmas.F32

/-!
# The encoding of binary32 is injective
-/

set_option exponentiation.threshold 300

namespace Zcm.F32

/-- biased exponent and trailing significand, as a number -/
def mag (k : ℕ) : ℕ := ulpExp k * 2 ^ 23 + k / 2 ^ ulpExp k

theorem mag_bounds (k : ℕ) :
    (ulpExp k = 0 → mag k = k ∧ k < 2 ^ 24) ∧
    (ulpExp k ≠ 0 → (ulpExp k + 1) * 2 ^ 23 ≤ mag k ∧ mag k < (ulpExp k + 2) * 2 ^ 23) := by
  have hlt := lt_ulp k
  constructor
  · intro h0
    rw [h0] at hlt
    simp only [mag, h0]
    omega
  · intro h0
    have hle := ulp_le h0
    simp only [mag]
    rw [pow_add] at hle hlt
    have h1 : 2 ^ 23 ≤ k / 2 ^ ulpExp k := (Nat.le_div_iff_mul_le (by positivity)).2 (by linarith)
    have h2 : k / 2 ^ ulpExp k < 2 ^ 24 := (Nat.div_lt_iff_lt_mul (by positivity)).2 (by linarith)
    omega

theorem mag_inj {k l : ℕ} (hk : Rep k) (hl : Rep l) (h : mag k = mag l) : k = l := by
  have bk := mag_bounds k
  have bl := mag_bounds l
  have he : ulpExp k = ulpExp l ∨ (ulpExp k = 0 ∧ ulpExp l = 0) := by
    by_cases h1 : ulpExp k = 0 <;> by_cases h2 : ulpExp l = 0
    · omega
    · have := bk.1 h1; have := bl.2 h2; omega
    · have := bk.2 h1; have := bl.1 h2; omega
    · have := bk.2 h1; have := bl.2 h2; omega
  have he' : ulpExp k = ulpExp l := by omega
  have hd : k / 2 ^ ulpExp k = l / 2 ^ ulpExp l := by
    simp only [mag] at h
    omega
  rw [← Nat.div_mul_cancel hk.1, ← Nat.div_mul_cancel hl.1, hd, he']

theorem mag_lt {k : ℕ} (h : Rep k) : mag k < 255 * 2 ^ 23 := by
  have b := mag_bounds k
  by_cases h0 : ulpExp k = 0
  · have := b.1 h0; omega
  · have h1 := ulp_le h0
    have h2 : ulpExp k + 23 < 277 := by
      by_contra hc
      have : 2 ^ 277 ≤ 2 ^ (ulpExp k + 23) := Nat.pow_le_pow_right (by norm_num) (by omega)
      have := h.2
      omega
    have := b.2 h0
    omega

theorem bits_toNat_fin (s : Bool) (k : ℕ) (h : Rep k) :
    (bits (.fin s k h)).toNat = (if s then 2 ^ 31 else 0) + mag k := by
  have := mag_lt h
  show (BitVec.ofNat 32 ((if s then 2 ^ 31 else 0) + ulpExp k * 2 ^ 23 + k / 2 ^ ulpExp k)).toNat = _
  rw [add_assoc]
  show (BitVec.ofNat 32 ((if s then 2 ^ 31 else 0) + mag k)).toNat = _
  rw [BitVec.toNat_ofNat, Nat.mod_eq_of_lt]
  split_ifs <;> omega

/-- Different floats have different encodings (with the one NaN of the model). -/
theorem bits_injective : Function.Injective bits := by
  intro a b h
  have h' := congrArg BitVec.toNat h
  have n1 : (bits .nan).toNat = 2143289344 := rfl
  have n2 : (bits (.inf true)).toNat = 4286578688 := rfl
  have n3 : (bits (.inf false)).toNat = 2139095040 := rfl
  rcases a with _ | s | ⟨s, k, hk⟩ <;> rcases b with _ | t | ⟨t, l, hl⟩
  · rfl
  · cases t <;> simp only [n1, n2, n3] at h' <;> omega
  · rw [n1, bits_toNat_fin] at h'
    have := mag_lt hl
    split_ifs at h' <;> omega
  · cases s <;> simp only [n1, n2, n3] at h' <;> omega
  · cases s <;> cases t <;> simp only [n2, n3] at h' <;> first | rfl | omega
  · have := mag_lt hl
    cases s <;> simp only [n2, n3, bits_toNat_fin] at h' <;> split_ifs at h' <;> omega
  · rw [n1, bits_toNat_fin] at h'
    have := mag_lt hk
    split_ifs at h' <;> omega
  · have := mag_lt hk
    cases t <;> simp only [n2, n3, bits_toNat_fin] at h' <;> split_ifs at h' <;> omega
  · have h1 := mag_lt hk
    have h2 := mag_lt hl
    rw [bits_toNat_fin, bits_toNat_fin] at h'
    have e : mag k = mag l ∧ s = t := by
      cases s <;> cases t <;> simp only [Bool.false_eq_true, if_true, if_false, and_true] at h' ⊢ <;>
        omega
    obtain ⟨e, rfl⟩ := e
    have := mag_inj hk hl e
    subst this
    rfl

/-- Equal floats other than zeros have the same encoding. -/
theorem bits_of_beq {a b : F32} (h : (a == b) = true) (h0 : ¬ (a == lit 0) = true) : a = b := by
  rw [beq_iff] at h h0
  refine eq_of_key h.1 h.2.1 h.2.2 fun hk => h0 ⟨h.1, lit_zero_ne_nan, ?_⟩
  rw [hk, key_lit_zero]

end Zcm.F32
