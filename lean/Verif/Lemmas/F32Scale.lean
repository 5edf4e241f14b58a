import Verif.Spec.Scaled
import Verif.Lemmas.F32Error
import Verif.Lemmas.F32Correct
import Verif.Lemmas.SignedZero

/-!
# Lemmas: binary32 operations commute with scaling by a power of two
-/

set_option exponentiation.threshold 300

namespace Zcm.F32

section

variable {K : Type*} [Field K] [LinearOrder K] [IsStrictOrderedRing K] [FloorRing K]

theorem ulpExp_scale {q : K} (h : 2 ^ 23 ≤ q) (k : ℕ) :
    ulpExp ⌊q * 2 ^ k⌋.toNat = ulpExp ⌊q⌋.toNat + k := by
  have h0 : 0 ≤ q := le_trans (by positivity) h
  have h0' : 0 ≤ q * 2 ^ k := by positivity
  have hlo : 2 ^ (ulpExp ⌊q⌋.toNat + 23) ≤ q := by
    rcases Nat.eq_zero_or_pos (ulpExp ⌊q⌋.toNat) with he | he
    · rw [he, zero_add]; exact h
    · exact pow_le_of_floor h0 he.ne'
  have hhi := lt_pow_of_floor h0
  generalize ulpExp ⌊q⌋.toNat = e at *
  apply le_antisymm
  · apply ulpExp_le_of_lt
    have : ((⌊q * 2 ^ k⌋.toNat : ℕ) : K) < ((2 ^ (e + k + 24) : ℕ) : K) := by
      refine lt_of_le_of_lt (floor_toNat_le h0') ?_
      push_cast
      calc q * 2 ^ k < 2 ^ (e + 24) * 2 ^ k := by gcongr
        _ = 2 ^ (e + k + 24) := by ring
    exact_mod_cast this
  · apply le_ulpExp_of_le
    rw [Int.le_toNat (Int.floor_nonneg.2 h0'), Int.le_floor]
    push_cast
    calc (2 : K) ^ (e + k + 23) = 2 ^ (e + 23) * 2 ^ k := by ring
      _ ≤ q * 2 ^ k := by gcongr

theorem roundUnits_scale {q : K} (h : 2 ^ 23 ≤ q) (k : ℕ) : roundUnits (q * 2 ^ k) = roundUnits q * 2 ^ k := by
  unfold roundUnits
  rw [ulpExp_scale h k]
  have : q * 2 ^ k / 2 ^ (ulpExp ⌊q⌋.toNat + k) = q / 2 ^ ulpExp ⌊q⌋.toNat := by
    rw [pow_add, mul_div_mul_right _ _ (by positivity)]
  rw [this, pow_add, mul_assoc]

theorem roundUnits_scale_nat (n k : ℕ) : roundUnits ((n : K) * 2 ^ k) = roundUnits (n : K) * 2 ^ k := by
  rcases le_or_gt n (2 ^ 23) with h | h
  · have r : Rep' n := by
      have := rep'_mul_pow (m := n) (e := 0) (h.trans (by norm_num))
      simpa using this
    have r' := rep'_mul_pow (m := n) (e := k) (h.trans (by norm_num))
    have := roundUnits_of_rep' (K := K) r'
    rw [roundUnits_of_rep' r, ← this]
    push_cast
    rfl
  · apply roundUnits_scale
    exact_mod_cast h.le

end

/-- what scaling commutes with: numbers in the normal range and integer multiples of the least
positive float -/
def Regular (x : ℚ) : Prop := NoUnderflow x ∨ ∃ n : ℤ, x * 2 ^ 149 = n

theorem roundUnits_scale' {x : ℚ} (h : Regular x) (k : ℕ) :
    roundUnits (|x * 2 ^ k| * 2 ^ 149) = roundUnits (|x| * 2 ^ 149) * 2 ^ k := by
  have e : |x * 2 ^ k| * 2 ^ 149 = |x| * 2 ^ 149 * 2 ^ k := by
    rw [abs_mul, abs_of_pos (show (0:ℚ) < 2 ^ k by positivity)]; ring
  rw [e]
  rcases h with (h | h) | ⟨n, h⟩
  · subst h; simp [roundUnits_zero]
  · apply roundUnits_scale
    rw [div_le_iff₀ (by positivity)] at h
    norm_num at h ⊢
    linarith
  · have : |x| * 2 ^ 149 = ((n.natAbs : ℕ) : ℚ) := by
      rw [Nat.cast_natAbs, Int.cast_abs, ← h, abs_mul, abs_of_pos (show (0:ℚ) < 2 ^ 149 by positivity)]
    rw [this]
    exact roundUnits_scale_nat _ _

theorem uround_scale {x : ℚ} (h : Regular x) (k : ℕ) : uround (x * 2 ^ k) = uround x * 2 ^ k := by
  have p : (0:ℚ) < 2 ^ k := by positivity
  unfold uround
  rw [roundUnits_scale' h k]
  have : x * 2 ^ k < 0 ↔ x < 0 := by
    constructor
    · intro h; by_contra hc; exact absurd h (not_lt.2 (mul_nonneg (not_lt.1 hc) p.le))
    · intro h; exact mul_neg_of_neg_of_pos h p
  simp only [this]
  split_ifs <;> push_cast <;> ring

theorem round_scale {s : Bool} {x : ℚ} (h : Regular x) (k : ℕ) (hf : (round s (x * 2 ^ k)).IsFin = true) :
    ScaledBy k (round s x) (round s (x * 2 ^ k)) := by
  have p : (0:ℚ) < 2 ^ k := by positivity
  have hb := key_bound_fin hf
  have h1 := uround_of_fin hf
  rw [h1, uround_scale h k] at hb
  have p1 : (1:ℤ) ≤ 2 ^ k := one_le_pow₀ (by norm_num)
  have hu : -(2 ^ 277) < uround x ∧ uround x < 2 ^ 277 := by
    constructor
    · by_contra hc
      have := mul_le_mul_of_nonpos_left p1 (show uround x ≤ 0 by omega)
      omega
    · by_contra hc
      have := mul_le_mul_of_nonneg_left p1 (show 0 ≤ uround x by omega)
      omega
  have hf0 : (round s x).IsFin = true := by
    rw [isFin_iff (round_ne_nan _ _), key_round, cut_of hu.1.le hu.2.le]
    exact hu
  refine ⟨hf0, hf, ?_, ?_⟩
  · rw [sgn_round, sgn_round]
    have e0 : x * 2 ^ k = 0 ↔ x = 0 := by simp
    have e1 : x * 2 ^ k < 0 ↔ x < 0 := by
      constructor
      · intro h; by_contra hc; exact absurd h (not_lt.2 (mul_nonneg (not_lt.1 hc) p.le))
      · intro h; exact mul_neg_of_neg_of_pos h p
    simp only [e0, e1]
  · unfold val
    rw [h1, uround_of_fin hf0, uround_scale h k, zpow_natCast]
    push_cast
    ring

theorem ScaledBy.symm {k : ℤ} {x x' : F32} (h : ScaledBy k x x') : ScaledBy (-k) x' x := by
  refine ⟨h.2.1, h.1, h.2.2.1.symm, ?_⟩
  rw [h.2.2.2, mul_assoc, ← zpow_add₀ (by norm_num), add_neg_cancel, zpow_zero, mul_one]

theorem round_scaleZ {s : Bool} {x : ℚ} {k : ℤ} (h : Regular x) (h' : Regular (x * 2 ^ k))
    (hf : (round s x).IsFin = true) (hf' : (round s (x * 2 ^ k)).IsFin = true) :
    ScaledBy k (round s x) (round s (x * 2 ^ k)) := by
  obtain ⟨n, rfl | rfl⟩ := k.eq_nat_or_neg
  · rw [zpow_natCast] at *
    exact round_scale h n hf'
  · have e : x = x * 2 ^ (-(n:ℤ)) * 2 ^ n := by
      rw [mul_assoc, ← zpow_natCast, ← zpow_add₀ (by norm_num), neg_add_cancel, zpow_zero, mul_one]
    have := round_scale (s := s) h' n (by rw [← e]; exact hf)
    rw [← e] at this
    exact this.symm

theorem regular_add {x y : F32} : Regular (x.val + y.val) := by
  right
  refine ⟨x.key + y.key, ?_⟩
  push_cast
  rw [key_eq_val, key_eq_val]; ring

theorem isFin_add {x y : F32} (h : (x + y).IsFin = true) : x.IsFin = true ∧ y.IsFin = true := by
  rcases x with _ | s | ⟨s, k, g⟩ <;> rcases y with _ | t | ⟨t, l, i⟩ <;> first | exact ⟨rfl, rfl⟩ | skip
  all_goals first | cases h | skip
  · cases s <;> cases t <;> cases h

theorem isFin_mul {x y : F32} (h : (x * y).IsFin = true) : x.IsFin = true ∧ y.IsFin = true := by
  rcases x with _ | s | ⟨s, k, g⟩ <;> rcases y with _ | t | ⟨t, l, i⟩ <;> first | exact ⟨rfl, rfl⟩ | skip
  all_goals first | cases h | skip
  all_goals
    exfalso
    revert h
    simp only [HMul.hMul, Mul.mul, mul]
    split_ifs <;> simp [IsFin]

theorem isFin_sub {x y : F32} (h : (x - y).IsFin = true) : x.IsFin = true ∧ y.IsFin = true := by
  rw [sub_eq] at h
  have := isFin_add h
  simpa using this

theorem ScaledBy.neg {k : ℤ} {x x' : F32} (h : ScaledBy k x x') : ScaledBy k (-x) (-x') := by
  refine ⟨by simpa using h.1, by simpa using h.2.1, ?_, ?_⟩
  · rw [sgn_neg (isFin_ne_nan h.1), sgn_neg (isFin_ne_nan h.2.1), h.2.2.1]
  · rw [val_neg, val_neg, h.2.2.2]; ring

theorem ScaledBy.add {k : ℤ} {x x' y y' : F32} (hx : ScaledBy k x x') (hy : ScaledBy k y y')
    (h : (x + y).IsFin = true) (h' : (x' + y').IsFin = true) : ScaledBy k (x + y) (x' + y') := by
  rw [add_fin hx.1 hy.1] at *
  have r := regular_add (x := x') (y := y')
  rw [add_fin hx.2.1 hy.2.1, hx.2.2.1, hy.2.2.1] at *
  rw [hx.2.2.2, hy.2.2.2, ← add_mul] at *
  exact round_scaleZ regular_add r h h'

theorem ScaledBy.sub {k : ℤ} {x x' y y' : F32} (hx : ScaledBy k x x') (hy : ScaledBy k y y')
    (h : (x - y).IsFin = true) (h' : (x' - y').IsFin = true) : ScaledBy k (x - y) (x' - y') :=
  hx.add hy.neg h h'

theorem ScaledBy.mul {j k : ℤ} {x x' y y' : F32} (hx : ScaledBy j x x') (hy : ScaledBy k y y')
    (h : (x * y).IsFin = true) (h' : (x' * y').IsFin = true) (u : NoUnderflow (x.val * y.val))
    (u' : NoUnderflow (x'.val * y'.val)) : ScaledBy (j + k) (x * y) (x' * y') := by
  have e : x'.val * y'.val = x.val * y.val * 2 ^ (j + k) := by
    rw [hx.2.2.2, hy.2.2.2, zpow_add₀ (by norm_num)]; ring
  rw [e] at u'
  rw [mul_fin hx.1 hy.1] at h ⊢
  rw [mul_fin hx.2.1 hy.2.1, hx.2.2.1, hy.2.2.1, e] at h' ⊢
  exact round_scaleZ (.inl u) (.inl u') h h'

/-- opposite scalings cancel, whatever the size of the product -/
theorem ScaledBy.mul_cancel {k : ℤ} {x x' y y' : F32} (hx : ScaledBy k x x') (hy : ScaledBy (-k) y y') :
    x' * y' = x * y := by
  have e : x'.val * y'.val = x.val * y.val := by
    rw [hx.2.2.2, hy.2.2.2]
    rw [show x.val * 2 ^ k * (y.val * 2 ^ (-k)) = x.val * y.val * (2 ^ k * 2 ^ (-k)) by ring,
      ← zpow_add₀ (by norm_num), add_neg_cancel, zpow_zero, mul_one]
  rw [mul_fin hx.1 hy.1, mul_fin hx.2.1 hy.2.1, hx.2.2.1, hy.2.2.1, e]

/-- equal scalings of numerator and denominator cancel -/
theorem ScaledBy.div_cancel {k : ℤ} {x x' y y' : F32} (hx : ScaledBy k x x') (hy : ScaledBy k y y')
    (h0 : y.val ≠ 0) : x' / y' = x / y := by
  have p : (2:ℚ) ^ k ≠ 0 := zpow_ne_zero _ (by norm_num)
  have e : x'.val / y'.val = x.val / y.val := by
    rw [hx.2.2.2, hy.2.2.2, mul_div_mul_right _ _ p]
  rw [div_fin hx.1 hy.1 h0, div_fin hx.2.1 hy.2.1 (by rw [hy.2.2.2]; exact mul_ne_zero h0 p), hx.2.2.1, hy.2.2.1, e]

theorem ScaledBy.unique {k : ℤ} {x y z : F32} (h : ScaledBy k x y) (g : ScaledBy k x z) : y = z :=
  eq_of_key_sgn (isFin_ne_nan h.2.1) (isFin_ne_nan g.2.1) (key_eq_iff.2 (h.2.2.2.trans g.2.2.2.symm))
    (h.2.2.1.trans g.2.2.1.symm)

theorem ScaledBy.ne_zero {k : ℤ} {x x' : F32} (h : ScaledBy k x x') : x'.val = 0 ↔ x.val = 0 := by
  rw [h.2.2.2, mul_eq_zero]
  simp [zpow_ne_zero k (show (2:ℚ) ≠ 0 by norm_num)]

theorem val_ge_of_pos {x : F32} (h : 0 < x.val) : 1 / 2 ^ 149 ≤ x.val := by
  have : (1:ℤ) ≤ x.key := key_pos.2 h
  unfold val
  gcongr
  exact_mod_cast this

theorem sqrt_units_ge {x : F32} (h : 0 < x.val) : (2:ℝ) ^ 23 ≤ Real.sqrt x.val * 2 ^ 149 := by
  have h1 : ((1 / 2 ^ 149 : ℚ) : ℝ) ≤ (x.val : ℝ) := by exact_mod_cast val_ge_of_pos h
  have h2 : (1 / 2 ^ 75 : ℝ) ≤ Real.sqrt x.val := by
    apply Real.le_sqrt_of_sq_le
    refine le_trans ?_ h1
    push_cast
    norm_num
  calc (2:ℝ) ^ 23 ≤ 1 / 2 ^ 75 * 2 ^ 149 := by norm_num
    _ ≤ _ := by gcongr

theorem sqrt_val {x : F32} (hx : x.IsFin = true) (h : 0 < x.val) :
    (FloatOps.sqrt x).IsFin = true ∧ (FloatOps.sqrt x).sgn = false ∧
    ((FloatOps.sqrt x).val : ℝ) = (roundUnits (Real.sqrt x.val * 2 ^ 149) : ℕ) / 2 ^ 149 := by
  have u := sqrt_units_ge h
  have hc := sqrt_correct hx h.le
  have hp := correct_pack (Real.sqrt_nonneg (x.val : ℝ))
  have hn := (sqrt_nearest hx h).1
  have ge : 2 ^ 23 ≤ roundUnits (Real.sqrt x.val * 2 ^ 149) := by
    refine le_roundUnits ?_ (by exact_mod_cast u)
    have := rep'_mul_pow (m := 1) (e := 23) (by norm_num)
    rwa [one_mul] at this
  have q0 : 0 ≤ Real.sqrt (x.val : ℝ) * 2 ^ 149 := by positivity
  generalize hU : roundUnits (Real.sqrt x.val * 2 ^ 149) = U at *
  have rep : Rep U := by
    by_contra hr
    rcases hc.unique hp with e | ⟨_, f, _, _⟩
    · have hn' : (FloatOps.sqrt x).IsFin = true := hn
      rw [e, pack, dif_neg hr] at hn'
      cases hn'
    · rw [pack, dif_neg hr] at f
      cases f
  have hv := val_pack rep
  rcases hc.unique hp with e | ⟨_, _, _, z⟩
  · rw [e]
    refine ⟨by unfold pack; rw [dif_pos rep]; rfl, sgn_pack _ _, ?_⟩
    rw [hv, Rat.cast_div, Rat.cast_natCast, Rat.cast_pow, Rat.cast_ofNat]
  · exfalso
    rw [hv, div_eq_zero_iff] at z
    rcases z with z | z
    · have : U = 0 := by exact_mod_cast z
      omega
    · exact absurd z (by positivity)

theorem ScaledBy.sqrt_nat {k : ℕ} {x x' : F32} (h : ScaledBy (2 * k) x x') (hp : 0 < x.val) :
    ScaledBy k (FloatOps.sqrt x) (FloatOps.sqrt x') := by
  have hp' : 0 < x'.val := by rw [h.2.2.2]; exact mul_pos hp (zpow_pos (by norm_num) _)
  obtain ⟨a, b, c⟩ := sqrt_val h.1 hp
  obtain ⟨a', b', c'⟩ := sqrt_val h.2.1 hp'
  refine ⟨a, a', b'.trans b.symm, ?_⟩
  have e : Real.sqrt x'.val * 2 ^ 149 = Real.sqrt x.val * 2 ^ 149 * 2 ^ k := by
    have : (x'.val : ℝ) = x.val * (2 ^ k) ^ 2 := by
      rw [h.2.2.2]
      push_cast
      rw [← pow_mul, mul_comm k 2, ← zpow_natCast]
      norm_num
    rw [this, Real.sqrt_mul' _ (by positivity), Real.sqrt_sq (by positivity)]; ring
  rw [e, roundUnits_scale (sqrt_units_ge hp)] at c'
  have : ((FloatOps.sqrt x').val : ℝ) = ((FloatOps.sqrt x).val * 2 ^ (k:ℤ) : ℚ) := by
    rw [c']
    push_cast
    rw [c, zpow_natCast]
    ring
  exact_mod_cast this

theorem ScaledBy.sqrt {k : ℤ} {x x' : F32} (h : ScaledBy (2 * k) x x') (hp : 0 < x.val) :
    ScaledBy k (FloatOps.sqrt x) (FloatOps.sqrt x') := by
  obtain ⟨n, rfl | rfl⟩ := k.eq_nat_or_neg
  · exact h.sqrt_nat hp
  · have hp' : 0 < x'.val := by rw [h.2.2.2]; exact mul_pos hp (zpow_pos (by norm_num) _)
    have g := h.symm
    rw [mul_neg, neg_neg] at g
    exact (g.sqrt_nat hp').symm

/-- a square root lies between 2⁻⁷⁵ and 2⁶⁴ -/
theorem sqrt_bounds {x : F32} (hx : x.IsFin = true) (h : 0 < x.val) :
    1 / 2 ^ 75 ≤ (FloatOps.sqrt x).val ∧ (FloatOps.sqrt x).val ≤ 2 ^ 64 := by
  obtain ⟨-, -, c⟩ := sqrt_val hx h
  have q0 : 0 ≤ Real.sqrt (x.val : ℝ) * 2 ^ 149 := by positivity
  have h1 : ((1 / 2 ^ 149 : ℚ) : ℝ) ≤ (x.val : ℝ) := by exact_mod_cast val_ge_of_pos h
  have lo : 2 ^ 74 ≤ roundUnits (Real.sqrt x.val * 2 ^ 149) := by
    have r := rep'_mul_pow (m := 1) (e := 74) (by norm_num)
    rw [one_mul] at r
    refine le_roundUnits r ?_
    have h2 : (1 / 2 ^ 75 : ℝ) ≤ Real.sqrt x.val := by
      apply Real.le_sqrt_of_sq_le
      refine le_trans ?_ h1
      push_cast
      norm_num
    calc ((2 ^ 74 : ℕ) : ℝ) = 1 / 2 ^ 75 * 2 ^ 149 := by norm_num
      _ ≤ _ := by gcongr
  have hi : roundUnits (Real.sqrt x.val * 2 ^ 149) ≤ 2 ^ 213 := by
    have r := rep'_mul_pow (m := 1) (e := 213) (by norm_num)
    rw [one_mul] at r
    refine roundUnits_le r q0 ?_
    have : (x.val : ℝ) < 2 ^ 128 := by exact_mod_cast val_lt hx
    calc Real.sqrt x.val * 2 ^ 149 ≤ Real.sqrt (2 ^ 128) * 2 ^ 149 := by gcongr
      _ = ((2 ^ 213 : ℕ) : ℝ) := by
        rw [show ((2:ℝ) ^ 128) = (2 ^ 64) ^ 2 by norm_num, Real.sqrt_sq (by positivity)]; norm_num
  have lo' : (2:ℝ) ^ 74 ≤ roundUnits (Real.sqrt x.val * 2 ^ 149) := by exact_mod_cast lo
  have hi' : (roundUnits (Real.sqrt x.val * 2 ^ 149) : ℝ) ≤ 2 ^ 213 := by exact_mod_cast hi
  constructor
  · have : ((1 / 2 ^ 75 : ℚ) : ℝ) ≤ ((FloatOps.sqrt x).val : ℝ) := by
      rw [c, le_div_iff₀ (by positivity)]
      refine le_trans (le_of_eq ?_) lo'
      push_cast
      norm_num
    exact_mod_cast this
  · have : ((FloatOps.sqrt x).val : ℝ) ≤ ((2 ^ 64 : ℚ) : ℝ) := by
      rw [c, div_le_iff₀ (by positivity)]
      refine hi'.trans (le_of_eq ?_)
      push_cast
      norm_num
    exact_mod_cast this

/-- `1 / √x` scales the other way -/
theorem ScaledBy.invsqrt {k : ℤ} {x x' : F32} (h : ScaledBy (2 * k) x x') (hp : 0 < x.val) :
    ScaledBy (-k) (lit 1 / FloatOps.sqrt x) (lit 1 / FloatOps.sqrt x') := by
  have hp' : 0 < x'.val := by rw [h.2.2.2]; exact mul_pos hp (zpow_pos (by norm_num) _)
  have s := h.sqrt hp
  obtain ⟨lo, hi⟩ := sqrt_bounds h.1 hp
  obtain ⟨lo', hi'⟩ := sqrt_bounds h.2.1 hp'
  generalize FloatOps.sqrt x = y at *
  generalize FloatOps.sqrt x' = y' at *
  have y0 : 0 < y.val := lt_of_lt_of_le (by positivity) lo
  have y0' : 0 < y'.val := lt_of_lt_of_le (by positivity) lo'
  have b : ∀ z : ℚ, 1 / 2 ^ 75 ≤ z → z ≤ 2 ^ 64 → 1 / 2 ^ 64 ≤ 1 / z ∧ 1 / z ≤ 2 ^ 75 := by
    intro z h1 h2
    have z0 : 0 < z := lt_of_lt_of_le (by positivity) h1
    refine ⟨one_div_le_one_div_of_le z0 h2, ?_⟩
    rw [div_le_iff₀ (by positivity)] at h1
    rw [div_le_iff₀ z0]; linarith
  have f : ∀ (s : Bool) (z : ℚ), 1 / 2 ^ 64 ≤ 1 / z ∧ 1 / z ≤ 2 ^ 75 → (round s (1 / z)).IsFin = true ∧ Regular (1 / z) := by
    intro s z ⟨h1, h2⟩
    have z0 : 0 < 1 / z := lt_of_lt_of_le (by positivity) h1
    refine ⟨isFin_round ?_, .inl (.inr ?_)⟩
    · rw [abs_of_pos z0]; refine h2.trans (by norm_num)
    · rw [abs_of_pos z0]; refine le_trans (by norm_num) h1
  have e : 1 / y'.val = 1 / y.val * 2 ^ (-k) := by
    rw [s.2.2.2, zpow_neg]
    field_simp
  rw [div_fin isFin_lit_one s.1 y0.ne', div_fin isFin_lit_one s.2.1 y0'.ne', val_lit_one, s.2.2.1]
  have g := f ((lit 1 : F32).sgn ^^ y.sgn) _ (b _ lo hi)
  have g' := f ((lit 1 : F32).sgn ^^ y.sgn) _ (b _ lo' hi')
  rw [e] at g' ⊢
  exact round_scaleZ g.2 g'.2 g.1 g'.1

end Zcm.F32
