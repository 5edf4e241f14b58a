import Verif.Spec.Morton
import Verif.Lemmas.Int
import Mathlib.Tactic.IntervalCases

/-!
# Interleaving bits
-/

namespace Zcm

namespace I32

theorem toInt_of_lt {b : BitVec 32} (h : b.toNat < 2 ^ 31) : (⟨b⟩ : I32).toInt = b.toNat := by
  show b.toInt = _
  rw [BitVec.toInt_eq_toNat_cond, if_pos (by omega)]

theorem toNat_lt_of_toInt {a : I32} {n : ℕ} (h0 : 0 ≤ a.toInt) (h1 : a.toInt < 2 ^ n) : a.bits.toNat < 2 ^ n := by
  unfold I32.toInt at h0 h1
  rw [BitVec.toInt_eq_toNat_cond] at h0 h1
  have := a.bits.isLt
  have c : ((2 ^ n : ℕ) : ℤ) = 2 ^ n := by push_cast; rfl
  split_ifs at h0 h1 <;> omega

theorem lit_toInt {k : ℕ} (hk : k < 2 ^ 31) : (I32.lit (k : ℤ)).toInt = k := by
  unfold I32.lit
  have t : (BitVec.ofInt 32 (k : ℤ)).toNat = k := by
    rw [BitVec.ofInt_natCast, BitVec.toNat_ofNat, Nat.mod_eq_of_lt (by omega)]
  rw [toInt_of_lt (by rw [t]; exact hk), t]

theorem shl_bits {b : BitVec 32} {k : ℕ} (hk : k < 32) (h0 : b.toNat < 2 ^ 31) (h : b.toNat * 2 ^ k < 2 ^ 32) :
    I32.shl ⟨b⟩ (I32.lit (k : ℤ)) = .ok ⟨b <<< k⟩ := by
  unfold I32.shl
  rw [lit_toInt (by omega), toInt_of_lt h0, Int.toNat_natCast]
  have c : ((b.toNat * 2 ^ k : ℕ) : ℤ) = (b.toNat : ℤ) * 2 ^ k := by push_cast; rfl
  rw [← c, if_pos (by omega)]
  congr 2
  rw [BitVec.ofInt_natCast]
  apply BitVec.eq_of_toNat_eq
  rw [BitVec.toNat_ofNat, BitVec.toNat_shiftLeft, Nat.shiftLeft_eq]

theorem shl_bits_ub {b : BitVec 32} {k : ℕ} (hk : k < 32) (h0 : b.toNat < 2 ^ 31) (h : 2 ^ 32 ≤ b.toNat * 2 ^ k) :
    I32.shl ⟨b⟩ (I32.lit (k : ℤ)) = .ub := by
  unfold I32.shl
  rw [lit_toInt (by omega), toInt_of_lt h0, Int.toNat_natCast]
  have c : ((b.toNat * 2 ^ k : ℕ) : ℤ) = (b.toNat : ℤ) * 2 ^ k := by push_cast; rfl
  rw [← c, if_neg (by omega)]

theorem shr_bits {b : BitVec 32} {k : ℕ} (hk : k < 32) : I32.shr ⟨b⟩ (I32.lit (k : ℤ)) = .ok ⟨b.sshiftRight k⟩ := by
  unfold I32.shr
  rw [lit_toInt (by omega), if_pos (by omega), Int.toNat_natCast]

theorem masked_le (a m : BitVec 32) : (a &&& m).toNat ≤ m.toNat := by
  rw [BitVec.toNat_and]; exact Nat.and_le_right

end I32

open I32

theorem high_bits {x : BitVec 32} {n : ℕ} (h : x.toNat < 2 ^ n) (j : ℕ) (hj : n ≤ j) : x.getLsbD j = false := by
  rw [BitVec.getLsbD]
  exact Nat.testBit_lt_two_pow (lt_of_lt_of_le h (Nat.pow_le_pow_right (by norm_num) hj))

theorem toNat_lt_of_bits {x : BitVec 32} {n : ℕ} (h : ∀ j, n ≤ j → x.getLsbD j = false) : x.toNat < 2 ^ n :=
  Nat.lt_pow_two_of_testBit _ fun j hj => h j hj

theorem ok_step {α β : Type} {r : Res α} {a : α} {f : α → Res β} {t : Res β} (h : r = .ok a) (g : f a = t) : (r >>= f) = t := by
  subst h; exact g

/-! ## Two coordinates -/

/-- what the spreading steps do to the bits -/
def spread2Bits (x : BitVec 32) : BitVec 32 :=
  let x := (x ||| x <<< 8) &&& 0x00FF00FF#32
  let x := (x ||| x <<< 4) &&& 0x0F0F0F0F#32
  let x := (x ||| x <<< 2) &&& 0x33333333#32
  (x ||| x <<< 1) &&& 0x55555555#32

/-- what the gathering steps do to the bits -/
def gather2Bits (x : BitVec 32) : BitVec 32 :=
  let x := x &&& 0x55555555#32
  let x := (x ||| x.sshiftRight 1) &&& 0x33333333#32
  let x := (x ||| x.sshiftRight 2) &&& 0x0F0F0F0F#32
  let x := (x ||| x.sshiftRight 4) &&& 0x00FF00FF#32
  (x ||| x.sshiftRight 8) &&& 0x0000FFFF#32

theorem spread2_bit {x : BitVec 32} (hx : x.toNat < 2 ^ 16) (i : ℕ) (hi : i < 32) :
    (spread2Bits x).getLsbD i = (decide (i % 2 = 0) && x.getLsbD (i / 2)) := by
  have h : ∀ j (hj : j < 32), 16 ≤ j → x[j] = false := fun j _ hj => high_bits hx j hj
  unfold spread2Bits
  interval_cases i <;> simp [BitVec.getLsbD_and, BitVec.getLsbD_or, BitVec.getLsbD_shiftLeft, h]

theorem gather2_bit (x : BitVec 32) (i : ℕ) (hi : i < 32) :
    (gather2Bits x).getLsbD i = (decide (i < 16) && x.getLsbD (2 * i)) := by
  unfold gather2Bits
  interval_cases i <;> simp [BitVec.getLsbD_and, BitVec.getLsbD_or, BitVec.getLsbD_sshiftRight, BitVec.getElem_sshiftRight]

theorem spreadStep2_ok {a b m : BitVec 32} {k : ℕ} {mask : ℤ} (hk : k < 32) (hm : I32.lit mask = ⟨m⟩)
    (ha : a.toNat < 2 ^ 31) (ha' : a.toNat * 2 ^ k < 2 ^ 32) (hb : b.toNat < 2 ^ 31) (hb' : b.toNat * 2 ^ k < 2 ^ 32) :
    spreadStep2 (k : ℤ) mask ⟨⟨a⟩, ⟨b⟩⟩ = .ok ⟨⟨(a ||| a <<< k) &&& m⟩, ⟨(b ||| b <<< k) &&& m⟩⟩ := by
  unfold spreadStep2 IV2.shlS V2.macroVS
  rw [shl_bits hk ha ha', shl_bits hk hb hb', hm]
  rfl

theorem gatherStep2_ok {a b m : BitVec 32} {k : ℕ} {mask : ℤ} (hk : k < 32) (hm : I32.lit mask = ⟨m⟩) :
    gatherStep2 (k : ℤ) mask ⟨⟨a⟩, ⟨b⟩⟩ = .ok ⟨⟨(a ||| a.sshiftRight k) &&& m⟩, ⟨(b ||| b.sshiftRight k) &&& m⟩⟩ := by
  unfold gatherStep2 IV2.shrS V2.macroVS
  rw [shr_bits hk, shr_bits hk, hm]
  rfl

theorem morton2_ok {a b : BitVec 32} (ha : a.toNat < 2 ^ 16) (hb : b.toNat < 2 ^ 16) :
    morton2 ⟨⟨a⟩, ⟨b⟩⟩ = .ok ⟨spread2Bits a ||| spread2Bits b <<< 1⟩ := by
  have m : ∀ (x m : BitVec 32) (k : ℕ), m.toNat < 2 ^ 31 → m.toNat * 2 ^ k < 2 ^ 32 →
      (x &&& m).toNat < 2 ^ 31 ∧ (x &&& m).toNat * 2 ^ k < 2 ^ 32 := fun x m k h1 h2 =>
    ⟨lt_of_le_of_lt (masked_le x m) h1, lt_of_le_of_lt (Nat.mul_le_mul_right _ (masked_le x m)) h2⟩
  unfold morton2
  have s1 := spreadStep2_ok (a := a) (b := b) (k := 8) (mask := 0x00FF00FF) (m := 0x00FF00FF#32) (by norm_num) (by decide +kernel)
    (by omega) (by omega) (by omega) (by omega)
  have s2 := fun a b => spreadStep2_ok (a := a &&& 0x00FF00FF#32) (b := b &&& 0x00FF00FF#32) (k := 4) (mask := 0x0F0F0F0F) (m := 0x0F0F0F0F#32) (by norm_num)
    (by decide +kernel) (m a _ 4 (by decide) (by decide)).1 (m a _ 4 (by decide) (by decide)).2 (m b _ 4 (by decide) (by decide)).1 (m b _ 4 (by decide) (by decide)).2
  have s3 := fun a b => spreadStep2_ok (a := a &&& 0x0F0F0F0F#32) (b := b &&& 0x0F0F0F0F#32) (k := 2) (mask := 0x33333333) (m := 0x33333333#32) (by norm_num)
    (by decide +kernel) (m a _ 2 (by decide) (by decide)).1 (m a _ 2 (by decide) (by decide)).2 (m b _ 2 (by decide) (by decide)).1 (m b _ 2 (by decide) (by decide)).2
  have s4 := fun a b => spreadStep2_ok (a := a &&& 0x33333333#32) (b := b &&& 0x33333333#32) (k := 1) (mask := 0x55555555) (m := 0x55555555#32) (by norm_num)
    (by decide +kernel) (m a _ 1 (by decide) (by decide)).1 (m a _ 1 (by decide) (by decide)).2 (m b _ 1 (by decide) (by decide)).1 (m b _ 1 (by decide) (by decide)).2
  have s5 := fun b => shl_bits (b := b &&& 0x55555555#32) (k := 1) (by norm_num) (m b _ 1 (by decide) (by decide)).1 (m b _ 1 (by decide) (by decide)).2
  simp only [Nat.cast_ofNat, Nat.cast_one] at s1 s2 s3 s4 s5
  refine ok_step s1 (ok_step (s2 _ _) (ok_step (s3 _ _) (ok_step (s4 _ _) (ok_step (s5 _) rfl))))

theorem unmorton2_ok (c : BitVec 32) : unmorton2 ⟨c⟩ = .ok ⟨⟨gather2Bits c⟩, ⟨gather2Bits (c.sshiftRight 1)⟩⟩ := by
  unfold unmorton2
  have s0 := shr_bits (b := c) (k := 1) (by norm_num)
  have s1 := fun a b => gatherStep2_ok (a := a) (b := b) (k := 1) (mask := 0x33333333) (m := 0x33333333#32) (by norm_num) (by decide +kernel)
  have s2 := fun a b => gatherStep2_ok (a := a) (b := b) (k := 2) (mask := 0x0F0F0F0F) (m := 0x0F0F0F0F#32) (by norm_num) (by decide +kernel)
  have s3 := fun a b => gatherStep2_ok (a := a) (b := b) (k := 4) (mask := 0x00FF00FF) (m := 0x00FF00FF#32) (by norm_num) (by decide +kernel)
  have s4 := fun a b => gatherStep2_ok (a := a) (b := b) (k := 8) (mask := 0x0000FFFF) (m := 0x0000FFFF#32) (by norm_num) (by decide +kernel)
  have m : I32.lit 0x55555555 = ⟨0x55555555#32⟩ := by decide +kernel
  simp only [Nat.cast_ofNat, Nat.cast_one] at s0 s1 s2 s3 s4
  rw [m]
  dsimp only [gather2Bits]
  refine ok_step s0 ?_
  refine ok_step (a := ⟨⟨c &&& 0x55555555#32⟩, ⟨c.sshiftRight 1 &&& 0x55555555#32⟩⟩) rfl ?_
  refine ok_step (s1 _ _) ?_
  refine ok_step (s2 _ _) ?_
  refine ok_step (s3 _ _) ?_
  exact s4 _ _

theorem morton2_bit {a b : BitVec 32} (ha : a.toNat < 2 ^ 16) (hb : b.toNat < 2 ^ 16) (i : ℕ) (hi : i < 32) :
    (spread2Bits a ||| spread2Bits b <<< 1).getLsbD i = if i % 2 = 0 then a.getLsbD (i / 2) else b.getLsbD (i / 2) := by
  rw [BitVec.getLsbD_or, BitVec.getLsbD_shiftLeft, spread2_bit ha i hi]
  rcases i with _ | i
  · simp
  · rw [Nat.add_sub_cancel, spread2_bit hb i (by omega)]
    rcases Nat.mod_two_eq_zero_or_one i with h | h
    · have h1 : (i + 1) % 2 = 1 := by omega
      have h2 : i / 2 = (i + 1) / 2 := by omega
      rw [h1, h, h2]
      simp [hi]
    · have h1 : (i + 1) % 2 = 0 := by omega
      rw [h1, h]
      simp

/-! ## Three coordinates -/

/-- what the spreading steps do to the bits -/
def spread3Bits (x : BitVec 32) : BitVec 32 :=
  let x := (x ||| x <<< 16) &&& 0x030000FF#32
  let x := (x ||| (x &&& 0xFF#32) <<< 8) &&& 0x0300F00F#32
  let x := (x ||| x <<< 4) &&& 0x030C30C3#32
  (x ||| x <<< 2) &&& 0x09249249#32

/-- what the gathering steps do to the bits -/
def gather3Bits (x : BitVec 32) : BitVec 32 :=
  let x := x &&& 0x09249249#32
  let x := (x ||| x.sshiftRight 2) &&& 0x030C30C3#32
  let x := (x ||| x.sshiftRight 4) &&& 0x0300F00F#32
  let x := (x ||| x.sshiftRight 8) &&& 0x030000FF#32
  (x ||| x.sshiftRight 16) &&& 0x000003FF#32

theorem spread3_bit {x : BitVec 32} (hx : x.toNat < 2 ^ 10) (i : ℕ) (hi : i < 32) :
    (spread3Bits x).getLsbD i = (decide (i % 3 = 0) && x.getLsbD (i / 3)) := by
  have h : ∀ j (hj : j < 32), 10 ≤ j → x[j] = false := fun j _ hj => high_bits hx j hj
  unfold spread3Bits
  interval_cases i <;> simp [BitVec.getLsbD_and, BitVec.getLsbD_or, BitVec.getLsbD_shiftLeft, h]

theorem gather3_bit (x : BitVec 32) (i : ℕ) (hi : i < 32) :
    (gather3Bits x).getLsbD i = (decide (i < 10) && x.getLsbD (3 * i)) := by
  have e : (0x09249249#32).msb = false := by decide
  unfold gather3Bits
  interval_cases i <;> simp [e, BitVec.getLsbD_and, BitVec.getLsbD_or, BitVec.getLsbD_sshiftRight, BitVec.getElem_sshiftRight]

/-- small enough to be shifted by `k` -/
def CanShl (a : BitVec 32) (k : ℕ) : Prop := a.toNat < 2 ^ 31 ∧ a.toNat * 2 ^ k < 2 ^ 32

theorem canShl_and (x m : BitVec 32) (k : ℕ) (h1 : m.toNat < 2 ^ 31) (h2 : m.toNat * 2 ^ k < 2 ^ 32) : CanShl (x &&& m) k :=
  ⟨lt_of_le_of_lt (masked_le x m) h1, lt_of_le_of_lt (Nat.mul_le_mul_right _ (masked_le x m)) h2⟩

theorem spreadStep3_ok {a b c m : BitVec 32} {k : ℕ} {mask : ℤ} (hk : k < 32) (hm : I32.lit mask = ⟨m⟩)
    (ha : CanShl a k) (hb : CanShl b k) (hc : CanShl c k) :
    spreadStep3 (k : ℤ) mask ⟨⟨a⟩, ⟨b⟩, ⟨c⟩⟩ = .ok ⟨⟨(a ||| a <<< k) &&& m⟩, ⟨(b ||| b <<< k) &&& m⟩, ⟨(c ||| c <<< k) &&& m⟩⟩ := by
  unfold spreadStep3 IV3.shlS V3.macroVS
  rw [shl_bits hk ha.1 ha.2, shl_bits hk hb.1 hb.2, shl_bits hk hc.1 hc.2, hm]
  rfl

theorem spreadLow3_ok {a b c m l : BitVec 32} {k : ℕ} {mask low : ℤ} (hk : k < 32) (hm : I32.lit mask = ⟨m⟩) (hl : I32.lit low = ⟨l⟩)
    (h1 : l.toNat < 2 ^ 31) (h2 : l.toNat * 2 ^ k < 2 ^ 32) :
    spreadLow3 low (k : ℤ) mask ⟨⟨a⟩, ⟨b⟩, ⟨c⟩⟩ =
      .ok ⟨⟨(a ||| (a &&& l) <<< k) &&& m⟩, ⟨(b ||| (b &&& l) <<< k) &&& m⟩, ⟨(c ||| (c &&& l) <<< k) &&& m⟩⟩ := by
  unfold spreadLow3
  rw [hl, hm]
  refine ok_step (a := ⟨⟨a &&& l⟩, ⟨b &&& l⟩, ⟨c &&& l⟩⟩) rfl ?_
  unfold IV3.shlS V3.macroVS
  have s := fun x => canShl_and x l k h1 h2
  rw [shl_bits hk (s a).1 (s a).2, shl_bits hk (s b).1 (s b).2, shl_bits hk (s c).1 (s c).2]
  rfl

theorem gatherStep3_ok {a b c m : BitVec 32} {k : ℕ} {mask : ℤ} (hk : k < 32) (hm : I32.lit mask = ⟨m⟩) :
    gatherStep3 (k : ℤ) mask ⟨⟨a⟩, ⟨b⟩, ⟨c⟩⟩ =
      .ok ⟨⟨(a ||| a.sshiftRight k) &&& m⟩, ⟨(b ||| b.sshiftRight k) &&& m⟩, ⟨(c ||| c.sshiftRight k) &&& m⟩⟩ := by
  unfold gatherStep3 IV3.shrS V3.macroVS
  rw [shr_bits hk, shr_bits hk, shr_bits hk, hm]
  rfl

theorem morton3_ok {a b c : BitVec 32} (ha : a.toNat < 2 ^ 10) (hb : b.toNat < 2 ^ 10) (hc : c.toNat < 2 ^ 10) :
    morton3 ⟨⟨a⟩, ⟨b⟩, ⟨c⟩⟩ = .ok ⟨spread3Bits a ||| spread3Bits b <<< 1 ||| spread3Bits c <<< 2⟩ := by
  unfold morton3
  have s1 := spreadStep3_ok (a := a) (b := b) (c := c) (k := 16) (mask := 0x030000FF) (m := 0x030000FF#32) (by norm_num) (by decide +kernel)
    ⟨by omega, by omega⟩ ⟨by omega, by omega⟩ ⟨by omega, by omega⟩
  have s2 := fun a b c => spreadLow3_ok (a := a) (b := b) (c := c) (k := 8) (mask := 0x0300F00F) (m := 0x0300F00F#32) (low := 0xFF) (l := 0xFF#32)
    (by norm_num) (by decide +kernel) (by decide +kernel) (by decide) (by decide)
  have m3 := fun x => canShl_and x 0x0300F00F#32 4 (by decide) (by decide)
  have m4 := fun x => canShl_and x 0x030C30C3#32 2 (by decide) (by decide)
  have m5 := fun x => canShl_and x 0x09249249#32 1 (by decide) (by decide)
  have m6 := fun x => canShl_and x 0x09249249#32 2 (by decide) (by decide)
  have s3 := fun a b c => spreadStep3_ok (k := 4) (mask := 0x030C30C3) (m := 0x030C30C3#32) (by norm_num) (by decide +kernel) (m3 a) (m3 b) (m3 c)
  have s4 := fun a b c => spreadStep3_ok (k := 2) (mask := 0x09249249) (m := 0x09249249#32) (by norm_num) (by decide +kernel) (m4 a) (m4 b) (m4 c)
  have s5 := fun b => shl_bits (b := b &&& 0x09249249#32) (k := 1) (by norm_num) (m5 b).1 (m5 b).2
  have s6 := fun b => shl_bits (b := b &&& 0x09249249#32) (k := 2) (by norm_num) (m6 b).1 (m6 b).2
  simp only [Nat.cast_ofNat, Nat.cast_one] at s1 s2 s3 s4 s5 s6
  dsimp only [spread3Bits]
  refine ok_step s1 ?_
  refine ok_step (s2 _ _ _) ?_
  refine ok_step (s3 _ _ _) ?_
  refine ok_step (s4 _ _ _) ?_
  refine ok_step (s5 _) ?_
  refine ok_step rfl ?_
  refine ok_step (s6 _) ?_
  rfl

theorem unmorton3_ok (c : BitVec 32) :
    unmorton3 ⟨c⟩ = .ok ⟨⟨gather3Bits c⟩, ⟨gather3Bits (c.sshiftRight 1)⟩, ⟨gather3Bits (c.sshiftRight 2)⟩⟩ := by
  unfold unmorton3
  have s0 := shr_bits (b := c) (k := 1) (by norm_num)
  have s0' := shr_bits (b := c) (k := 2) (by norm_num)
  have s1 := fun a b c => gatherStep3_ok (a := a) (b := b) (c := c) (k := 2) (mask := 0x030C30C3) (m := 0x030C30C3#32) (by norm_num) (by decide +kernel)
  have s2 := fun a b c => gatherStep3_ok (a := a) (b := b) (c := c) (k := 4) (mask := 0x0300F00F) (m := 0x0300F00F#32) (by norm_num) (by decide +kernel)
  have s3 := fun a b c => gatherStep3_ok (a := a) (b := b) (c := c) (k := 8) (mask := 0x030000FF) (m := 0x030000FF#32) (by norm_num) (by decide +kernel)
  have s4 := fun a b c => gatherStep3_ok (a := a) (b := b) (c := c) (k := 16) (mask := 0x000003FF) (m := 0x000003FF#32) (by norm_num) (by decide +kernel)
  have m : I32.lit 0x09249249 = ⟨0x09249249#32⟩ := by decide +kernel
  simp only [Nat.cast_ofNat, Nat.cast_one] at s0 s0' s1 s2 s3 s4
  rw [m]
  dsimp only [gather3Bits]
  refine ok_step s0 ?_
  refine ok_step s0' ?_
  refine ok_step (a := ⟨⟨c &&& 0x09249249#32⟩, ⟨c.sshiftRight 1 &&& 0x09249249#32⟩, ⟨c.sshiftRight 2 &&& 0x09249249#32⟩⟩) rfl ?_
  refine ok_step (s1 _ _ _) ?_
  refine ok_step (s2 _ _ _) ?_
  refine ok_step (s3 _ _ _) ?_
  exact s4 _ _ _

theorem morton3_bit {a b c : BitVec 32} (ha : a.toNat < 2 ^ 10) (hb : b.toNat < 2 ^ 10) (hc : c.toNat < 2 ^ 10) (i : ℕ) (hi : i < 32) :
    (spread3Bits a ||| spread3Bits b <<< 1 ||| spread3Bits c <<< 2).getLsbD i =
      if i % 3 = 0 then a.getLsbD (i / 3) else if i % 3 = 1 then b.getLsbD (i / 3) else c.getLsbD (i / 3) := by
  rw [BitVec.getLsbD_or, BitVec.getLsbD_or, BitVec.getLsbD_shiftLeft, BitVec.getLsbD_shiftLeft, spread3_bit ha i hi,
    spread3_bit hb (i - 1) (by omega), spread3_bit hc (i - 2) (by omega)]
  interval_cases i <;> simp

theorem printed3_ub {a b c : BitVec 32} (ha : a.toNat < 2 ^ 10) (hb : b.toNat < 2 ^ 10) (hc : c.toNat < 2 ^ 10)
    (h : 2 ^ 8 ≤ a.toNat ∨ 2 ^ 8 ≤ b.toNat ∨ 2 ^ 8 ≤ c.toNat) : mortonPrinted3 ⟨⟨a⟩, ⟨b⟩, ⟨c⟩⟩ = .ub := by
  unfold mortonPrinted3
  have s1 := spreadStep3_ok (a := a) (b := b) (c := c) (k := 16) (mask := 0x030000FF) (m := 0x030000FF#32) (by norm_num) (by decide +kernel)
    ⟨by omega, by omega⟩ ⟨by omega, by omega⟩ ⟨by omega, by omega⟩
  have bad : ∀ x : BitVec 32, x.toNat < 2 ^ 10 → 2 ^ 8 ≤ x.toNat → I32.shl ⟨(x ||| x <<< 16) &&& 0x030000FF#32⟩ (I32.lit 8) = .ub := by
    intro x h1 h2
    refine shl_bits_ub (k := 8) (by norm_num) (lt_of_le_of_lt (masked_le _ _) (by decide)) ?_
    by_contra hc
    have lt : ((x ||| x <<< 16) &&& 0x030000FF#32).toNat < 2 ^ 24 := by omega
    have b8 := high_bits lt 24 (by norm_num)
    have b9 := high_bits lt 25 (by norm_num)
    have hi : ∀ j (hj : j < 32), 10 ≤ j → x[j] = false := fun j _ hj => high_bits h1 j hj
    simp [BitVec.getLsbD_and, BitVec.getLsbD_or, BitVec.getLsbD_shiftLeft, hi] at b8 b9
    have : x.toNat < 2 ^ 8 := toNat_lt_of_bits fun j hj => by
      by_cases h10 : 10 ≤ j
      · exact high_bits h1 j h10
      · have : j = 8 ∨ j = 9 := by omega
        rcases this with rfl | rfl
        · exact b8
        · exact b9
    omega
  have alt : ∀ x k : I32, (∃ y, I32.shl x k = .ok y) ∨ I32.shl x k = .ub := by
    intro x k
    unfold I32.shl
    split_ifs
    · exact Or.inl ⟨_, rfl⟩
    · exact Or.inr rfl
  simp only [Nat.cast_ofNat] at s1
  refine ok_step s1 ?_
  have s2 : ∀ x y z : I32, (I32.shl x (I32.lit 8) = .ub ∨ I32.shl y (I32.lit 8) = .ub ∨ I32.shl z (I32.lit 8) = .ub) →
      spreadStep3 8 0x0300F00F ⟨x, y, z⟩ = .ub := by
    intro x y z hu
    unfold spreadStep3 IV3.shlS V3.macroVS
    rcases alt x (I32.lit 8) with ⟨x', e1⟩ | e1
    · rcases alt y (I32.lit 8) with ⟨y', e2⟩ | e2
      · rcases hu with hu | hu | hu
        · rw [hu] at e1; exact absurd e1 (by simp)
        · rw [hu] at e2; exact absurd e2 (by simp)
        · rw [e1, e2, hu]; rfl
      · rw [e1, e2]; rfl
    · rw [e1]; rfl
  rw [s2 _ _ _ (h.imp (bad a ha) (Or.imp (bad b hb) (bad c hc)))]
  rfl

end Zcm
