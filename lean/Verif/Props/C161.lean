import Verif.Spec.Coord
import Verif.Lemmas.Morton
import Mathlib.Tactic.FinCases

/-!
# C161  One number for a cell of a grid, by interleaving bits

The caller's code is in `Spec/Morton`.
-/

namespace Zcm

open I32

private theorem range_of_lt {b : BitVec 32} {n : ℕ} (hn : n ≤ 31) (h : b.toNat < 2 ^ n) : 0 ≤ (⟨b⟩ : I32).toInt ∧ (⟨b⟩ : I32).toInt < 2 ^ n := by
  have p : 2 ^ n ≤ 2 ^ 31 := Nat.pow_le_pow_right (by norm_num) hn
  rw [toInt_of_lt (lt_of_lt_of_le h p)]
  have c : ((2 ^ n : ℕ) : ℤ) = 2 ^ n := by push_cast; rfl
  omega

/-- C161, `ivec2`: for every cell with coordinates from 0 to below 2^16 the code is defined, its bits are the bits of the coordinates in
turn, and the way back gives the cell. -/
theorem C161_ivec2 (p : V2 I32) (h : ∀ i, 0 ≤ (coord p i).toInt ∧ (coord p i).toInt < 2 ^ 16) :
    ∃ c, morton2 p = .ok c ∧ (∀ n < 16, bitOf c (2 * n) = bitOf p.x n ∧ bitOf c (2 * n + 1) = bitOf p.y n) ∧ unmorton2 c = .ok p := by
  obtain ⟨⟨a⟩, ⟨b⟩⟩ := p
  have ha : a.toNat < 2 ^ 16 := toNat_lt_of_toInt (a := ⟨a⟩) (h 0).1 (h 0).2
  have hb : b.toNat < 2 ^ 16 := toNat_lt_of_toInt (a := ⟨b⟩) (h 1).1 (h 1).2
  refine ⟨_, morton2_ok ha hb, fun n hn => ⟨?_, ?_⟩, ?_⟩
  · refine (morton2_bit ha hb (2 * n) (by omega)).trans ?_
    rw [if_pos (by omega), show 2 * n / 2 = n by omega]
    rfl
  · refine (morton2_bit ha hb (2 * n + 1) (by omega)).trans ?_
    rw [if_neg (by omega), show (2 * n + 1) / 2 = n by omega]
    rfl
  · rw [unmorton2_ok]
    congr 3
    · apply BitVec.eq_of_getLsbD_eq
      intro i hi
      rw [gather2_bit _ i hi]
      by_cases h16 : i < 16
      · rw [morton2_bit ha hb (2 * i) (by omega), if_pos (by omega), show 2 * i / 2 = i by omega]
        simp [h16]
      · rw [high_bits ha i (by omega)]
        simp [h16]
    · apply BitVec.eq_of_getLsbD_eq
      intro i hi
      rw [gather2_bit _ i hi]
      by_cases h16 : i < 16
      · rw [BitVec.getLsbD_sshiftRight, if_pos (by omega), morton2_bit ha hb (1 + 2 * i) (by omega), if_neg (by omega),
          show (1 + 2 * i) / 2 = i by omega]
        simp [h16]
        omega
      · rw [high_bits hb i (by omega)]
        simp [h16]

/-- C161, `ivec2`: every `int`, also a negative one, is the code of a cell, so the codes and the cells are one to one. -/
theorem C161_ivec2_back (c : I32) :
    ∃ p, unmorton2 c = .ok p ∧ (∀ i, 0 ≤ (coord p i).toInt ∧ (coord p i).toInt < 2 ^ 16) ∧ morton2 p = .ok c := by
  obtain ⟨c⟩ := c
  have small : ∀ x, (gather2Bits x).toNat < 2 ^ 16 := fun x => toNat_lt_of_bits fun j hj => by
    by_cases h : j < 32
    · rw [gather2_bit x j h]; simp; omega
    · exact BitVec.getLsbD_of_ge _ _ (by omega)
  refine ⟨_, unmorton2_ok c, fun i => ?_, ?_⟩
  · fin_cases i
    · exact range_of_lt (by norm_num) (small _)
    · exact range_of_lt (by norm_num) (small _)
  · rw [morton2_ok (small _) (small _)]
    congr 2
    apply BitVec.eq_of_getLsbD_eq
    intro i hi
    rw [morton2_bit (small _) (small _) i hi]
    split_ifs with h
    · rw [gather2_bit _ _ (by omega), show 2 * (i / 2) = i by omega]
      simp; omega
    · rw [gather2_bit _ _ (by omega), BitVec.getLsbD_sshiftRight, if_pos (by omega), show 1 + 2 * (i / 2) = i by omega,
        decide_eq_true (show i / 2 < 16 by omega), decide_eq_false (show ¬ 32 ≤ 2 * (i / 2) by omega)]
      rfl

/-- C161, `ivec2`: blocks have consecutive codes. Two cells are in the same block of `2^k` by `2^k` cells exactly if their codes, read as
unsigned numbers, give the same quotient by `4^k`. -/
theorem C161_ivec2_blocks (p q : V2 I32) (hp : ∀ i, 0 ≤ (coord p i).toInt ∧ (coord p i).toInt < 2 ^ 16)
    (hq : ∀ i, 0 ≤ (coord q i).toInt ∧ (coord q i).toInt < 2 ^ 16) (c d : I32) (hc : morton2 p = .ok c) (hd : morton2 q = .ok d) (k : ℕ) :
    (∀ i, (coord p i).toInt / 2 ^ k = (coord q i).toInt / 2 ^ k) ↔ c.bits.toNat / 4 ^ k = d.bits.toNat / 4 ^ k := by
  obtain ⟨c', e1, bc, -⟩ := C161_ivec2 p hp
  obtain ⟨d', e2, bd, -⟩ := C161_ivec2 q hq
  obtain rfl : c' = c := by rw [hc] at e1; exact (Res.ok.inj e1).symm
  obtain rfl : d' = d := by rw [hd] at e2; exact (Res.ok.inj e2).symm
  have quot : ∀ x y : I32, 0 ≤ x.toInt ∧ x.toInt < 2 ^ 16 → 0 ≤ y.toInt ∧ y.toInt < 2 ^ 16 →
      (x.toInt / 2 ^ k = y.toInt / 2 ^ k ↔ ∀ n, k ≤ n → bitOf x n = bitOf y n) := by
    intro x y hx hy
    have tx : x.toInt = x.bits.toNat := toInt_of_lt (lt_trans (toNat_lt_of_toInt hx.1 hx.2) (by norm_num))
    have ty : y.toInt = y.bits.toNat := toInt_of_lt (lt_trans (toNat_lt_of_toInt hy.1 hy.2) (by norm_num))
    have e : (x.toInt / 2 ^ k = y.toInt / 2 ^ k) ↔ x.bits.toNat / 2 ^ k = y.bits.toNat / 2 ^ k := by
      rw [tx, ty]
      constructor
      · intro h; exact_mod_cast h
      · intro h; exact_mod_cast h
    rw [e]
    constructor
    · intro h n hn
      have := congrArg (fun z => Nat.testBit z (n - k)) h
      simp only [Nat.testBit_div_two_pow, show n - k + k = n by omega] at this
      exact this
    · intro h
      apply Nat.eq_of_testBit_eq
      intro i
      simp only [Nat.testBit_div_two_pow]
      exact h _ (by omega)
  have quot2 : c'.bits.toNat / 4 ^ k = d'.bits.toNat / 4 ^ k ↔ ∀ n, 2 * k ≤ n → bitOf c' n = bitOf d' n := by
    rw [show 4 ^ k = 2 ^ (2 * k) by rw [pow_mul]; norm_num]
    constructor
    · intro h n hn
      have := congrArg (fun z => Nat.testBit z (n - 2 * k)) h
      simp only [Nat.testBit_div_two_pow, show n - 2 * k + 2 * k = n by omega] at this
      exact this
    · intro h
      apply Nat.eq_of_testBit_eq
      intro i
      simp only [Nat.testBit_div_two_pow]
      exact h _ (by omega)
  rw [quot2]
  have hi : ∀ x : I32, 0 ≤ x.toInt ∧ x.toInt < 2 ^ 16 → ∀ n, 16 ≤ n → bitOf x n = false := fun x hx n hn =>
    high_bits (toNat_lt_of_toInt hx.1 hx.2) n hn
  have hi32 : ∀ (x : I32) n, 32 ≤ n → bitOf x n = false := fun x n hn => BitVec.getLsbD_of_ge _ _ hn
  constructor
  · intro h n hn
    by_cases h32 : n < 32
    · rcases Nat.even_or_odd' n with ⟨m, rfl | rfl⟩
      · rw [(bc m (by omega)).1, (bd m (by omega)).1]
        exact (quot _ _ (hp 0) (hq 0)).1 (h 0) m (by omega)
      · rw [(bc m (by omega)).2, (bd m (by omega)).2]
        exact (quot _ _ (hp 1) (hq 1)).1 (h 1) m (by omega)
    · rw [hi32 _ n (by omega), hi32 _ n (by omega)]
  · intro h i
    refine (quot _ _ (hp i) (hq i)).2 fun n hn => ?_
    by_cases h16 : n < 16
    · fin_cases i
      · have := h (2 * n) (by omega)
        rw [(bc n h16).1, (bd n h16).1] at this
        exact this
      · have := h (2 * n + 1) (by omega)
        rw [(bc n h16).2, (bd n h16).2] at this
        exact this
    · rw [hi _ (hp i) n (by omega), hi _ (hq i) n (by omega)]

/-! Non-vacuity: a cell whose code needs the sign bit. -/
example : morton2 ⟨I32.lit 3, I32.lit 65535⟩ = .ok (I32.lit (-1431655761)) ∧ unmorton2 (I32.lit (-1431655761)) = .ok ⟨I32.lit 3, I32.lit 65535⟩ := by
  decide +kernel

/-- C161, `ivec3`: the same with coordinates from 0 to below 2^10; the code is not negative. -/
theorem C161_ivec3 (p : V3 I32) (h : ∀ i, 0 ≤ (coord p i).toInt ∧ (coord p i).toInt < 2 ^ 10) :
    ∃ c, morton3 p = .ok c ∧ 0 ≤ c.toInt ∧ c.toInt < 2 ^ 30 ∧
      (∀ n < 10, bitOf c (3 * n) = bitOf p.x n ∧ bitOf c (3 * n + 1) = bitOf p.y n ∧ bitOf c (3 * n + 2) = bitOf p.z n) ∧
      unmorton3 c = .ok p := by
  obtain ⟨⟨a⟩, ⟨b⟩, ⟨c⟩⟩ := p
  have ha : a.toNat < 2 ^ 10 := toNat_lt_of_toInt (a := ⟨a⟩) (h 0).1 (h 0).2
  have hb : b.toNat < 2 ^ 10 := toNat_lt_of_toInt (a := ⟨b⟩) (h 1).1 (h 1).2
  have hc : c.toNat < 2 ^ 10 := toNat_lt_of_toInt (a := ⟨c⟩) (h 2).1 (h 2).2
  have mb := morton3_bit ha hb hc
  have lt : (spread3Bits a ||| spread3Bits b <<< 1 ||| spread3Bits c <<< 2).toNat < 2 ^ 30 := toNat_lt_of_bits fun j hj => by
    by_cases h32 : j < 32
    · rw [mb j h32]
      split_ifs
      · exact high_bits ha _ (by omega)
      · exact high_bits hb _ (by omega)
      · exact high_bits hc _ (by omega)
    · exact BitVec.getLsbD_of_ge _ _ (by omega)
  have r := range_of_lt (by norm_num) lt
  refine ⟨_, morton3_ok ha hb hc, r.1, r.2, fun n hn => ⟨?_, ?_, ?_⟩, ?_⟩
  · refine (mb (3 * n) (by omega)).trans ?_
    rw [if_pos (by omega), show 3 * n / 3 = n by omega]
    rfl
  · refine (mb (3 * n + 1) (by omega)).trans ?_
    rw [if_neg (by omega), if_pos (by omega), show (3 * n + 1) / 3 = n by omega]
    rfl
  · refine (mb (3 * n + 2) (by omega)).trans ?_
    rw [if_neg (by omega), if_neg (by omega), show (3 * n + 2) / 3 = n by omega]
    rfl
  · rw [unmorton3_ok]
    congr 3
    · apply BitVec.eq_of_getLsbD_eq
      intro i hi
      rw [gather3_bit _ i hi]
      by_cases h10 : i < 10
      · rw [mb (3 * i) (by omega), if_pos (by omega), show 3 * i / 3 = i by omega]
        simp [h10]
      · rw [high_bits ha i (by omega)]
        simp [h10]
    · apply BitVec.eq_of_getLsbD_eq
      intro i hi
      rw [gather3_bit _ i hi]
      by_cases h10 : i < 10
      · rw [BitVec.getLsbD_sshiftRight, if_pos (by omega), mb (1 + 3 * i) (by omega), if_neg (by omega), if_pos (by omega),
          show (1 + 3 * i) / 3 = i by omega]
        simp [h10]
        omega
      · rw [high_bits hb i (by omega)]
        simp [h10]
    · apply BitVec.eq_of_getLsbD_eq
      intro i hi
      rw [gather3_bit _ i hi]
      by_cases h10 : i < 10
      · rw [BitVec.getLsbD_sshiftRight, if_pos (by omega), mb (2 + 3 * i) (by omega), if_neg (by omega), if_neg (by omega),
          show (2 + 3 * i) / 3 = i by omega]
        simp [h10]
        omega
      · rw [high_bits hc i (by omega)]
        simp [h10]

/-- C161, `ivec3`: every number from 0 to below 2^30 is the code of a cell. -/
theorem C161_ivec3_back (c : I32) (h0 : 0 ≤ c.toInt) (h1 : c.toInt < 2 ^ 30) :
    ∃ p, unmorton3 c = .ok p ∧ (∀ i, 0 ≤ (coord p i).toInt ∧ (coord p i).toInt < 2 ^ 10) ∧ morton3 p = .ok c := by
  have hc := toNat_lt_of_toInt h0 h1
  obtain ⟨c⟩ := c
  have small : ∀ x, (gather3Bits x).toNat < 2 ^ 10 := fun x => toNat_lt_of_bits fun j hj => by
    by_cases h : j < 32
    · rw [gather3_bit x j h]; simp; omega
    · exact BitVec.getLsbD_of_ge _ _ (by omega)
  refine ⟨_, unmorton3_ok c, fun i => ?_, ?_⟩
  · fin_cases i
    · exact range_of_lt (by norm_num) (small _)
    · exact range_of_lt (by norm_num) (small _)
    · exact range_of_lt (by norm_num) (small _)
  · rw [morton3_ok (small _) (small _) (small _)]
    congr 2
    apply BitVec.eq_of_getLsbD_eq
    intro i hi
    rw [morton3_bit (small _) (small _) (small _) i hi]
    by_cases h30 : i < 30
    · split_ifs with h h'
      · rw [gather3_bit _ _ (by omega), show 3 * (i / 3) = i by omega]
        simp; omega
      · rw [gather3_bit _ _ (by omega), BitVec.getLsbD_sshiftRight, if_pos (by omega), show 1 + 3 * (i / 3) = i by omega,
          decide_eq_true (show i / 3 < 10 by omega), decide_eq_false (show ¬ 32 ≤ 3 * (i / 3) by omega)]
        rfl
      · rw [gather3_bit _ _ (by omega), BitVec.getLsbD_sshiftRight, if_pos (by omega), show 2 + 3 * (i / 3) = i by omega,
          decide_eq_true (show i / 3 < 10 by omega), decide_eq_false (show ¬ 32 ≤ 3 * (i / 3) by omega)]
        rfl
    · have z : c.getLsbD i = false := high_bits hc i (by omega)
      rw [z]
      split_ifs
      all_goals exact high_bits (small _) _ (by omega)

/-- C161, `ivec3`: the code as often printed, meant for unsigned numbers, is undefined behaviour with `ivec3` as soon as one coordinate is
256 or more, because the second step shifts bits out of a signed number. -/
theorem C161_ivec3_printed (p : V3 I32) (h : ∀ i, 0 ≤ (coord p i).toInt ∧ (coord p i).toInt < 2 ^ 10) (hu : ∃ i, 256 ≤ (coord p i).toInt) :
    mortonPrinted3 p = .ub := by
  obtain ⟨⟨a⟩, ⟨b⟩, ⟨c⟩⟩ := p
  have ha : a.toNat < 2 ^ 10 := toNat_lt_of_toInt (a := ⟨a⟩) (h 0).1 (h 0).2
  have hb : b.toNat < 2 ^ 10 := toNat_lt_of_toInt (a := ⟨b⟩) (h 1).1 (h 1).2
  have hc : c.toNat < 2 ^ 10 := toNat_lt_of_toInt (a := ⟨c⟩) (h 2).1 (h 2).2
  have ge : ∀ x : BitVec 32, x.toNat < 2 ^ 10 → 256 ≤ (⟨x⟩ : I32).toInt → 2 ^ 8 ≤ x.toNat := by
    intro x hx h
    rw [toInt_of_lt (by omega)] at h
    omega
  refine printed3_ub ha hb hc ?_
  obtain ⟨i, hi⟩ := hu
  fin_cases i
  · exact Or.inl (ge a ha hi)
  · exact Or.inr (Or.inl (ge b hb hi))
  · exact Or.inr (Or.inr (ge c hc hi))

/-! Non-vacuity: a cell with coordinates on both sides of 256. -/
example : (∃ c, morton3 ⟨I32.lit 1023, I32.lit 256, I32.lit 5⟩ = .ok c ∧ unmorton3 c = .ok ⟨I32.lit 1023, I32.lit 256, I32.lit 5⟩) ∧
    mortonPrinted3 ⟨I32.lit 1023, I32.lit 256, I32.lit 5⟩ = .ub ∧
    mortonPrinted3 ⟨I32.lit 255, I32.lit 7, I32.lit 5⟩ = morton3 ⟨I32.lit 255, I32.lit 7, I32.lit 5⟩ := by
  refine ⟨?_, by decide +kernel, by decide +kernel⟩
  obtain ⟨c, e, -, -, -, b⟩ := C161_ivec3 ⟨I32.lit 1023, I32.lit 256, I32.lit 5⟩ (by decide +kernel)
  exact ⟨c, e, b⟩

end Zcm
