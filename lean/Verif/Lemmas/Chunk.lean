import Verif.Spec.Chunk
import Verif.Lemmas.Int

/-!
# Blocks of cells
-/

namespace Zcm.I32

theorem eq_ok {r : Res I32} {s : Option ℤ} (h : IsInt r s) {x : I32} (e : s = some x.toInt) : r = .ok x := by
  subst e
  obtain ⟨y, h1, h2⟩ := h
  rw [h1, toInt_inj.1 h2]

theorem add_eq {a b x : I32} (h : a.toInt + b.toInt = x.toInt) : I32.add a b = .ok x :=
  eq_ok (isInt_add a b) (by unfold intAdd Zcm.fits; rw [h, if_pos x.fits])

theorem mul_eq {a b x : I32} (h : a.toInt * b.toInt = x.toInt) : I32.mul a b = .ok x :=
  eq_ok (isInt_mul a b) (by unfold intMul Zcm.fits; rw [h, if_pos x.fits])

theorem exists_of_fits {z : ℤ} (h : FitsInt32 z) : ∃ x : I32, x.toInt = z := ⟨_, toInt_ofInt h⟩

theorem two_pow_le {j : ℕ} (hj : j ≤ 30) : (2 : ℤ) ^ j ≤ 2 ^ 30 := pow_le_pow_right₀ (by norm_num) hj

theorem two_pow_dvd {j : ℕ} (hj : j ≤ 30) : (2 : ℤ) ^ 31 = 2 ^ j * 2 ^ (31 - j) := by
  rw [← pow_add, Nat.add_sub_cancel' (by omega)]

variable {k size mask : I32} {j : ℕ}

theorem shr_eq (g : BlockSize k size mask j) {a x : I32} (h : a.toInt / 2 ^ j = x.toInt) : I32.shr a k = .ok x :=
  eq_ok (isInt_shr a k) (by
    have := g.le
    unfold intShr
    rw [if_pos (by rw [g.k_eq]; omega), g.k_eq, Int.toNat_natCast, h])

theorem shl_eq (g : BlockSize k size mask j) {a x : I32} (h0 : 0 ≤ a.toInt) (h : a.toInt * 2 ^ j = x.toInt) : I32.shl a k = .ok x :=
  eq_ok (isInt_shl a k) (by
    have := g.le
    have r := x.toInt_range
    unfold intShl
    rw [g.k_eq, Int.toNat_natCast, h, if_pos (by omega), if_pos (by omega)])

theorem shl_neg {a : I32} (h0 : a.toInt < 0) : I32.shl a k = .ub := by
  have := isInt_shl a k
  unfold intShl at this
  rw [if_neg (by omega)] at this
  exact this

theorem toNat_mod (a : I32) (hj : j ≤ 30) : ((a.bits.toNat % 2 ^ j : ℕ) : ℤ) = a.toInt % 2 ^ j := by
  have d : ((2 ^ 32 : ℕ) : ℤ) = 2 ^ j * 2 ^ (32 - j) := by
    rw [← pow_add, Nat.add_sub_cancel' (by omega)]; norm_num
  unfold I32.toInt
  rw [BitVec.toInt_eq_toNat_cond]
  split_ifs
  · push_cast; rfl
  · rw [d, Int.sub_mul_emod_self_left]
    push_cast
    rfl

theorem and_eq (g : BlockSize k size mask j) {a x : I32} (h : a.toInt % 2 ^ j = x.toInt) : I32.and a mask = .ok x := by
  have le := g.le
  have p := two_pow_le le
  have p0 : (0 : ℤ) < 2 ^ j := by positivity
  have m : mask.bits.toNat = 2 ^ j - 1 := by
    have e := g.mask_eq
    unfold I32.toInt at e
    rw [BitVec.toInt_eq_toNat_cond] at e
    have := mask.bits.isLt
    have c : ((2 ^ j : ℕ) : ℤ) = 2 ^ j := by push_cast; rfl
    have c0 : 0 < 2 ^ j := Nat.two_pow_pos j
    split_ifs at e <;> omega
  unfold I32.and
  congr 1
  rw [← toInt_inj, ← h, ← toNat_mod a le]
  unfold I32.toInt
  have t : (a.bits &&& mask.bits).toNat = a.bits.toNat % 2 ^ j := by
    rw [BitVec.toNat_and, m, Nat.and_two_pow_sub_one_eq_mod]
  have lt : a.bits.toNat % 2 ^ j < 2 ^ j := Nat.mod_lt _ (Nat.two_pow_pos j)
  have c : ((2 ^ j : ℕ) : ℤ) = 2 ^ j := by push_cast; rfl
  rw [BitVec.toInt_eq_toNat_cond, t, if_pos (by omega)]

theorem or_eq {a l x : I32} {c : ℤ} (hc : 0 ≤ c) (ha : a.toInt = c * 2 ^ j) (h0 : 0 ≤ l.toInt) (h1 : l.toInt < 2 ^ j)
    (h : a.toInt + l.toInt = x.toInt) : I32.or a l = .ok x := by
  have a0 : 0 ≤ a.toInt := by rw [ha]; positivity
  have nat : ∀ y : I32, 0 ≤ y.toInt → (y.bits.toNat : ℤ) = y.toInt := fun y hy => by
    unfold I32.toInt at hy ⊢
    rw [BitVec.toInt_eq_toNat_cond] at hy ⊢
    have := y.bits.isLt
    split_ifs at hy ⊢ <;> omega
  have na := nat a a0
  have nl := nat l h0
  have nx := nat x (by omega)
  unfold I32.or
  congr 1
  ext1
  apply BitVec.eq_of_toNat_eq
  rw [BitVec.toNat_or]
  obtain ⟨c', rfl⟩ := Int.eq_ofNat_of_zero_le hc
  have e1 : a.bits.toNat = 2 ^ j * c' := by
    have : (a.bits.toNat : ℤ) = ((2 ^ j * c' : ℕ) : ℤ) := by
      rw [na, ha]; push_cast; ring
    exact_mod_cast this
  have e2 : l.bits.toNat < 2 ^ j := by
    have : (l.bits.toNat : ℤ) < ((2 ^ j : ℕ) : ℤ) := by
      rw [nl]; push_cast; exact h1
    exact_mod_cast this
  rw [e1, ← Nat.two_pow_add_eq_or_of_lt e2, ← e1]
  omega

/-- everything about one coordinate -/
theorem block_coord (g : BlockSize k size mask j) (p : I32) :
    ∃ c l s : I32, I32.shr p k = .ok c ∧ I32.and p mask = .ok l ∧ 0 ≤ l.toInt ∧ l.toInt < 2 ^ j ∧
      p.toInt = 2 ^ j * c.toInt + l.toInt ∧ I32.mul c size = .ok s ∧ I32.add s l = .ok p ∧
      (0 ≤ p.toInt → I32.shl c k = .ok s ∧ I32.or s l = .ok p) ∧ (p.toInt < 0 → I32.shl c k = .ub) := by
  have le := g.le
  have P := two_pow_le le
  have p0 : (0 : ℤ) < 2 ^ j := by positivity
  have r := p.toInt_range
  have dm := Int.mul_ediv_add_emod p.toInt (2 ^ j)
  have m0 := Int.emod_nonneg p.toInt p0.ne'
  have m1 := Int.emod_lt_of_pos p.toInt p0
  have big := two_pow_dvd le
  have lo : -(2 ^ 31) ≤ 2 ^ j * (p.toInt / 2 ^ j) := by
    have : -(2 ^ (31 - j)) ≤ p.toInt / 2 ^ j := by
      rw [Int.le_ediv_iff_mul_le p0]
      calc -(2 ^ (31 - j) : ℤ) * 2 ^ j = -(2 ^ 31) := by rw [big]; ring
        _ ≤ p.toInt := by omega
    calc -(2 ^ 31 : ℤ) = 2 ^ j * -(2 ^ (31 - j)) := by rw [big]; ring
      _ ≤ _ := mul_le_mul_of_nonneg_left this p0.le
  have lo' : -(2 ^ 31) ≤ p.toInt / 2 ^ j := by
    rw [Int.le_ediv_iff_mul_le p0]
    nlinarith
  have hi' : p.toInt / 2 ^ j < 2 ^ 31 := by
    rw [Int.ediv_lt_iff_lt_mul p0]
    nlinarith
  obtain ⟨c, hc⟩ := exists_of_fits (z := p.toInt / 2 ^ j) ⟨lo', hi'⟩
  obtain ⟨l, hl⟩ := exists_of_fits (z := p.toInt % 2 ^ j) ⟨by omega, by omega⟩
  obtain ⟨s, hs⟩ := exists_of_fits (z := 2 ^ j * (p.toInt / 2 ^ j)) ⟨lo, by omega⟩
  refine ⟨c, l, s, shr_eq g hc.symm, and_eq g hl.symm, by omega, by omega, by rw [hc, hl, dm], mul_eq (by rw [hc, g.size_eq, hs, mul_comm]),
    add_eq (by rw [hs, hl, dm]), fun h => ?_, fun h => shl_neg ?_⟩
  · have c0 : 0 ≤ c.toInt := by rw [hc]; exact Int.ediv_nonneg h p0.le
    exact ⟨shl_eq g c0 (by rw [hc, hs, mul_comm]), or_eq c0 (by rw [hs, hc, mul_comm]) (by omega) (by omega) (by rw [hs, hl, dm])⟩
  · rw [hc]
    exact Int.ediv_neg_of_neg_of_pos h p0

/-- the way back, one coordinate -/
theorem cell_coord (g : BlockSize k size mask j) (c l : I32) (h0 : 0 ≤ l.toInt) (h1 : l.toInt < 2 ^ j)
    (hf : FitsInt32 (2 ^ j * c.toInt + l.toInt)) :
    ∃ s p : I32, I32.mul c size = .ok s ∧ I32.add s l = .ok p ∧ p.toInt = 2 ^ j * c.toInt + l.toInt ∧ I32.shr p k = .ok c ∧
      I32.and p mask = .ok l := by
  have p0 : (0 : ℤ) < 2 ^ j := by positivity
  obtain ⟨p, hp⟩ := exists_of_fits hf
  have q : p.toInt / 2 ^ j = c.toInt := by
    rw [hp, add_comm, Int.add_mul_ediv_left _ _ p0.ne', Int.ediv_eq_zero_of_lt h0 h1, zero_add]
  have m : p.toInt % 2 ^ j = l.toInt := by
    rw [hp, add_comm, Int.add_mul_emod_self_left, Int.emod_eq_of_lt h0 h1]
  obtain ⟨c', l', s, e1, e2, -, -, -, e3, e4, -⟩ := block_coord g p
  have f1 := shr_eq g q
  have f2 := and_eq g m
  rw [f1] at e1
  rw [f2] at e2
  cases e1
  cases e2
  exact ⟨s, p, e3, e4, hp, f1, f2⟩

/-- `/` and `%`, one coordinate -/
theorem div_coord (g : BlockSize k size mask j) (p : I32) :
    ∃ q r c : I32, I32.div p size = .ok q ∧ I32.mod p size = .ok r ∧ I32.shr p k = .ok c ∧
      (0 ≤ p.toInt ∨ r.toInt = 0 → q = c) ∧ (p.toInt < 0 → r.toInt ≠ 0 → q.toInt = c.toInt + 1 ∧ r.toInt < 0) := by
  have p0 : (0 : ℤ) < 2 ^ j := by positivity
  obtain ⟨c, l, -, e1, -, h0, h1, h2, -⟩ := block_coord g p
  have r := p.toInt_range
  have td : p.toInt.tdiv (2 ^ j) = p.toInt / 2 ^ j + if 0 ≤ p.toInt ∨ (2 ^ j : ℤ) ∣ p.toInt then 0 else 1 := by
    rw [Int.tdiv_eq_ediv]
    congr 1
    split_ifs
    · rfl
    · exact Int.sign_eq_one_of_pos p0
  have cq : p.toInt / 2 ^ j = c.toInt := by
    rw [h2, add_comm, Int.add_mul_ediv_left _ _ p0.ne', Int.ediv_eq_zero_of_lt h0 h1, zero_add]
  have fq : FitsInt32 (p.toInt.tdiv (2 ^ j)) := by
    have cr := c.toInt_range
    rw [td, cq]
    unfold FitsInt32
    split_ifs with h
    · omega
    · have : c.toInt < 0 := by
        rw [← cq]
        exact Int.ediv_neg_of_neg_of_pos (by omega) p0
      omega
  obtain ⟨q, hq⟩ := exists_of_fits fq
  have tm : p.toInt - 2 ^ j * p.toInt.tdiv (2 ^ j) = l.toInt - 2 ^ j * if 0 ≤ p.toInt ∨ (2 ^ j : ℤ) ∣ p.toInt then 0 else 1 := by
    rw [td, cq]
    linear_combination h2
  have P := two_pow_le g.le
  have fr : FitsInt32 (p.toInt - 2 ^ j * p.toInt.tdiv (2 ^ j)) := by
    rw [tm]
    unfold FitsInt32
    split_ifs <;> omega
  obtain ⟨t, ht⟩ := exists_of_fits fr
  refine ⟨q, t, c, eq_ok (isInt_div p size) ?_, eq_ok (isInt_mod p size) ?_, e1, ?_, ?_⟩
  · unfold intDiv Zcm.fits
    rw [g.size_eq, if_neg p0.ne', if_pos fq, hq]
  · unfold intMod
    rw [g.size_eq, if_neg (by rintro (h | h); exacts [p0.ne' h, h fq]), ht]
  · intro h
    have : 0 ≤ p.toInt ∨ (2 ^ j : ℤ) ∣ p.toInt := by
      rcases h with h | h
      · exact .inl h
      · right
        rw [ht] at h
        exact ⟨p.toInt.tdiv (2 ^ j), by linarith⟩
    rw [← toInt_inj, hq, td, if_pos this, cq, add_zero]
  · intro hn hr
    have : ¬ (0 ≤ p.toInt ∨ (2 ^ j : ℤ) ∣ p.toInt) := by
      rintro (h | h)
      · omega
      · refine hr ?_
        rw [ht, tm, if_pos (.inr h), mul_zero, sub_zero]
        have : (2 ^ j : ℤ) ∣ l.toInt := by
          have := dvd_sub h (Dvd.intro c.toInt rfl : (2 ^ j : ℤ) ∣ 2 ^ j * c.toInt)
          rwa [h2, add_sub_cancel_left] at this
        exact Int.eq_zero_of_dvd_of_nonneg_of_lt h0 h1 this
    rw [hq, td, cq, if_neg this, ht, tm, if_neg this]
    exact ⟨rfl, by linarith⟩

end Zcm.I32
