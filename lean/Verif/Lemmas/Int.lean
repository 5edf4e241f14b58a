import Verif.Spec.Int
import Verif.Model.Common
import Mathlib.Tactic.Linarith
import Mathlib.Tactic.Positivity

/-!
# Helper lemmas about `int32_t`
-/

namespace Zcm

theorem I32.toInt_inj {a b : I32} : a.toInt = b.toInt ↔ a = b := by
  constructor
  · intro h; ext1; exact BitVec.toInt_inj.1 h
  · rintro rfl; rfl

theorem I32.toInt_range (a : I32) : -2147483648 ≤ a.toInt ∧ a.toInt < 2147483648 := by
  have h1 := BitVec.two_mul_toInt_lt (x := a.bits)
  have h2 := BitVec.le_two_mul_toInt (x := a.bits)
  simp only [I32.toInt]
  omega

theorem I32.fits (a : I32) : FitsInt32 a.toInt := by
  have := a.toInt_range
  unfold FitsInt32; omega

theorem I32.toInt_ofInt {z : ℤ} (h : FitsInt32 z) : (I32.mk (BitVec.ofInt 32 z)).toInt = z := by
  unfold FitsInt32 at h
  simp only [I32.toInt, BitVec.toInt_ofInt]
  rw [Int.bmod_def]
  split_ifs <;> omega

theorem I32.toInt_lit {z : ℤ} (h : FitsInt32 z) : (I32.lit z).toInt = z := I32.toInt_ofInt h

theorem isInt_ofInt (z : ℤ) : IsInt (I32.ofInt? z) (Zcm.fits z) := by
  unfold I32.ofInt? Zcm.fits
  by_cases h : FitsInt32 z
  · have h' : -2147483648 ≤ z ∧ z < 2147483648 := by unfold FitsInt32 at h; omega
    rw [if_pos h, if_pos h']
    exact ⟨_, rfl, I32.toInt_ofInt h⟩
  · have h' : ¬ (-2147483648 ≤ z ∧ z < 2147483648) := by unfold FitsInt32 at h; omega
    rw [if_neg h, if_neg h']
    rfl

theorem isInt_add (a b : I32) : IsInt (I32.add a b) (intAdd a.toInt b.toInt) := isInt_ofInt _
theorem isInt_sub (a b : I32) : IsInt (I32.sub a b) (intSub a.toInt b.toInt) := isInt_ofInt _
theorem isInt_mul (a b : I32) : IsInt (I32.mul a b) (intMul a.toInt b.toInt) := isInt_ofInt _
theorem isInt_neg (a : I32) : IsInt (I32.neg a) (intNeg a.toInt) := isInt_ofInt _

theorem isInt_div (a b : I32) : IsInt (I32.div a b) (intDiv a.toInt b.toInt) := by
  unfold I32.div intDiv
  split_ifs
  · rfl
  · exact isInt_ofInt _

theorem isInt_mod (a b : I32) : IsInt (I32.mod a b) (intMod a.toInt b.toInt) := by
  unfold I32.mod intMod
  by_cases h0 : b.toInt = 0
  · simp only [h0, true_or, if_true]; rfl
  · have hd := isInt_ofInt (a.toInt.tdiv b.toInt)
    unfold Zcm.fits at hd
    by_cases hf : FitsInt32 (a.toInt.tdiv b.toInt)
    · rw [if_pos hf] at hd
      obtain ⟨x, hx, -⟩ := hd
      have hm : FitsInt32 (a.toInt.tmod b.toInt) := by
        have h1 := a.toInt_range
        have h2 : (a.toInt.tmod b.toInt).natAbs ≤ a.toInt.natAbs := by
          rw [Int.natAbs_tmod]; exact Nat.mod_le _ _
        have h3 : 0 ≤ a.toInt → 0 ≤ a.toInt.tmod b.toInt := fun h => Int.tmod_nonneg _ h
        have h4 : a.toInt ≤ 0 → a.toInt.tmod b.toInt ≤ 0 := fun h => by
          have := Int.tmod_nonneg b.toInt (a := -a.toInt) (by omega)
          rw [Int.neg_tmod] at this; omega
        unfold FitsInt32
        omega
      have hr := isInt_ofInt (a.toInt.tmod b.toInt)
      unfold Zcm.fits at hr
      rw [if_pos hm] at hr
      rw [if_neg h0, hx, if_neg (by simp [h0, hf])]
      obtain ⟨y, hy, hy'⟩ := hr
      refine ⟨y, hy, ?_⟩
      rw [hy', Int.tmod_def]
    · rw [if_neg hf] at hd
      rw [if_neg h0, if_pos (Or.inr hf)]
      change I32.ofInt? _ = _ at hd
      rw [hd]; rfl

theorem isInt_abs (a : I32) : IsInt (I.abs a) (intAbs a.toInt) := by
  unfold I.abs intAbs
  split_ifs with h
  · rw [abs_of_neg h]; exact isInt_neg a
  · rw [abs_of_nonneg (by omega)]
    unfold Zcm.fits
    rw [if_pos a.fits]
    exact ⟨a, rfl, rfl⟩

theorem isInt_shr (a b : I32) : IsInt (I32.shr a b) (intShr a.toInt b.toInt) := by
  unfold I32.shr intShr
  split_ifs with h
  · refine ⟨_, rfl, ?_⟩
    simp [I32.toInt, BitVec.toInt_sshiftRight, Int.shiftRight_eq_div_pow]
  · rfl

theorem isInt_shl (a b : I32) : IsInt (I32.shl a b) (intShl a.toInt b.toInt) := by
  unfold I32.shl intShl
  have e : (4294967296 : ℤ) = 2 ^ 32 := by norm_num
  rw [e]
  split_ifs with h h2
  · refine ⟨_, rfl, I32.toInt_ofInt ⟨?_, h2⟩⟩
    have : (0 : ℤ) ≤ a.toInt * 2 ^ b.toInt.toNat := mul_nonneg h.2.2.1 (by positivity)
    omega
  · refine ⟨_, rfl, ?_⟩
    have h3 := h.2.2.2
    generalize a.toInt * 2 ^ b.toInt.toNat = z at *
    simp only [I32.toInt, BitVec.toInt_ofInt]
    rw [Int.bmod_def]
    split_ifs <;> omega
  · rfl

theorem bit_eq (a : I32) (k : ℕ) (hk : k < 32) : bit a k = a.bits.getLsbD k := by
  unfold bit I32.toInt
  rw [← BitVec.testBit_toNat, Nat.testBit_eq_decide_div_mod_eq, BitVec.toInt_eq_toNat_cond]
  have e : ∀ x : ℕ, ((x : ℤ) / 2 ^ k % 2 = 1) ↔ x / 2 ^ k % 2 = 1 := by intro x; norm_cast
  split_ifs
  · exact decide_eq_decide.2 (e _)
  · have : ((2 ^ 32 : ℕ) : ℤ) = 2 ^ k * (2 * 2 ^ (31 - k)) := by
      push_cast
      rw [← pow_succ', ← pow_add, show k + (31 - k + 1) = 32 by omega]; norm_num
    rw [this, sub_eq_add_neg, ← mul_neg, Int.add_mul_ediv_left _ _ (by positivity)]
    refine decide_eq_decide.2 (Iff.trans ?_ (e _))
    generalize (a.bits.toNat : ℤ) / 2 ^ k = z
    omega

/-! ## vectors -/

theorem isIntVec2 {r0 r1 : Res I32} {s0 s1 : Option ℤ} (h0 : IsInt r0 s0) (h1 : IsInt r1 s1)
    {s : Fin 2 → Option ℤ} (hs : s = ![s0, s1]) :
    IsIntVec (V := V2) (do
      let x ← r0
      let y ← r1
      pure ⟨x, y⟩) s := by
  subst hs
  cases s0 with
  | none =>
    change _ = _ at h0
    subst h0
    refine ⟨fun h => by simpa using h 0, fun _ => ?_⟩
    rfl
  | some z0 =>
  obtain ⟨x0, rfl, e0⟩ := h0
  cases s1 with
  | none =>
    change _ = _ at h1
    subst h1
    refine ⟨fun h => by simpa using h 1, fun _ => ?_⟩
    rfl
  | some z1 =>
  obtain ⟨x1, rfl, e1⟩ := h1
  refine ⟨fun _ => ⟨_, rfl, fun i => ?_⟩, ?_⟩
  · fin_cases i <;> simp [e0, e1]
  · rintro ⟨i, hi⟩
    fin_cases i <;> simp at hi

theorem isIntVec_VV2 {op : I32 → I32 → Res I32} {spec : ℤ → ℤ → Option ℤ}
    (h : ∀ a b, IsInt (op a b) (spec a.toInt b.toInt)) (a b : V2 I32) :
    IsIntVec (V2.macroVV op a b) fun i => spec (icoord a i) (icoord b i) :=
  isIntVec2 (h _ _) (h _ _) (by funext i; fin_cases i <;> rfl)

theorem isIntVec_VS2 {op : I32 → I32 → Res I32} {spec : ℤ → ℤ → Option ℤ}
    (h : ∀ a b, IsInt (op a b) (spec a.toInt b.toInt)) (a : V2 I32) (b : I32) :
    IsIntVec (V2.macroVS op a b) fun i => spec (icoord a i) b.toInt :=
  isIntVec2 (h _ _) (h _ _) (by funext i; fin_cases i <;> rfl)

theorem isIntVec_SV2 {op : I32 → I32 → Res I32} {spec : ℤ → ℤ → Option ℤ}
    (h : ∀ a b, IsInt (op a b) (spec a.toInt b.toInt)) (a : I32) (b : V2 I32) :
    IsIntVec (V2.macroSV op a b) fun i => spec a.toInt (icoord b i) :=
  isIntVec2 (h _ _) (h _ _) (by funext i; fin_cases i <;> rfl)

theorem isIntVec3 {r0 r1 r2 : Res I32} {s0 s1 s2 : Option ℤ} (h0 : IsInt r0 s0) (h1 : IsInt r1 s1) (h2 : IsInt r2 s2)
    {s : Fin 3 → Option ℤ} (hs : s = ![s0, s1, s2]) :
    IsIntVec (V := V3) (do
      let x ← r0
      let y ← r1
      let z ← r2
      pure ⟨x, y, z⟩) s := by
  subst hs
  cases s0 with
  | none =>
    change _ = _ at h0
    subst h0
    refine ⟨fun h => by simpa using h 0, fun _ => ?_⟩
    rfl
  | some z0 =>
  obtain ⟨x0, rfl, e0⟩ := h0
  cases s1 with
  | none =>
    change _ = _ at h1
    subst h1
    refine ⟨fun h => by simpa using h 1, fun _ => ?_⟩
    rfl
  | some z1 =>
  obtain ⟨x1, rfl, e1⟩ := h1
  cases s2 with
  | none =>
    change _ = _ at h2
    subst h2
    refine ⟨fun h => by simpa using h 2, fun _ => ?_⟩
    rfl
  | some z2 =>
  obtain ⟨x2, rfl, e2⟩ := h2
  refine ⟨fun _ => ⟨_, rfl, fun i => ?_⟩, ?_⟩
  · fin_cases i <;> simp [e0, e1, e2]
  · rintro ⟨i, hi⟩
    fin_cases i <;> simp at hi

theorem isIntVec_VV3 {op : I32 → I32 → Res I32} {spec : ℤ → ℤ → Option ℤ}
    (h : ∀ a b, IsInt (op a b) (spec a.toInt b.toInt)) (a b : V3 I32) :
    IsIntVec (V3.macroVV op a b) fun i => spec (icoord a i) (icoord b i) :=
  isIntVec3 (h _ _) (h _ _) (h _ _) (by funext i; fin_cases i <;> rfl)

theorem isIntVec_VS3 {op : I32 → I32 → Res I32} {spec : ℤ → ℤ → Option ℤ}
    (h : ∀ a b, IsInt (op a b) (spec a.toInt b.toInt)) (a : V3 I32) (b : I32) :
    IsIntVec (V3.macroVS op a b) fun i => spec (icoord a i) b.toInt :=
  isIntVec3 (h _ _) (h _ _) (h _ _) (by funext i; fin_cases i <;> rfl)

theorem isIntVec_SV3 {op : I32 → I32 → Res I32} {spec : ℤ → ℤ → Option ℤ}
    (h : ∀ a b, IsInt (op a b) (spec a.toInt b.toInt)) (a : I32) (b : V3 I32) :
    IsIntVec (V3.macroSV op a b) fun i => spec a.toInt (icoord b i) :=
  isIntVec3 (h _ _) (h _ _) (h _ _) (by funext i; fin_cases i <;> rfl)

theorem isIntVec4 {r0 r1 r2 r3 : Res I32} {s0 s1 s2 s3 : Option ℤ} (h0 : IsInt r0 s0) (h1 : IsInt r1 s1) (h2 : IsInt r2 s2) (h3 : IsInt r3 s3)
    {s : Fin 4 → Option ℤ} (hs : s = ![s0, s1, s2, s3]) :
    IsIntVec (V := V4) (do
      let x ← r0
      let y ← r1
      let z ← r2
      let w ← r3
      pure ⟨x, y, z, w⟩) s := by
  subst hs
  cases s0 with
  | none =>
    change _ = _ at h0
    subst h0
    refine ⟨fun h => by simpa using h 0, fun _ => ?_⟩
    rfl
  | some z0 =>
  obtain ⟨x0, rfl, e0⟩ := h0
  cases s1 with
  | none =>
    change _ = _ at h1
    subst h1
    refine ⟨fun h => by simpa using h 1, fun _ => ?_⟩
    rfl
  | some z1 =>
  obtain ⟨x1, rfl, e1⟩ := h1
  cases s2 with
  | none =>
    change _ = _ at h2
    subst h2
    refine ⟨fun h => by simpa using h 2, fun _ => ?_⟩
    rfl
  | some z2 =>
  obtain ⟨x2, rfl, e2⟩ := h2
  cases s3 with
  | none =>
    change _ = _ at h3
    subst h3
    refine ⟨fun h => by simpa using h 3, fun _ => ?_⟩
    rfl
  | some z3 =>
  obtain ⟨x3, rfl, e3⟩ := h3
  refine ⟨fun _ => ⟨_, rfl, fun i => ?_⟩, ?_⟩
  · fin_cases i <;> simp [e0, e1, e2, e3]
  · rintro ⟨i, hi⟩
    fin_cases i <;> simp at hi

theorem isIntVec_VV4 {op : I32 → I32 → Res I32} {spec : ℤ → ℤ → Option ℤ}
    (h : ∀ a b, IsInt (op a b) (spec a.toInt b.toInt)) (a b : V4 I32) :
    IsIntVec (V4.macroVV op a b) fun i => spec (icoord a i) (icoord b i) :=
  isIntVec4 (h _ _) (h _ _) (h _ _) (h _ _) (by funext i; fin_cases i <;> rfl)

theorem isIntVec_VS4 {op : I32 → I32 → Res I32} {spec : ℤ → ℤ → Option ℤ}
    (h : ∀ a b, IsInt (op a b) (spec a.toInt b.toInt)) (a : V4 I32) (b : I32) :
    IsIntVec (V4.macroVS op a b) fun i => spec (icoord a i) b.toInt :=
  isIntVec4 (h _ _) (h _ _) (h _ _) (h _ _) (by funext i; fin_cases i <;> rfl)

theorem isIntVec_SV4 {op : I32 → I32 → Res I32} {spec : ℤ → ℤ → Option ℤ}
    (h : ∀ a b, IsInt (op a b) (spec a.toInt b.toInt)) (a : I32) (b : V4 I32) :
    IsIntVec (V4.macroSV op a b) fun i => spec a.toInt (icoord b i) :=
  isIntVec4 (h _ _) (h _ _) (h _ _) (h _ _) (by funext i; fin_cases i <;> rfl)

end Zcm
