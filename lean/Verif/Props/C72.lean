import Verif.Spec.Coord
import Verif.Lemmas.F32
import Verif.Lemmas.Int
import Verif.Model.ComponentWise
import Mathlib.Algebra.BigOperators.Fin

/-!
# C72: component reductions

Sums and products are exact arithmetic on floats, and 32-bit integer arithmetic on ints; minimum and
maximum are bit for bit on floats that are not NaN.
-/

namespace Zcm

/-- `m` is a least value of `f`: one of them, and none is smaller. -/
def IsLeastOf {n : ℕ} {α : Type} [LE α] (f : Fin n → α) (m : α) : Prop :=
  (∃ i, m = f i) ∧ ∀ i, m ≤ f i

/-- `m` is a greatest value of `f`: one of them, and none is larger. -/
def IsGreatestOf {n : ℕ} {α : Type} [LE α] (f : Fin n → α) (m : α) : Prop :=
  (∃ i, m = f i) ∧ ∀ i, f i ≤ m

theorem F32.min_key {a b : F32} (ha : a ≠ .nan) (hb : b ≠ .nan) :
    F.min a b ≠ .nan ∧ (F.min a b).key = min a.key b.key ∧ (F.min a b = a ∨ F.min a b = b) := by
  unfold F.min
  by_cases h : b < a
  · rw [if_pos h]
    have := (F32.lt_iff.1 h).2.2
    exact ⟨hb, by omega, Or.inr rfl⟩
  · rw [if_neg h]
    have : ¬ b.key < a.key := fun hk => h (F32.lt_iff.2 ⟨hb, ha, hk⟩)
    exact ⟨ha, by omega, Or.inl rfl⟩

theorem F32.max_key {a b : F32} (ha : a ≠ .nan) (hb : b ≠ .nan) :
    F.max a b ≠ .nan ∧ (F.max a b).key = max a.key b.key ∧ (F.max a b = a ∨ F.max a b = b) := by
  unfold F.max
  by_cases h : a < b
  · rw [if_pos h]
    have := (F32.lt_iff.1 h).2.2
    exact ⟨hb, by omega, Or.inr rfl⟩
  · rw [if_neg h]
    have : ¬ a.key < b.key := fun hk => h (F32.lt_iff.2 ⟨ha, hb, hk⟩)
    exact ⟨ha, by omega, Or.inl rfl⟩

theorem fmin_real (a b : ℝ) : F.min a b = min a b := by
  unfold F.min
  split_ifs with h
  · rw [min_eq_right h.le]
  · rw [min_eq_left (not_lt.1 h)]

theorem fmax_real (a b : ℝ) : F.max a b = max a b := by
  unfold F.max
  split_ifs with h
  · rw [max_eq_right h.le]
  · rw [max_eq_left (not_lt.1 h)]

theorem imin_toInt (a b : I32) : (I.min a b).toInt = min a.toInt b.toInt := by
  unfold I.min
  have : (b < a) ↔ b.toInt < a.toInt := Iff.rfl
  split_ifs with h <;> rw [this] at h <;> omega

theorem imax_toInt (a b : I32) : (I.max a b).toInt = max a.toInt b.toInt := by
  unfold I.max
  have : (a < b) ↔ a.toInt < b.toInt := Iff.rfl
  split_ifs with h <;> rw [this] at h <;> omega

/-- one step of an integer reduction -/
theorem add_cases (a b : I32) : (FitsInt32 (a.toInt + b.toInt) ∧
      ∃ r, I32.add a b = .ok r ∧ r.toInt = a.toInt + b.toInt) ∨
    (¬ FitsInt32 (a.toInt + b.toInt) ∧ I32.add a b = .ub) := by
  have h := isInt_add a b
  unfold intAdd Zcm.fits at h
  split_ifs at h with hf
  · exact Or.inl ⟨hf, h⟩
  · exact Or.inr ⟨hf, h⟩

/-- one step of an integer reduction -/
theorem mul_cases (a b : I32) : (FitsInt32 (a.toInt * b.toInt) ∧
      ∃ r, I32.mul a b = .ok r ∧ r.toInt = a.toInt * b.toInt) ∨
    (¬ FitsInt32 (a.toInt * b.toInt) ∧ I32.mul a b = .ub) := by
  have h := isInt_mul a b
  unfold intMul Zcm.fits at h
  split_ifs at h with hf
  · exact Or.inl ⟨hf, h⟩
  · exact Or.inr ⟨hf, h⟩

/-- C72: `compAdd` and `compMul` of a `vec2`. -/
theorem C72_vec2_sum (v : V2 ℝ) :
    V2.compAdd v = ∑ i, coord v i ∧ V2.compMul v = ∏ i, coord v i := by
  simp only [Fin.sum_univ_succ, Fin.prod_univ_succ, Fin.sum_univ_zero, Fin.prod_univ_zero]
  constructor
  · show v.x + v.y = v.x + (v.y + 0)
    ring
  · show v.x * v.y = v.x * (v.y * 1)
    ring

/-- C72: the components may come in any order. -/
theorem C72_vec2_order (v w : V2 ℝ) (σ : Equiv.Perm (Fin 2)) (h : ∀ i, coord w i = coord v (σ i)) :
    V2.compAdd w = V2.compAdd v ∧ V2.compMul w = V2.compMul v := by
  rw [(C72_vec2_sum w).1, (C72_vec2_sum w).2, (C72_vec2_sum v).1, (C72_vec2_sum v).2]
  simp only [h]
  exact ⟨Equiv.sum_comp σ _, Equiv.prod_comp σ _⟩

/-- C72: `compMin` of a `vec2`, exact arithmetic. -/
theorem C72_vec2_min (v : V2 ℝ) : IsLeastOf (coord v) (V2.compMin v) := by
  simp only [V2.compMin, fmin_real]
  constructor
  · rcases min_choice v.x v.y with h | h
    · exact ⟨0, h⟩
    · exact ⟨1, h⟩
  · intro i
    fin_cases i <;> simp [coord]

/-- C72: `compMin` of a `vec2` of floats without NaN. -/
theorem C72_vec2_min_float (v : V2 F32) (h : ∀ i, coord v i ≠ .nan) :
    IsLeastOf (coord v) (V2.compMin v) := by
  have h0 : v.x ≠ .nan := h 0
  have h1 : v.y ≠ .nan := h 1
  obtain ⟨k1, k2, k3⟩ := F32.min_key h0 h1
  constructor
  · rcases k3 with k | k
    · exact ⟨0, k⟩
    · exact ⟨1, k⟩
  · intro i
    fin_cases i
    · exact F32.le_iff.2 ⟨k1, h0, by show (V2.compMin v).key ≤ v.x.key; simp only [V2.compMin]; omega⟩
    · exact F32.le_iff.2 ⟨k1, h1, by show (V2.compMin v).key ≤ v.y.key; simp only [V2.compMin]; omega⟩

/-- C72: `compMin` of an `ivec2`. -/
theorem C72_ivec2_min (v : V2 I32) : IsLeastOf (icoord v) (IV2.compMin v).toInt := by
  simp only [IV2.compMin, imin_toInt]
  constructor
  · rcases min_choice v.x.toInt v.y.toInt with h | h
    · exact ⟨0, h⟩
    · exact ⟨1, h⟩
  · intro i
    fin_cases i <;> simp [icoord, coord]

/-- C72: `compMax` of a `vec2`, exact arithmetic. -/
theorem C72_vec2_max (v : V2 ℝ) : IsGreatestOf (coord v) (V2.compMax v) := by
  simp only [V2.compMax, fmax_real]
  constructor
  · rcases max_choice v.x v.y with h | h
    · exact ⟨0, h⟩
    · exact ⟨1, h⟩
  · intro i
    fin_cases i <;> simp [coord]

/-- C72: `compMax` of a `vec2` of floats without NaN. -/
theorem C72_vec2_max_float (v : V2 F32) (h : ∀ i, coord v i ≠ .nan) :
    IsGreatestOf (coord v) (V2.compMax v) := by
  have h0 : v.x ≠ .nan := h 0
  have h1 : v.y ≠ .nan := h 1
  obtain ⟨k1, k2, k3⟩ := F32.max_key h0 h1
  constructor
  · rcases k3 with k | k
    · exact ⟨0, k⟩
    · exact ⟨1, k⟩
  · intro i
    fin_cases i
    · exact F32.le_iff.2 ⟨h0, k1, by show v.x.key ≤ (V2.compMax v).key; simp only [V2.compMax]; omega⟩
    · exact F32.le_iff.2 ⟨h1, k1, by show v.y.key ≤ (V2.compMax v).key; simp only [V2.compMax]; omega⟩

/-- C72: `compMax` of an `ivec2`. -/
theorem C72_ivec2_max (v : V2 I32) : IsGreatestOf (icoord v) (IV2.compMax v).toInt := by
  simp only [IV2.compMax, imax_toInt]
  constructor
  · rcases max_choice v.x.toInt v.y.toInt with h | h
    · exact ⟨0, h⟩
    · exact ⟨1, h⟩
  · intro i
    fin_cases i <;> simp [icoord, coord]

/-- C72: `compAdd` of an `ivec2`: the sum, undefined exactly when a partial sum overflows. -/
theorem C72_ivec2_add (v : V2 I32) :
    (∀ r, IV2.compAdd v = .ok r → r.toInt = ∑ i, icoord v i) ∧
    (FitsInt32 (icoord v 0 + icoord v 1) → ∃ r, IV2.compAdd v = .ok r) ∧
    (¬ (FitsInt32 (icoord v 0 + icoord v 1)) → IV2.compAdd v = .ub) := by
  have hs : ∑ i, icoord v i = v.x.toInt + v.y.toInt := by
    simp only [Fin.sum_univ_succ, Fin.sum_univ_zero]
    show v.x.toInt + (v.y.toInt + 0) = _
    ring
  rw [hs]
  simp only [show ∀ i, icoord v i = (coord v i).toInt from fun _ => rfl]
  have e0 : coord v 0 = v.x := rfl
  have e1 : coord v 1 = v.y := rfl
  simp only [e0, e1, IV2.compAdd]
  rcases add_cases v.x v.y with ⟨f1, r1, q1, s1⟩ | ⟨f1, q1⟩
  · simp only [q1, Res.ok_bind]
    refine ⟨fun r h => ?_, fun _ => ⟨_, rfl⟩, fun h => absurd f1 h⟩
    injection h with h
    rw [← h, s1]
  · simp only [q1, Res.ub_bind]
    refine ⟨fun r h => (nomatch h), fun h => absurd h ?_, fun _ => by trivial⟩
    tauto

/-- C72: `compMul` of an `ivec2`: the product, undefined exactly when a partial product overflows. -/
theorem C72_ivec2_mul (v : V2 I32) :
    (∀ r, IV2.compMul v = .ok r → r.toInt = ∏ i, icoord v i) ∧
    (FitsInt32 (icoord v 0 * icoord v 1) → ∃ r, IV2.compMul v = .ok r) ∧
    (¬ (FitsInt32 (icoord v 0 * icoord v 1)) → IV2.compMul v = .ub) := by
  have hs : ∏ i, icoord v i = v.x.toInt * v.y.toInt := by
    simp only [Fin.prod_univ_succ, Fin.prod_univ_zero]
    show v.x.toInt * (v.y.toInt * 1) = _
    ring
  rw [hs]
  simp only [show ∀ i, icoord v i = (coord v i).toInt from fun _ => rfl]
  have e0 : coord v 0 = v.x := rfl
  have e1 : coord v 1 = v.y := rfl
  simp only [e0, e1, IV2.compMul]
  rcases mul_cases v.x v.y with ⟨f1, r1, q1, s1⟩ | ⟨f1, q1⟩
  · simp only [q1, Res.ok_bind]
    refine ⟨fun r h => ?_, fun _ => ⟨_, rfl⟩, fun h => absurd f1 h⟩
    injection h with h
    rw [← h, s1]
  · simp only [q1, Res.ub_bind]
    refine ⟨fun r h => (nomatch h), fun h => absurd h ?_, fun _ => by trivial⟩
    tauto

/-- C72: `compAdd` and `compMul` of a `vec3`. -/
theorem C72_vec3_sum (v : V3 ℝ) :
    V3.compAdd v = ∑ i, coord v i ∧ V3.compMul v = ∏ i, coord v i := by
  simp only [Fin.sum_univ_succ, Fin.prod_univ_succ, Fin.sum_univ_zero, Fin.prod_univ_zero]
  constructor
  · show v.x + v.y + v.z = v.x + (v.y + (v.z + 0))
    ring
  · show v.x * v.y * v.z = v.x * (v.y * (v.z * 1))
    ring

/-- C72: the components may come in any order. -/
theorem C72_vec3_order (v w : V3 ℝ) (σ : Equiv.Perm (Fin 3)) (h : ∀ i, coord w i = coord v (σ i)) :
    V3.compAdd w = V3.compAdd v ∧ V3.compMul w = V3.compMul v := by
  rw [(C72_vec3_sum w).1, (C72_vec3_sum w).2, (C72_vec3_sum v).1, (C72_vec3_sum v).2]
  simp only [h]
  exact ⟨Equiv.sum_comp σ _, Equiv.prod_comp σ _⟩

/-- C72: `compMin` of a `vec3`, exact arithmetic. -/
theorem C72_vec3_min (v : V3 ℝ) : IsLeastOf (coord v) (V3.compMin v) := by
  simp only [V3.compMin, fmin_real]
  constructor
  · rcases min_choice v.x (min v.y v.z) with h | h
    · exact ⟨0, h⟩
    · rcases min_choice v.y v.z with h' | h'
      · exact ⟨1, h.trans h'⟩
      · exact ⟨2, h.trans h'⟩
  · intro i
    fin_cases i <;> simp [coord]

/-- C72: `compMin` of a `vec3` of floats without NaN. -/
theorem C72_vec3_min_float (v : V3 F32) (h : ∀ i, coord v i ≠ .nan) :
    IsLeastOf (coord v) (V3.compMin v) := by
  have h0 : v.x ≠ .nan := h 0
  have h1 : v.y ≠ .nan := h 1
  have h2 : v.z ≠ .nan := h 2
  obtain ⟨l1, l2, l3⟩ := F32.min_key h1 h2
  obtain ⟨k1, k2, k3⟩ := F32.min_key h0 l1
  constructor
  · rcases k3 with k | k
    · exact ⟨0, k⟩
    · rcases l3 with l | l
      · exact ⟨1, k.trans l⟩
      · exact ⟨2, k.trans l⟩
  · intro i
    fin_cases i
    · exact F32.le_iff.2 ⟨k1, h0, by show (V3.compMin v).key ≤ v.x.key; simp only [V3.compMin]; omega⟩
    · exact F32.le_iff.2 ⟨k1, h1, by show (V3.compMin v).key ≤ v.y.key; simp only [V3.compMin]; omega⟩
    · exact F32.le_iff.2 ⟨k1, h2, by show (V3.compMin v).key ≤ v.z.key; simp only [V3.compMin]; omega⟩

/-- C72: `compMin` of an `ivec3`. -/
theorem C72_ivec3_min (v : V3 I32) : IsLeastOf (icoord v) (IV3.compMin v).toInt := by
  simp only [IV3.compMin, imin_toInt]
  constructor
  · rcases min_choice v.x.toInt (min v.y.toInt v.z.toInt) with h | h
    · exact ⟨0, h⟩
    · rcases min_choice v.y.toInt v.z.toInt with h' | h'
      · exact ⟨1, h.trans h'⟩
      · exact ⟨2, h.trans h'⟩
  · intro i
    fin_cases i <;> simp [icoord, coord]

/-- C72: `compMax` of a `vec3`, exact arithmetic. -/
theorem C72_vec3_max (v : V3 ℝ) : IsGreatestOf (coord v) (V3.compMax v) := by
  simp only [V3.compMax, fmax_real]
  constructor
  · rcases max_choice v.x (max v.y v.z) with h | h
    · exact ⟨0, h⟩
    · rcases max_choice v.y v.z with h' | h'
      · exact ⟨1, h.trans h'⟩
      · exact ⟨2, h.trans h'⟩
  · intro i
    fin_cases i <;> simp [coord]

/-- C72: `compMax` of a `vec3` of floats without NaN. -/
theorem C72_vec3_max_float (v : V3 F32) (h : ∀ i, coord v i ≠ .nan) :
    IsGreatestOf (coord v) (V3.compMax v) := by
  have h0 : v.x ≠ .nan := h 0
  have h1 : v.y ≠ .nan := h 1
  have h2 : v.z ≠ .nan := h 2
  obtain ⟨l1, l2, l3⟩ := F32.max_key h1 h2
  obtain ⟨k1, k2, k3⟩ := F32.max_key h0 l1
  constructor
  · rcases k3 with k | k
    · exact ⟨0, k⟩
    · rcases l3 with l | l
      · exact ⟨1, k.trans l⟩
      · exact ⟨2, k.trans l⟩
  · intro i
    fin_cases i
    · exact F32.le_iff.2 ⟨h0, k1, by show v.x.key ≤ (V3.compMax v).key; simp only [V3.compMax]; omega⟩
    · exact F32.le_iff.2 ⟨h1, k1, by show v.y.key ≤ (V3.compMax v).key; simp only [V3.compMax]; omega⟩
    · exact F32.le_iff.2 ⟨h2, k1, by show v.z.key ≤ (V3.compMax v).key; simp only [V3.compMax]; omega⟩

/-- C72: `compMax` of an `ivec3`. -/
theorem C72_ivec3_max (v : V3 I32) : IsGreatestOf (icoord v) (IV3.compMax v).toInt := by
  simp only [IV3.compMax, imax_toInt]
  constructor
  · rcases max_choice v.x.toInt (max v.y.toInt v.z.toInt) with h | h
    · exact ⟨0, h⟩
    · rcases max_choice v.y.toInt v.z.toInt with h' | h'
      · exact ⟨1, h.trans h'⟩
      · exact ⟨2, h.trans h'⟩
  · intro i
    fin_cases i <;> simp [icoord, coord]

/-- C72: `compAdd` of an `ivec3`: the sum, undefined exactly when a partial sum overflows. -/
theorem C72_ivec3_add (v : V3 I32) :
    (∀ r, IV3.compAdd v = .ok r → r.toInt = ∑ i, icoord v i) ∧
    (FitsInt32 (icoord v 0 + icoord v 1) ∧ FitsInt32 (icoord v 0 + icoord v 1 + icoord v 2) → ∃ r, IV3.compAdd v = .ok r) ∧
    (¬ (FitsInt32 (icoord v 0 + icoord v 1) ∧ FitsInt32 (icoord v 0 + icoord v 1 + icoord v 2)) → IV3.compAdd v = .ub) := by
  have hs : ∑ i, icoord v i = v.x.toInt + v.y.toInt + v.z.toInt := by
    simp only [Fin.sum_univ_succ, Fin.sum_univ_zero]
    show v.x.toInt + (v.y.toInt + (v.z.toInt + 0)) = _
    ring
  rw [hs]
  simp only [show ∀ i, icoord v i = (coord v i).toInt from fun _ => rfl]
  have e0 : coord v 0 = v.x := rfl
  have e1 : coord v 1 = v.y := rfl
  have e2 : coord v 2 = v.z := rfl
  simp only [e0, e1, e2, IV3.compAdd]
  rcases add_cases v.x v.y with ⟨f1, r1, q1, s1⟩ | ⟨f1, q1⟩
  · simp only [q1, Res.ok_bind]
    rcases add_cases r1 v.z with ⟨f2, r2, q2, s2⟩ | ⟨f2, q2⟩
    · rw [s1] at f2 s2
      simp only [q2, Res.ok_bind]
      refine ⟨fun r h => ?_, fun _ => ⟨_, rfl⟩, fun h => absurd ⟨f1, f2⟩ h⟩
      injection h with h
      rw [← h, s2]
    · rw [s1] at f2
      simp only [q2, Res.ub_bind]
      refine ⟨fun r h => (nomatch h), fun h => absurd h ?_, fun _ => by trivial⟩
      tauto
  · simp only [q1, Res.ub_bind]
    refine ⟨fun r h => (nomatch h), fun h => absurd h ?_, fun _ => by trivial⟩
    tauto

/-- C72: `compMul` of an `ivec3`: the product, undefined exactly when a partial product overflows. -/
theorem C72_ivec3_mul (v : V3 I32) :
    (∀ r, IV3.compMul v = .ok r → r.toInt = ∏ i, icoord v i) ∧
    (FitsInt32 (icoord v 0 * icoord v 1) ∧ FitsInt32 (icoord v 0 * icoord v 1 * icoord v 2) → ∃ r, IV3.compMul v = .ok r) ∧
    (¬ (FitsInt32 (icoord v 0 * icoord v 1) ∧ FitsInt32 (icoord v 0 * icoord v 1 * icoord v 2)) → IV3.compMul v = .ub) := by
  have hs : ∏ i, icoord v i = v.x.toInt * v.y.toInt * v.z.toInt := by
    simp only [Fin.prod_univ_succ, Fin.prod_univ_zero]
    show v.x.toInt * (v.y.toInt * (v.z.toInt * 1)) = _
    ring
  rw [hs]
  simp only [show ∀ i, icoord v i = (coord v i).toInt from fun _ => rfl]
  have e0 : coord v 0 = v.x := rfl
  have e1 : coord v 1 = v.y := rfl
  have e2 : coord v 2 = v.z := rfl
  simp only [e0, e1, e2, IV3.compMul]
  rcases mul_cases v.x v.y with ⟨f1, r1, q1, s1⟩ | ⟨f1, q1⟩
  · simp only [q1, Res.ok_bind]
    rcases mul_cases r1 v.z with ⟨f2, r2, q2, s2⟩ | ⟨f2, q2⟩
    · rw [s1] at f2 s2
      simp only [q2, Res.ok_bind]
      refine ⟨fun r h => ?_, fun _ => ⟨_, rfl⟩, fun h => absurd ⟨f1, f2⟩ h⟩
      injection h with h
      rw [← h, s2]
    · rw [s1] at f2
      simp only [q2, Res.ub_bind]
      refine ⟨fun r h => (nomatch h), fun h => absurd h ?_, fun _ => by trivial⟩
      tauto
  · simp only [q1, Res.ub_bind]
    refine ⟨fun r h => (nomatch h), fun h => absurd h ?_, fun _ => by trivial⟩
    tauto

/-- C72: `compAdd` and `compMul` of a `vec4`. -/
theorem C72_vec4_sum (v : V4 ℝ) :
    V4.compAdd v = ∑ i, coord v i ∧ V4.compMul v = ∏ i, coord v i := by
  simp only [Fin.sum_univ_succ, Fin.prod_univ_succ, Fin.sum_univ_zero, Fin.prod_univ_zero]
  constructor
  · show v.x + v.y + v.z + v.w = v.x + (v.y + (v.z + (v.w + 0)))
    ring
  · show v.x * v.y * v.z * v.w = v.x * (v.y * (v.z * (v.w * 1)))
    ring

/-- C72: the components may come in any order. -/
theorem C72_vec4_order (v w : V4 ℝ) (σ : Equiv.Perm (Fin 4)) (h : ∀ i, coord w i = coord v (σ i)) :
    V4.compAdd w = V4.compAdd v ∧ V4.compMul w = V4.compMul v := by
  rw [(C72_vec4_sum w).1, (C72_vec4_sum w).2, (C72_vec4_sum v).1, (C72_vec4_sum v).2]
  simp only [h]
  exact ⟨Equiv.sum_comp σ _, Equiv.prod_comp σ _⟩

/-- C72: `compMin` of a `vec4`, exact arithmetic. -/
theorem C72_vec4_min (v : V4 ℝ) : IsLeastOf (coord v) (V4.compMin v) := by
  simp only [V4.compMin, fmin_real]
  constructor
  · rcases min_choice (min v.x v.y) (min v.z v.w) with h | h
    · rcases min_choice v.x v.y with h' | h'
      · exact ⟨0, h.trans h'⟩
      · exact ⟨1, h.trans h'⟩
    · rcases min_choice v.z v.w with h' | h'
      · exact ⟨2, h.trans h'⟩
      · exact ⟨3, h.trans h'⟩
  · intro i
    fin_cases i <;> simp [coord]

/-- C72: `compMin` of a `vec4` of floats without NaN. -/
theorem C72_vec4_min_float (v : V4 F32) (h : ∀ i, coord v i ≠ .nan) :
    IsLeastOf (coord v) (V4.compMin v) := by
  have h0 : v.x ≠ .nan := h 0
  have h1 : v.y ≠ .nan := h 1
  have h2 : v.z ≠ .nan := h 2
  have h3 : v.w ≠ .nan := h 3
  obtain ⟨l1, l2, l3⟩ := F32.min_key h0 h1
  obtain ⟨m1, m2, m3⟩ := F32.min_key h2 h3
  obtain ⟨k1, k2, k3⟩ := F32.min_key l1 m1
  constructor
  · rcases k3 with k | k
    · rcases l3 with l | l
      · exact ⟨0, k.trans l⟩
      · exact ⟨1, k.trans l⟩
    · rcases m3 with l | l
      · exact ⟨2, k.trans l⟩
      · exact ⟨3, k.trans l⟩
  · intro i
    fin_cases i
    · exact F32.le_iff.2 ⟨k1, h0, by show (V4.compMin v).key ≤ v.x.key; simp only [V4.compMin]; omega⟩
    · exact F32.le_iff.2 ⟨k1, h1, by show (V4.compMin v).key ≤ v.y.key; simp only [V4.compMin]; omega⟩
    · exact F32.le_iff.2 ⟨k1, h2, by show (V4.compMin v).key ≤ v.z.key; simp only [V4.compMin]; omega⟩
    · exact F32.le_iff.2 ⟨k1, h3, by show (V4.compMin v).key ≤ v.w.key; simp only [V4.compMin]; omega⟩

/-- C72: `compMin` of an `ivec4`. -/
theorem C72_ivec4_min (v : V4 I32) : IsLeastOf (icoord v) (IV4.compMin v).toInt := by
  simp only [IV4.compMin, imin_toInt]
  constructor
  · rcases min_choice (min v.x.toInt v.y.toInt) (min v.z.toInt v.w.toInt) with h | h
    · rcases min_choice v.x.toInt v.y.toInt with h' | h'
      · exact ⟨0, h.trans h'⟩
      · exact ⟨1, h.trans h'⟩
    · rcases min_choice v.z.toInt v.w.toInt with h' | h'
      · exact ⟨2, h.trans h'⟩
      · exact ⟨3, h.trans h'⟩
  · intro i
    fin_cases i <;> simp [icoord, coord]

/-- C72: `compMax` of a `vec4`, exact arithmetic. -/
theorem C72_vec4_max (v : V4 ℝ) : IsGreatestOf (coord v) (V4.compMax v) := by
  simp only [V4.compMax, fmax_real]
  constructor
  · rcases max_choice (max v.x v.y) (max v.z v.w) with h | h
    · rcases max_choice v.x v.y with h' | h'
      · exact ⟨0, h.trans h'⟩
      · exact ⟨1, h.trans h'⟩
    · rcases max_choice v.z v.w with h' | h'
      · exact ⟨2, h.trans h'⟩
      · exact ⟨3, h.trans h'⟩
  · intro i
    fin_cases i <;> simp [coord]

/-- C72: `compMax` of a `vec4` of floats without NaN. -/
theorem C72_vec4_max_float (v : V4 F32) (h : ∀ i, coord v i ≠ .nan) :
    IsGreatestOf (coord v) (V4.compMax v) := by
  have h0 : v.x ≠ .nan := h 0
  have h1 : v.y ≠ .nan := h 1
  have h2 : v.z ≠ .nan := h 2
  have h3 : v.w ≠ .nan := h 3
  obtain ⟨l1, l2, l3⟩ := F32.max_key h0 h1
  obtain ⟨m1, m2, m3⟩ := F32.max_key h2 h3
  obtain ⟨k1, k2, k3⟩ := F32.max_key l1 m1
  constructor
  · rcases k3 with k | k
    · rcases l3 with l | l
      · exact ⟨0, k.trans l⟩
      · exact ⟨1, k.trans l⟩
    · rcases m3 with l | l
      · exact ⟨2, k.trans l⟩
      · exact ⟨3, k.trans l⟩
  · intro i
    fin_cases i
    · exact F32.le_iff.2 ⟨h0, k1, by show v.x.key ≤ (V4.compMax v).key; simp only [V4.compMax]; omega⟩
    · exact F32.le_iff.2 ⟨h1, k1, by show v.y.key ≤ (V4.compMax v).key; simp only [V4.compMax]; omega⟩
    · exact F32.le_iff.2 ⟨h2, k1, by show v.z.key ≤ (V4.compMax v).key; simp only [V4.compMax]; omega⟩
    · exact F32.le_iff.2 ⟨h3, k1, by show v.w.key ≤ (V4.compMax v).key; simp only [V4.compMax]; omega⟩

/-- C72: `compMax` of an `ivec4`. -/
theorem C72_ivec4_max (v : V4 I32) : IsGreatestOf (icoord v) (IV4.compMax v).toInt := by
  simp only [IV4.compMax, imax_toInt]
  constructor
  · rcases max_choice (max v.x.toInt v.y.toInt) (max v.z.toInt v.w.toInt) with h | h
    · rcases max_choice v.x.toInt v.y.toInt with h' | h'
      · exact ⟨0, h.trans h'⟩
      · exact ⟨1, h.trans h'⟩
    · rcases max_choice v.z.toInt v.w.toInt with h' | h'
      · exact ⟨2, h.trans h'⟩
      · exact ⟨3, h.trans h'⟩
  · intro i
    fin_cases i <;> simp [icoord, coord]

/-- C72: `compAdd` of an `ivec4`: the sum, undefined exactly when a partial sum overflows. -/
theorem C72_ivec4_add (v : V4 I32) :
    (∀ r, IV4.compAdd v = .ok r → r.toInt = ∑ i, icoord v i) ∧
    (FitsInt32 (icoord v 0 + icoord v 1) ∧ FitsInt32 (icoord v 0 + icoord v 1 + icoord v 2) ∧ FitsInt32 (icoord v 0 + icoord v 1 + icoord v 2 + icoord v 3) → ∃ r, IV4.compAdd v = .ok r) ∧
    (¬ (FitsInt32 (icoord v 0 + icoord v 1) ∧ FitsInt32 (icoord v 0 + icoord v 1 + icoord v 2) ∧ FitsInt32 (icoord v 0 + icoord v 1 + icoord v 2 + icoord v 3)) → IV4.compAdd v = .ub) := by
  have hs : ∑ i, icoord v i = v.x.toInt + v.y.toInt + v.z.toInt + v.w.toInt := by
    simp only [Fin.sum_univ_succ, Fin.sum_univ_zero]
    show v.x.toInt + (v.y.toInt + (v.z.toInt + (v.w.toInt + 0))) = _
    ring
  rw [hs]
  simp only [show ∀ i, icoord v i = (coord v i).toInt from fun _ => rfl]
  have e0 : coord v 0 = v.x := rfl
  have e1 : coord v 1 = v.y := rfl
  have e2 : coord v 2 = v.z := rfl
  have e3 : coord v 3 = v.w := rfl
  simp only [e0, e1, e2, e3, IV4.compAdd]
  rcases add_cases v.x v.y with ⟨f1, r1, q1, s1⟩ | ⟨f1, q1⟩
  · simp only [q1, Res.ok_bind]
    rcases add_cases r1 v.z with ⟨f2, r2, q2, s2⟩ | ⟨f2, q2⟩
    · rw [s1] at f2 s2
      simp only [q2, Res.ok_bind]
      rcases add_cases r2 v.w with ⟨f3, r3, q3, s3⟩ | ⟨f3, q3⟩
      · rw [s2] at f3 s3
        simp only [q3, Res.ok_bind]
        refine ⟨fun r h => ?_, fun _ => ⟨_, rfl⟩, fun h => absurd ⟨f1, f2, f3⟩ h⟩
        injection h with h
        rw [← h, s3]
      · rw [s2] at f3
        simp only [q3, Res.ub_bind]
        refine ⟨fun r h => (nomatch h), fun h => absurd h ?_, fun _ => by trivial⟩
        tauto
    · rw [s1] at f2
      simp only [q2, Res.ub_bind]
      refine ⟨fun r h => (nomatch h), fun h => absurd h ?_, fun _ => by trivial⟩
      tauto
  · simp only [q1, Res.ub_bind]
    refine ⟨fun r h => (nomatch h), fun h => absurd h ?_, fun _ => by trivial⟩
    tauto

/-- C72: `compMul` of an `ivec4`: the product, undefined exactly when a partial product overflows. -/
theorem C72_ivec4_mul (v : V4 I32) :
    (∀ r, IV4.compMul v = .ok r → r.toInt = ∏ i, icoord v i) ∧
    (FitsInt32 (icoord v 0 * icoord v 1) ∧ FitsInt32 (icoord v 0 * icoord v 1 * icoord v 2) ∧ FitsInt32 (icoord v 0 * icoord v 1 * icoord v 2 * icoord v 3) → ∃ r, IV4.compMul v = .ok r) ∧
    (¬ (FitsInt32 (icoord v 0 * icoord v 1) ∧ FitsInt32 (icoord v 0 * icoord v 1 * icoord v 2) ∧ FitsInt32 (icoord v 0 * icoord v 1 * icoord v 2 * icoord v 3)) → IV4.compMul v = .ub) := by
  have hs : ∏ i, icoord v i = v.x.toInt * v.y.toInt * v.z.toInt * v.w.toInt := by
    simp only [Fin.prod_univ_succ, Fin.prod_univ_zero]
    show v.x.toInt * (v.y.toInt * (v.z.toInt * (v.w.toInt * 1))) = _
    ring
  rw [hs]
  simp only [show ∀ i, icoord v i = (coord v i).toInt from fun _ => rfl]
  have e0 : coord v 0 = v.x := rfl
  have e1 : coord v 1 = v.y := rfl
  have e2 : coord v 2 = v.z := rfl
  have e3 : coord v 3 = v.w := rfl
  simp only [e0, e1, e2, e3, IV4.compMul]
  rcases mul_cases v.x v.y with ⟨f1, r1, q1, s1⟩ | ⟨f1, q1⟩
  · simp only [q1, Res.ok_bind]
    rcases mul_cases r1 v.z with ⟨f2, r2, q2, s2⟩ | ⟨f2, q2⟩
    · rw [s1] at f2 s2
      simp only [q2, Res.ok_bind]
      rcases mul_cases r2 v.w with ⟨f3, r3, q3, s3⟩ | ⟨f3, q3⟩
      · rw [s2] at f3 s3
        simp only [q3, Res.ok_bind]
        refine ⟨fun r h => ?_, fun _ => ⟨_, rfl⟩, fun h => absurd ⟨f1, f2, f3⟩ h⟩
        injection h with h
        rw [← h, s3]
      · rw [s2] at f3
        simp only [q3, Res.ub_bind]
        refine ⟨fun r h => (nomatch h), fun h => absurd h ?_, fun _ => by trivial⟩
        tauto
    · rw [s1] at f2
      simp only [q2, Res.ub_bind]
      refine ⟨fun r h => (nomatch h), fun h => absurd h ?_, fun _ => by trivial⟩
      tauto
  · simp only [q1, Res.ub_bind]
    refine ⟨fun r h => (nomatch h), fun h => absurd h ?_, fun _ => by trivial⟩
    tauto

/-- non-vacuity: the order of the additions decides whether the sum of three ints is defined -/
example : IV3.compAdd ⟨⟨2147483647#32⟩, ⟨1#32⟩, ⟨-1#32⟩⟩ = .ub ∧
    IV3.compAdd ⟨⟨1#32⟩, ⟨-1#32⟩, ⟨2147483647#32⟩⟩ = .ok ⟨2147483647#32⟩ := by decide

example : V3.compMin (⟨3, 1, 2⟩ : V3 ℝ) = 1 ∧ V3.compAdd (⟨3, 1, 2⟩ : V3 ℝ) = 6 := by
  constructor
  · norm_num [V3.compMin, F.min]
  · norm_num [V3.compAdd]

example : ∀ i, coord (⟨lit 3, lit 1⟩ : V2 F32) i ≠ .nan := by decide +kernel

end Zcm
