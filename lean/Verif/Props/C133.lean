import Verif.Spec.Coord
import Verif.Model.Geometric
import Verif.Lemmas.F32Axis
import Mathlib.Tactic.FinCases

/-!
# C133  Results that carry no rounding error at all

Binary32 results that are exact although the operations round: lengths and distances along a coordinate axis, differences of
nearby numbers, and where a midpoint lies.
-/

set_option exponentiation.threshold 300

namespace Zcm

open F32

/-- the range in which squares neither over- nor underflow -/
def SquareFits (x : F32) : Prop := x.IsFin = true ∧ 1 / 2 ^ 63 ≤ |x.val| ∧ |x.val| < 2 ^ 64

/-- C133: `sqrt(x * x)` is the magnitude of `x`, bit for bit. -/
theorem C133_sqrt (x : F32) (h : SquareFits x) : F.sqrt (x * x) = F.abs x := sqrt_sq_exact h.1 h.2.1 h.2.2

/-- C133: outside these limits the equality fails: at `2^64` the square overflows, and below `2^-63` there are numbers for
which the root is not the magnitude. -/
theorem C133_sqrt_limits :
    (let x : F32 := lit (2 ^ 64)
     x.IsFin = true ∧ x.val = 2 ^ 64 ∧ F.sqrt (x * x) = .inf false) ∧
    (let x : F32 := lit (16773120 / 2 ^ 87)
     x.IsFin = true ∧ x.val = 1 / 2 ^ 63 * (1 - 1 / 2 ^ 12) ∧ F.sqrt (x * x) ≠ F.abs x) := by
  refine ⟨⟨?_, ?_, ?_⟩, ⟨?_, ?_, ?_⟩⟩ <;> decide +kernel

theorem isZ_sub {a b : F32} (fa : a.IsFin = true) (h : (a == b) = true) : IsZ (a - b) := by
  obtain ⟨h1, h2, h3⟩ := beq_iff.1 h
  have fb : b.IsFin = true := by
    rw [isFin_iff h2, ← h3]; exact key_bound_fin fa
  rw [sub_fin fa fb, key_eq_iff.1 h3, sub_self]
  exact isZ_round _

theorem beq_zero_of_isZ {z : F32} (h : IsZ z) : (z == lit 0) = true :=
  beq_iff.2 ⟨isFin_ne_nan h.1, isFin_ne_nan isFin_lit_zero, by rw [key_lit_zero]; exact key_eq_zero.2 h.2⟩

/-- C133, differences of floats: within a factor of two they are exact, and a difference is zero only for equal numbers. -/
theorem C133_difference (a b : F32) (ha : a.IsFin = true) (hb : b.IsFin = true) :
    (0 ≤ a.val * b.val → |a.val| ≤ 2 * |b.val| → |b.val| ≤ 2 * |a.val| →
      (a - b).IsFin = true ∧ (a - b).val = a.val - b.val) ∧
    ((a - b == lit 0) = true ↔ (a == b) = true) := by
  refine ⟨sterbenz ha hb, fun h => ?_, fun h => beq_zero_of_isZ (isZ_sub ha h)⟩
  have := (sub_isZ_iff ha hb).1 (isZ_of_beq h).2
  exact beq_iff.2 ⟨isFin_ne_nan ha, isFin_ne_nan hb, key_eq_iff.2 this⟩

theorem vec2_dot_axis (v : V2 F32) (i : Fin 2) (hz : ∀ j, j ≠ i → (coord v j == lit 0) = true)
    (h : SquareFits (coord v i)) : V2.dot v v = coord v i * coord v i := by
  have f := sq_fin_of_lt h.1 h.2.2
  have g := sgn_sq h.1
  have z : ∀ j, j ≠ i → coord v j * coord v j = lit 0 := fun j hj => sq_isZ (isZ_of_beq (hz j hj))
  have s := add_lit_zero f g
  have s' := lit_zero_add f g
  have o : (lit 0 : F32) + lit 0 = lit 0 := by decide +kernel
  change coord v 0 * coord v 0 + coord v 1 * coord v 1 = _
  fin_cases i
  · rw [z 1 (by decide)]
    simp only [Fin.zero_eta, Fin.mk_one, Fin.reduceFinMk] at s s' ⊢
    simp only [o, s, s']
  · rw [z 0 (by decide)]
    simp only [Fin.zero_eta, Fin.mk_one, Fin.reduceFinMk] at s s' ⊢
    simp only [o, s, s']

/-- C133, `length(vec2)` of a vector along a coordinate axis: exactly the magnitude of its one component. -/
theorem C133_vec2_length (v : V2 F32) (i : Fin 2) (hz : ∀ j, j ≠ i → (coord v j == lit 0) = true)
    (h : SquareFits (coord v i)) : V2.length v = F.abs (coord v i) := by
  change F.sqrt (V2.dot v v) = _
  rw [vec2_dot_axis v i hz h, C133_sqrt _ h]

/-- C133, `distance(vec2, vec2)` of points that differ in one coordinate: exactly the magnitude of the difference as computed. -/
theorem C133_vec2_distance (p q : V2 F32) (i : Fin 2) (hf : ∀ j, (coord p j).IsFin = true)
    (hz : ∀ j, j ≠ i → (coord p j == coord q j) = true) (h : SquareFits (coord p i - coord q i)) :
    V2.distance p q = F.abs (coord p i - coord q i) := by
  have e : ∀ j, coord (p - q) j = coord p j - coord q j := fun j => by fin_cases j <;> rfl
  rw [← e]
  refine C133_vec2_length (p - q) i (fun j hj => ?_) (by rw [e]; exact h)
  rw [e]
  exact beq_zero_of_isZ (isZ_sub (hf j) (hz j hj))

/-- C133, `normalize(vec2)` of a vector along a coordinate axis: the zeros stay as they are, and the component becomes 1 or
the number just below 1, with its sign; it becomes exactly 1 or -1 if its magnitude is a power of two. -/
theorem C133_vec2_normalize (v : V2 F32) (i : Fin 2) (hz : ∀ j, j ≠ i → (coord v j == lit 0) = true)
    (h : SquareFits (coord v i)) :
    (∀ j, j ≠ i → coord (V2.normalize v) j = coord v j) ∧ (coord (V2.normalize v) i).IsFin = true ∧
    ((coord (V2.normalize v) i).val = (coord v i).val / |(coord v i).val| ∨
      (coord (V2.normalize v) i).val = (coord v i).val / |(coord v i).val| * (1 - 1 / 2 ^ 24)) ∧
    (∀ k : ℤ, |(coord v i).val| = (2 : ℚ) ^ k →
      coord (V2.normalize v) i = if (coord v i).val < 0 then lit (-1) else lit 1) := by
  have e : ∀ j, coord (V2.normalize v) j = coord v j * (lit 1 / F.abs (coord v i)) := fun j => by
    have : lit 1 / F.abs (coord v i) = F.inversesqrt (V2.dot v v) := by
      rw [← C133_vec2_length v i hz h]; rfl
    rw [this]
    fin_cases j <;> rfl
  obtain ⟨f, p, g, m⟩ := mul_recip h.1 h.2.1 h.2.2
  rw [e i]
  refine ⟨fun j hj => ?_, g, m, fun k hk => mul_recip_pow h.1 h.2.1 h.2.2 k hk⟩
  rw [e j]
  exact zero_mul_pos (isZ_of_beq (hz j hj)) f p

/-- C133, differences of `vec2` per component: exact where the two are within a factor of two, and zero only where they are
equal. -/
theorem C133_vec2_difference (a b : V2 F32) (i : Fin 2) (ha : (coord a i).IsFin = true) (hb : (coord b i).IsFin = true) :
    (0 ≤ (coord a i).val * (coord b i).val → |(coord a i).val| ≤ 2 * |(coord b i).val| →
      |(coord b i).val| ≤ 2 * |(coord a i).val| →
      (coord (a - b) i).IsFin = true ∧ (coord (a - b) i).val = (coord a i).val - (coord b i).val) ∧
    ((coord (a - b) i == lit 0) = true ↔ (coord a i == coord b i) = true) := by
  have e : coord (a - b) i = coord a i - coord b i := by fin_cases i <;> rfl
  rw [e]
  exact C133_difference _ _ ha hb

/-- C133, the midpoint of two `vec2` points, computed as `(a + b) / 2` or `(a + b) * 0.5` (the same bits): every component lies
between those of the points, as long as the sum does not overflow. -/
theorem C133_vec2_midpoint (a b : V2 F32) (i : Fin 2) (hf : (coord (a + b) i).IsFin = true)
    (h : coord a i ≤ coord b i) :
    coord a i ≤ coord ((a + b) / (lit 2 : F32)) i ∧ coord ((a + b) / (lit 2 : F32)) i ≤ coord b i ∧
    coord ((b + a) / (lit 2 : F32)) i = coord ((a + b) / (lit 2 : F32)) i ∧
    coord ((a + b) * (lit 0.5 : F32)) i = coord ((a + b) / (lit 2 : F32)) i := by
  have e : coord (a + b) i = coord a i + coord b i := by fin_cases i <;> rfl
  have e1 : coord (b + a) i = coord b i + coord a i := by fin_cases i <;> rfl
  have e2 : coord ((a + b) / (lit 2 : F32)) i = coord (a + b) i / lit 2 := by fin_cases i <;> rfl
  have e3 : coord ((a + b) * (lit 0.5 : F32)) i = coord (a + b) i * lit 0.5 := by fin_cases i <;> rfl
  have e4 : coord ((b + a) / (lit 2 : F32)) i = coord (b + a) i / lit 2 := by fin_cases i <;> rfl
  rw [e] at hf
  obtain ⟨m, k⟩ := midpoint hf h
  rw [e2, e3, e4, e1, add_comm' (coord b i), e]
  exact ⟨m.1, m.2, rfl, k⟩

theorem vec3_dot_axis (v : V3 F32) (i : Fin 3) (hz : ∀ j, j ≠ i → (coord v j == lit 0) = true)
    (h : SquareFits (coord v i)) : V3.dot v v = coord v i * coord v i := by
  have f := sq_fin_of_lt h.1 h.2.2
  have g := sgn_sq h.1
  have z : ∀ j, j ≠ i → coord v j * coord v j = lit 0 := fun j hj => sq_isZ (isZ_of_beq (hz j hj))
  have s := add_lit_zero f g
  have s' := lit_zero_add f g
  have o : (lit 0 : F32) + lit 0 = lit 0 := by decide +kernel
  change coord v 0 * coord v 0 + coord v 1 * coord v 1 + coord v 2 * coord v 2 = _
  fin_cases i
  · rw [z 1 (by decide), z 2 (by decide)]
    simp only [Fin.zero_eta, Fin.mk_one, Fin.reduceFinMk] at s s' ⊢
    simp only [o, s, s']
  · rw [z 0 (by decide), z 2 (by decide)]
    simp only [Fin.zero_eta, Fin.mk_one, Fin.reduceFinMk] at s s' ⊢
    simp only [o, s, s']
  · rw [z 0 (by decide), z 1 (by decide)]
    simp only [Fin.zero_eta, Fin.mk_one, Fin.reduceFinMk] at s s' ⊢
    simp only [o, s, s']

/-- C133, `length(vec3)` of a vector along a coordinate axis: exactly the magnitude of its one component. -/
theorem C133_vec3_length (v : V3 F32) (i : Fin 3) (hz : ∀ j, j ≠ i → (coord v j == lit 0) = true)
    (h : SquareFits (coord v i)) : V3.length v = F.abs (coord v i) := by
  change F.sqrt (V3.dot v v) = _
  rw [vec3_dot_axis v i hz h, C133_sqrt _ h]

/-- C133, `distance(vec3, vec3)` of points that differ in one coordinate: exactly the magnitude of the difference as computed. -/
theorem C133_vec3_distance (p q : V3 F32) (i : Fin 3) (hf : ∀ j, (coord p j).IsFin = true)
    (hz : ∀ j, j ≠ i → (coord p j == coord q j) = true) (h : SquareFits (coord p i - coord q i)) :
    V3.distance p q = F.abs (coord p i - coord q i) := by
  have e : ∀ j, coord (p - q) j = coord p j - coord q j := fun j => by fin_cases j <;> rfl
  rw [← e]
  refine C133_vec3_length (p - q) i (fun j hj => ?_) (by rw [e]; exact h)
  rw [e]
  exact beq_zero_of_isZ (isZ_sub (hf j) (hz j hj))

/-- C133, `normalize(vec3)` of a vector along a coordinate axis: the zeros stay as they are, and the component becomes 1 or
the number just below 1, with its sign; it becomes exactly 1 or -1 if its magnitude is a power of two. -/
theorem C133_vec3_normalize (v : V3 F32) (i : Fin 3) (hz : ∀ j, j ≠ i → (coord v j == lit 0) = true)
    (h : SquareFits (coord v i)) :
    (∀ j, j ≠ i → coord (V3.normalize v) j = coord v j) ∧ (coord (V3.normalize v) i).IsFin = true ∧
    ((coord (V3.normalize v) i).val = (coord v i).val / |(coord v i).val| ∨
      (coord (V3.normalize v) i).val = (coord v i).val / |(coord v i).val| * (1 - 1 / 2 ^ 24)) ∧
    (∀ k : ℤ, |(coord v i).val| = (2 : ℚ) ^ k →
      coord (V3.normalize v) i = if (coord v i).val < 0 then lit (-1) else lit 1) := by
  have e : ∀ j, coord (V3.normalize v) j = coord v j * (lit 1 / F.abs (coord v i)) := fun j => by
    have : lit 1 / F.abs (coord v i) = F.inversesqrt (V3.dot v v) := by
      rw [← C133_vec3_length v i hz h]; rfl
    rw [this]
    fin_cases j <;> rfl
  obtain ⟨f, p, g, m⟩ := mul_recip h.1 h.2.1 h.2.2
  rw [e i]
  refine ⟨fun j hj => ?_, g, m, fun k hk => mul_recip_pow h.1 h.2.1 h.2.2 k hk⟩
  rw [e j]
  exact zero_mul_pos (isZ_of_beq (hz j hj)) f p

/-- C133, differences of `vec3` per component: exact where the two are within a factor of two, and zero only where they are
equal. -/
theorem C133_vec3_difference (a b : V3 F32) (i : Fin 3) (ha : (coord a i).IsFin = true) (hb : (coord b i).IsFin = true) :
    (0 ≤ (coord a i).val * (coord b i).val → |(coord a i).val| ≤ 2 * |(coord b i).val| →
      |(coord b i).val| ≤ 2 * |(coord a i).val| →
      (coord (a - b) i).IsFin = true ∧ (coord (a - b) i).val = (coord a i).val - (coord b i).val) ∧
    ((coord (a - b) i == lit 0) = true ↔ (coord a i == coord b i) = true) := by
  have e : coord (a - b) i = coord a i - coord b i := by fin_cases i <;> rfl
  rw [e]
  exact C133_difference _ _ ha hb

/-- C133, the midpoint of two `vec3` points, computed as `(a + b) / 2` or `(a + b) * 0.5` (the same bits): every component lies
between those of the points, as long as the sum does not overflow. -/
theorem C133_vec3_midpoint (a b : V3 F32) (i : Fin 3) (hf : (coord (a + b) i).IsFin = true)
    (h : coord a i ≤ coord b i) :
    coord a i ≤ coord ((a + b) / (lit 2 : F32)) i ∧ coord ((a + b) / (lit 2 : F32)) i ≤ coord b i ∧
    coord ((b + a) / (lit 2 : F32)) i = coord ((a + b) / (lit 2 : F32)) i ∧
    coord ((a + b) * (lit 0.5 : F32)) i = coord ((a + b) / (lit 2 : F32)) i := by
  have e : coord (a + b) i = coord a i + coord b i := by fin_cases i <;> rfl
  have e1 : coord (b + a) i = coord b i + coord a i := by fin_cases i <;> rfl
  have e2 : coord ((a + b) / (lit 2 : F32)) i = coord (a + b) i / lit 2 := by fin_cases i <;> rfl
  have e3 : coord ((a + b) * (lit 0.5 : F32)) i = coord (a + b) i * lit 0.5 := by fin_cases i <;> rfl
  have e4 : coord ((b + a) / (lit 2 : F32)) i = coord (b + a) i / lit 2 := by fin_cases i <;> rfl
  rw [e] at hf
  obtain ⟨m, k⟩ := midpoint hf h
  rw [e2, e3, e4, e1, add_comm' (coord b i), e]
  exact ⟨m.1, m.2, rfl, k⟩

theorem vec4_dot_axis (v : V4 F32) (i : Fin 4) (hz : ∀ j, j ≠ i → (coord v j == lit 0) = true)
    (h : SquareFits (coord v i)) : V4.dot v v = coord v i * coord v i := by
  have f := sq_fin_of_lt h.1 h.2.2
  have g := sgn_sq h.1
  have z : ∀ j, j ≠ i → coord v j * coord v j = lit 0 := fun j hj => sq_isZ (isZ_of_beq (hz j hj))
  have s := add_lit_zero f g
  have s' := lit_zero_add f g
  have o : (lit 0 : F32) + lit 0 = lit 0 := by decide +kernel
  change coord v 0 * coord v 0 + coord v 1 * coord v 1 + coord v 2 * coord v 2 + coord v 3 * coord v 3 = _
  fin_cases i
  · rw [z 1 (by decide), z 2 (by decide), z 3 (by decide)]
    simp only [Fin.zero_eta, Fin.mk_one, Fin.reduceFinMk] at s s' ⊢
    simp only [o, s, s']
  · rw [z 0 (by decide), z 2 (by decide), z 3 (by decide)]
    simp only [Fin.zero_eta, Fin.mk_one, Fin.reduceFinMk] at s s' ⊢
    simp only [o, s, s']
  · rw [z 0 (by decide), z 1 (by decide), z 3 (by decide)]
    simp only [Fin.zero_eta, Fin.mk_one, Fin.reduceFinMk] at s s' ⊢
    simp only [o, s, s']
  · rw [z 0 (by decide), z 1 (by decide), z 2 (by decide)]
    simp only [Fin.zero_eta, Fin.mk_one, Fin.reduceFinMk] at s s' ⊢
    simp only [o, s, s']

/-- C133, `length(vec4)` of a vector along a coordinate axis: exactly the magnitude of its one component. -/
theorem C133_vec4_length (v : V4 F32) (i : Fin 4) (hz : ∀ j, j ≠ i → (coord v j == lit 0) = true)
    (h : SquareFits (coord v i)) : V4.length v = F.abs (coord v i) := by
  change F.sqrt (V4.dot v v) = _
  rw [vec4_dot_axis v i hz h, C133_sqrt _ h]

/-- C133, `distance(vec4, vec4)` of points that differ in one coordinate: exactly the magnitude of the difference as computed. -/
theorem C133_vec4_distance (p q : V4 F32) (i : Fin 4) (hf : ∀ j, (coord p j).IsFin = true)
    (hz : ∀ j, j ≠ i → (coord p j == coord q j) = true) (h : SquareFits (coord p i - coord q i)) :
    V4.distance p q = F.abs (coord p i - coord q i) := by
  have e : ∀ j, coord (p - q) j = coord p j - coord q j := fun j => by fin_cases j <;> rfl
  rw [← e]
  refine C133_vec4_length (p - q) i (fun j hj => ?_) (by rw [e]; exact h)
  rw [e]
  exact beq_zero_of_isZ (isZ_sub (hf j) (hz j hj))

/-- C133, `normalize(vec4)` of a vector along a coordinate axis: the zeros stay as they are, and the component becomes 1 or
the number just below 1, with its sign; it becomes exactly 1 or -1 if its magnitude is a power of two. -/
theorem C133_vec4_normalize (v : V4 F32) (i : Fin 4) (hz : ∀ j, j ≠ i → (coord v j == lit 0) = true)
    (h : SquareFits (coord v i)) :
    (∀ j, j ≠ i → coord (V4.normalize v) j = coord v j) ∧ (coord (V4.normalize v) i).IsFin = true ∧
    ((coord (V4.normalize v) i).val = (coord v i).val / |(coord v i).val| ∨
      (coord (V4.normalize v) i).val = (coord v i).val / |(coord v i).val| * (1 - 1 / 2 ^ 24)) ∧
    (∀ k : ℤ, |(coord v i).val| = (2 : ℚ) ^ k →
      coord (V4.normalize v) i = if (coord v i).val < 0 then lit (-1) else lit 1) := by
  have e : ∀ j, coord (V4.normalize v) j = coord v j * (lit 1 / F.abs (coord v i)) := fun j => by
    have : lit 1 / F.abs (coord v i) = F.inversesqrt (V4.dot v v) := by
      rw [← C133_vec4_length v i hz h]; rfl
    rw [this]
    fin_cases j <;> rfl
  obtain ⟨f, p, g, m⟩ := mul_recip h.1 h.2.1 h.2.2
  rw [e i]
  refine ⟨fun j hj => ?_, g, m, fun k hk => mul_recip_pow h.1 h.2.1 h.2.2 k hk⟩
  rw [e j]
  exact zero_mul_pos (isZ_of_beq (hz j hj)) f p

/-- C133, differences of `vec4` per component: exact where the two are within a factor of two, and zero only where they are
equal. -/
theorem C133_vec4_difference (a b : V4 F32) (i : Fin 4) (ha : (coord a i).IsFin = true) (hb : (coord b i).IsFin = true) :
    (0 ≤ (coord a i).val * (coord b i).val → |(coord a i).val| ≤ 2 * |(coord b i).val| →
      |(coord b i).val| ≤ 2 * |(coord a i).val| →
      (coord (a - b) i).IsFin = true ∧ (coord (a - b) i).val = (coord a i).val - (coord b i).val) ∧
    ((coord (a - b) i == lit 0) = true ↔ (coord a i == coord b i) = true) := by
  have e : coord (a - b) i = coord a i - coord b i := by fin_cases i <;> rfl
  rw [e]
  exact C133_difference _ _ ha hb

/-- C133, the midpoint of two `vec4` points, computed as `(a + b) / 2` or `(a + b) * 0.5` (the same bits): every component lies
between those of the points, as long as the sum does not overflow. -/
theorem C133_vec4_midpoint (a b : V4 F32) (i : Fin 4) (hf : (coord (a + b) i).IsFin = true)
    (h : coord a i ≤ coord b i) :
    coord a i ≤ coord ((a + b) / (lit 2 : F32)) i ∧ coord ((a + b) / (lit 2 : F32)) i ≤ coord b i ∧
    coord ((b + a) / (lit 2 : F32)) i = coord ((a + b) / (lit 2 : F32)) i ∧
    coord ((a + b) * (lit 0.5 : F32)) i = coord ((a + b) / (lit 2 : F32)) i := by
  have e : coord (a + b) i = coord a i + coord b i := by fin_cases i <;> rfl
  have e1 : coord (b + a) i = coord b i + coord a i := by fin_cases i <;> rfl
  have e2 : coord ((a + b) / (lit 2 : F32)) i = coord (a + b) i / lit 2 := by fin_cases i <;> rfl
  have e3 : coord ((a + b) * (lit 0.5 : F32)) i = coord (a + b) i * lit 0.5 := by fin_cases i <;> rfl
  have e4 : coord ((b + a) / (lit 2 : F32)) i = coord (b + a) i / lit 2 := by fin_cases i <;> rfl
  rw [e] at hf
  obtain ⟨m, k⟩ := midpoint hf h
  rw [e2, e3, e4, e1, add_comm' (coord b i), e]
  exact ⟨m.1, m.2, rfl, k⟩

theorem quat_dot_axis (v : Quat F32) (i : Fin 4) (hz : ∀ j, j ≠ i → (coord v j == lit 0) = true)
    (h : SquareFits (coord v i)) : Quat.dot v v = coord v i * coord v i := by
  have f := sq_fin_of_lt h.1 h.2.2
  have g := sgn_sq h.1
  have z : ∀ j, j ≠ i → coord v j * coord v j = lit 0 := fun j hj => sq_isZ (isZ_of_beq (hz j hj))
  have s := add_lit_zero f g
  have s' := lit_zero_add f g
  have o : (lit 0 : F32) + lit 0 = lit 0 := by decide +kernel
  change coord v 0 * coord v 0 + coord v 1 * coord v 1 + coord v 2 * coord v 2 + coord v 3 * coord v 3 = _
  fin_cases i
  · rw [z 1 (by decide), z 2 (by decide), z 3 (by decide)]
    simp only [Fin.zero_eta, Fin.mk_one, Fin.reduceFinMk] at s s' ⊢
    simp only [o, s, s']
  · rw [z 0 (by decide), z 2 (by decide), z 3 (by decide)]
    simp only [Fin.zero_eta, Fin.mk_one, Fin.reduceFinMk] at s s' ⊢
    simp only [o, s, s']
  · rw [z 0 (by decide), z 1 (by decide), z 3 (by decide)]
    simp only [Fin.zero_eta, Fin.mk_one, Fin.reduceFinMk] at s s' ⊢
    simp only [o, s, s']
  · rw [z 0 (by decide), z 1 (by decide), z 2 (by decide)]
    simp only [Fin.zero_eta, Fin.mk_one, Fin.reduceFinMk] at s s' ⊢
    simp only [o, s, s']

/-- C133, `length(quat)` of a vector along a coordinate axis: exactly the magnitude of its one component. -/
theorem C133_quat_length (v : Quat F32) (i : Fin 4) (hz : ∀ j, j ≠ i → (coord v j == lit 0) = true)
    (h : SquareFits (coord v i)) : Quat.length v = F.abs (coord v i) := by
  change F.sqrt (Quat.dot v v) = _
  rw [quat_dot_axis v i hz h, C133_sqrt _ h]

/-- C133, `normalize(quat)` of a quaternion with one non-zero component: exactly 1 or -1 there, the zeros stay as they are. -/
theorem C133_quat_normalize (v : Quat F32) (i : Fin 4) (hz : ∀ j, j ≠ i → (coord v j == lit 0) = true)
    (h : SquareFits (coord v i)) :
    (∀ j, j ≠ i → coord (Quat.normalize v) j = coord v j) ∧
    coord (Quat.normalize v) i = if (coord v i).val < 0 then lit (-1) else lit 1 := by
  have e : ∀ j, coord (Quat.normalize v) j = coord v j / F.abs (coord v i) := fun j => by
    rw [← C133_quat_length v i hz h]
    fin_cases j <;> rfl
  have x0 : 0 < |(coord v i).val| := lt_of_lt_of_le (by norm_num) h.2.1
  refine ⟨fun j hj => ?_, ?_⟩
  · rw [e j]
    exact zero_div_pos (isZ_of_beq (hz j hj)) (isFin_fabs h.1) (by rw [val_fabsQ]; exact x0)
  · rw [e i]
    exact div_abs_self h.1 (abs_pos.1 x0)

/-- C133: `normalize` of a vector along an axis is not always the unit vector: `normalize(vec3(41, 0, 0)).x` is the number
just below 1. -/
theorem C133_normalize_below_one :
    V3.normalize (⟨lit 41, lit 0, lit 0⟩ : V3 F32) = ⟨lit (1 - 1 / 2 ^ 24), lit 0, lit 0⟩ ∧
    (lit (1 - 1 / 2 ^ 24) : F32).val = 1 - 1 / 2 ^ 24 := by decide +kernel

/-- Non-vacuity for `C133_*_length`, `C133_*_distance` and `C133_*_normalize`: hypotheses and values for a vector with the
zeros `-0` and `+0`. -/
example : let v : V3 F32 := ⟨-lit 0, lit (-0.1), lit 0⟩
    (∀ j, j ≠ 1 → (coord v j == lit 0) = true) ∧ (coord v 1).IsFin = true ∧ 1 / 2 ^ 63 ≤ |(coord v 1).val| ∧
    |(coord v 1).val| < 2 ^ 64 ∧ V3.length v = lit 0.1 ∧ V3.normalize v = ⟨-lit 0, lit (-1), lit 0⟩ ∧
    V3.distance (⟨lit 7, lit (-0.1), lit 3⟩ : V3 F32) ⟨lit 7, lit 0.1, lit 3⟩ = lit 0.2 := by decide +kernel

/-- Non-vacuity for `C133_quat_normalize`. -/
example : Quat.normalize (⟨lit 0, lit (-41), -lit 0, lit 0⟩ : Quat F32) = ⟨lit 0, lit (-1), -lit 0, lit 0⟩ := by
  decide +kernel

/-- Non-vacuity for `C133_*_midpoint`: the sum rounds, the midpoint is still between. -/
example : let a : V2 F32 := ⟨lit 16777215, lit 1⟩
    let b : V2 F32 := ⟨lit 16777216, lit 1⟩
    (coord (a + b) 0).IsFin = true ∧ coord a 0 ≤ coord b 0 ∧
    (coord (a + b) 0).val ≠ (coord a 0).val + (coord b 0).val ∧ coord ((a + b) / (lit 2 : F32)) 0 = lit 16777216 := by
  decide +kernel

end Zcm
