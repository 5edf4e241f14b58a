import Verif.Spec.Coord
import Verif.Spec.Blend
import Verif.Lemmas.F32Blend
import Mathlib.Tactic.FinCases

/-!
# C156  Laying colours over each other

The caller's code is in `Spec/Blend`. `Frac x` says `0 <= x && x <= 1`.
-/

set_option exponentiation.threshold 300

namespace Zcm

open F32

/-- Every component is from 0 to 1. -/
def Colour {n : ℕ} (c : Fin n → F32) : Prop := ∀ i, Frac (c i)

private theorem coord_blend3 (s : V3 F32) (a : F32) (d : V3 F32) (i : Fin 3) :
    coord (blend3 s a d) i = coord s i * a + coord d i * (lit 1 - a) := by
  fin_cases i <;> rfl

private theorem coord_screen3 (s d : V3 F32) (i : Fin 3) :
    coord (screen3 s d) i = lit 1 - (lit 1 - coord s i) * (lit 1 - coord d i) := by
  fin_cases i <;> rfl

private theorem coord_layers3 (d : V3 F32) (l : List (V3 F32 × F32)) (i : Fin 3) :
    coord (layers3 d l) i = (l.map fun p => (coord p.1 i, p.2)).foldl (fun d p => p.1 * p.2 + d * (lit 1 - p.2)) (coord d i) := by
  induction l generalizing d with
  | nil => rfl
  | cons p l ih =>
    rw [List.map_cons, List.foldl_cons]
    refine (ih (blend3 p.1 p.2 d)).trans ?_
    rw [coord_blend3]

/-- C156, `vec3`: laying any number of colours over each other never leaves the range from 0 to 1, not even by a rounding error, so that
no clamping is needed; and `n` layers are within `n / 2^23` of exact arithmetic in every component. -/
theorem C156_vec3_layers (d : V3 F32) (l : List (V3 F32 × F32)) (hd : Colour (coord d))
    (hl : ∀ p ∈ l, Colour (coord p.1) ∧ Frac p.2) (i : Fin 3) :
    Frac (coord (layers3 d l) i) ∧
    |(coord (layers3 d l) i).val - layersExact (coord d i).val (l.map fun p => ((coord p.1 i).val, p.2.val))| ≤ l.length / 2 ^ 23 := by
  rw [coord_layers3]
  have h := layers_frac (l.map fun p => (coord p.1 i, p.2)) (by
    intro p hp
    obtain ⟨q, hq, rfl⟩ := List.mem_map.1 hp
    exact ⟨(hl q hq).1 i, (hl q hq).2⟩) (coord d i) (hd i) (coord d i).val 0 (by simp)
  rw [List.map_map, List.length_map, zero_add] at h
  exact h

/-- C156, `vec3`: opacity 0 gives the colour below, opacity 1 the colour above, exactly (a zero may change its sign). -/
theorem C156_vec3_ends (s d : V3 F32) (a : F32) (hs : Colour (coord s)) (hd : Colour (coord d)) (i : Fin 3) :
    ((a == lit 0) = true → (coord (blend3 s a d) i == coord d i) = true) ∧
    ((a == lit 1) = true → (coord (blend3 s a d) i == coord s i) = true) := by
  rw [coord_blend3]
  constructor
  · intro h
    have e : a.val = 0 := by simpa using key_eq_iff.1 (beq_iff.1 h).2.2
    have ha : Frac a := ⟨⟨lit_zero_ne_nan, (beq_iff.1 h).1, (beq_iff.1 h).2.2.ge⟩,
      ⟨(beq_iff.1 h).1, isFin_ne_nan isFin_lit_one, key_le_iff.2 (by rw [e, val_lit_one]; norm_num)⟩⟩
    rw [beq_of_val (frac_iff.1 (blend_frac (hs i) ha (hd i)).1).1 (frac_iff.1 (hd i)).1]
    exact blend_clear (hs i) ha (hd i) e
  · intro h
    have e : a.val = 1 := by simpa using key_eq_iff.1 (beq_iff.1 h).2.2
    have ha : Frac a := ⟨⟨lit_zero_ne_nan, (beq_iff.1 h).1, key_le_iff.2 (by rw [e, val_lit_zero]; norm_num)⟩,
      ⟨(beq_iff.1 h).1, isFin_ne_nan isFin_lit_one, (beq_iff.1 h).2.2.le⟩⟩
    rw [beq_of_val (frac_iff.1 (blend_frac (hs i) ha (hd i)).1).1 (frac_iff.1 (hs i)).1]
    exact blend_solid (hs i) ha (hd i) e

/-- C156, `vec3`: black over black stays black and white over white stays white, exactly, for every opacity, although `1 - a` rounds. -/
theorem C156_vec3_pure (s d : V3 F32) (a : F32) (ha : Frac a) (i : Fin 3) :
    ((coord s i == lit 0) = true → (coord d i == lit 0) = true → (coord (blend3 s a d) i == lit 0) = true) ∧
    ((coord s i == lit 1) = true → (coord d i == lit 1) = true → (coord (blend3 s a d) i == lit 1) = true) := by
  rw [coord_blend3]
  have z : ∀ {x : F32}, (x == lit 0) = true → Frac x ∧ x.val = 0 := by
    intro x h
    have e : x.val = 0 := by simpa using key_eq_iff.1 (beq_iff.1 h).2.2
    exact ⟨⟨⟨lit_zero_ne_nan, (beq_iff.1 h).1, (beq_iff.1 h).2.2.ge⟩,
      ⟨(beq_iff.1 h).1, isFin_ne_nan isFin_lit_one, key_le_iff.2 (by rw [e, val_lit_one]; norm_num)⟩⟩, e⟩
  have o : ∀ {x : F32}, (x == lit 1) = true → Frac x ∧ x.val = 1 := by
    intro x h
    have e : x.val = 1 := by simpa using key_eq_iff.1 (beq_iff.1 h).2.2
    exact ⟨⟨⟨lit_zero_ne_nan, (beq_iff.1 h).1, key_le_iff.2 (by rw [e, val_lit_zero]; norm_num)⟩,
      ⟨(beq_iff.1 h).1, isFin_ne_nan isFin_lit_one, (beq_iff.1 h).2.2.le⟩⟩, e⟩
  constructor
  · intro h1 h2
    obtain ⟨s1, s2⟩ := z h1
    obtain ⟨d1, d2⟩ := z h2
    rw [beq_of_val (frac_iff.1 (blend_frac s1 ha d1).1).1 isFin_lit_zero, val_lit_zero]
    exact (blend_pure s1 ha d1).1 s2 d2
  · intro h1 h2
    obtain ⟨s1, s2⟩ := o h1
    obtain ⟨d1, d2⟩ := o h2
    rw [beq_of_val (frac_iff.1 (blend_frac s1 ha d1).1).1 isFin_lit_one, val_lit_one]
    exact (blend_pure s1 ha d1).2 s2 d2

/-- C156, `vec3`: a brighter colour above or below never gives a darker result. -/
theorem C156_vec3_monotone (s s' d d' : V3 F32) (a : F32) (ha : Frac a) (hs : Colour (coord s)) (hs' : Colour (coord s'))
    (hd : Colour (coord d)) (hd' : Colour (coord d')) (i : Fin 3) (h1 : coord s i ≤ coord s' i) (h2 : coord d i ≤ coord d' i) :
    coord (blend3 s a d) i ≤ coord (blend3 s' a d') i := by
  rw [coord_blend3, coord_blend3]
  exact blend_mono (hs i) (hs' i) ha (hd i) (hd' i) h1 h2

/-- C156, `vec3`: `1 - (1 - s) * (1 - d)` also stays from 0 to 1, is within `2^-23` of exact arithmetic, and white stays white. -/
theorem C156_vec3_screen (s d : V3 F32) (hs : Colour (coord s)) (hd : Colour (coord d)) (i : Fin 3) :
    Frac (coord (screen3 s d) i) ∧
    |(coord (screen3 s d) i).val - (1 - (1 - (coord s i).val) * (1 - (coord d i).val))| ≤ 1 / 2 ^ 23 ∧
    ((coord s i == lit 1) = true → (coord (screen3 s d) i == lit 1) = true) := by
  rw [coord_screen3]
  obtain ⟨h1, h2, h3⟩ := screen_frac (hs i) (hd i)
  refine ⟨h1, h3, fun h => ?_⟩
  rw [beq_of_val (frac_iff.1 h1).1 isFin_lit_one, val_lit_one]
  exact h2 (by simpa using key_eq_iff.1 (beq_iff.1 h).2.2)

/-- The hypotheses hold for a colour with three layers over it. -/
example : Colour (coord (⟨lit 1, lit (1/10), lit 0⟩ : V3 F32)) ∧ ∀ p ∈ [((⟨lit (1/2), lit (1/3), lit 1⟩ : V3 F32), (lit (1 / 3) : F32)), ((⟨lit 1, lit (1/10), lit 0⟩ : V3 F32), lit 1), ((⟨lit (1/2), lit (1/3), lit 1⟩ : V3 F32), lit (1 / 1000))],
    Colour (coord p.1) ∧ Frac p.2 := by
  have e1 : Colour (coord (⟨lit 1, lit (1/10), lit 0⟩ : V3 F32)) := by
    intro i; unfold Frac; fin_cases i <;> decide +kernel
  have e2 : Colour (coord (⟨lit (1/2), lit (1/3), lit 1⟩ : V3 F32)) := by
    intro i; unfold Frac; fin_cases i <;> decide +kernel
  refine ⟨e1, ?_⟩
  simp only [List.forall_mem_cons, List.not_mem_nil, false_imp_iff, implies_true, and_true]
  refine ⟨⟨e2, ?_⟩, ⟨e1, ?_⟩, ⟨e2, ?_⟩⟩ <;> unfold Frac <;> decide +kernel

private theorem coord_blend4 (s : V4 F32) (a : F32) (d : V4 F32) (i : Fin 4) :
    coord (blend4 s a d) i = coord s i * a + coord d i * (lit 1 - a) := by
  fin_cases i <;> rfl

private theorem coord_screen4 (s d : V4 F32) (i : Fin 4) :
    coord (screen4 s d) i = lit 1 - (lit 1 - coord s i) * (lit 1 - coord d i) := by
  fin_cases i <;> rfl

private theorem coord_layers4 (d : V4 F32) (l : List (V4 F32 × F32)) (i : Fin 4) :
    coord (layers4 d l) i = (l.map fun p => (coord p.1 i, p.2)).foldl (fun d p => p.1 * p.2 + d * (lit 1 - p.2)) (coord d i) := by
  induction l generalizing d with
  | nil => rfl
  | cons p l ih =>
    rw [List.map_cons, List.foldl_cons]
    refine (ih (blend4 p.1 p.2 d)).trans ?_
    rw [coord_blend4]

/-- C156, `vec4`: laying any number of colours over each other never leaves the range from 0 to 1, not even by a rounding error, so that
no clamping is needed; and `n` layers are within `n / 2^23` of exact arithmetic in every component. -/
theorem C156_vec4_layers (d : V4 F32) (l : List (V4 F32 × F32)) (hd : Colour (coord d))
    (hl : ∀ p ∈ l, Colour (coord p.1) ∧ Frac p.2) (i : Fin 4) :
    Frac (coord (layers4 d l) i) ∧
    |(coord (layers4 d l) i).val - layersExact (coord d i).val (l.map fun p => ((coord p.1 i).val, p.2.val))| ≤ l.length / 2 ^ 23 := by
  rw [coord_layers4]
  have h := layers_frac (l.map fun p => (coord p.1 i, p.2)) (by
    intro p hp
    obtain ⟨q, hq, rfl⟩ := List.mem_map.1 hp
    exact ⟨(hl q hq).1 i, (hl q hq).2⟩) (coord d i) (hd i) (coord d i).val 0 (by simp)
  rw [List.map_map, List.length_map, zero_add] at h
  exact h

/-- C156, `vec4`: opacity 0 gives the colour below, opacity 1 the colour above, exactly (a zero may change its sign). -/
theorem C156_vec4_ends (s d : V4 F32) (a : F32) (hs : Colour (coord s)) (hd : Colour (coord d)) (i : Fin 4) :
    ((a == lit 0) = true → (coord (blend4 s a d) i == coord d i) = true) ∧
    ((a == lit 1) = true → (coord (blend4 s a d) i == coord s i) = true) := by
  rw [coord_blend4]
  constructor
  · intro h
    have e : a.val = 0 := by simpa using key_eq_iff.1 (beq_iff.1 h).2.2
    have ha : Frac a := ⟨⟨lit_zero_ne_nan, (beq_iff.1 h).1, (beq_iff.1 h).2.2.ge⟩,
      ⟨(beq_iff.1 h).1, isFin_ne_nan isFin_lit_one, key_le_iff.2 (by rw [e, val_lit_one]; norm_num)⟩⟩
    rw [beq_of_val (frac_iff.1 (blend_frac (hs i) ha (hd i)).1).1 (frac_iff.1 (hd i)).1]
    exact blend_clear (hs i) ha (hd i) e
  · intro h
    have e : a.val = 1 := by simpa using key_eq_iff.1 (beq_iff.1 h).2.2
    have ha : Frac a := ⟨⟨lit_zero_ne_nan, (beq_iff.1 h).1, key_le_iff.2 (by rw [e, val_lit_zero]; norm_num)⟩,
      ⟨(beq_iff.1 h).1, isFin_ne_nan isFin_lit_one, (beq_iff.1 h).2.2.le⟩⟩
    rw [beq_of_val (frac_iff.1 (blend_frac (hs i) ha (hd i)).1).1 (frac_iff.1 (hs i)).1]
    exact blend_solid (hs i) ha (hd i) e

/-- C156, `vec4`: black over black stays black and white over white stays white, exactly, for every opacity, although `1 - a` rounds. -/
theorem C156_vec4_pure (s d : V4 F32) (a : F32) (ha : Frac a) (i : Fin 4) :
    ((coord s i == lit 0) = true → (coord d i == lit 0) = true → (coord (blend4 s a d) i == lit 0) = true) ∧
    ((coord s i == lit 1) = true → (coord d i == lit 1) = true → (coord (blend4 s a d) i == lit 1) = true) := by
  rw [coord_blend4]
  have z : ∀ {x : F32}, (x == lit 0) = true → Frac x ∧ x.val = 0 := by
    intro x h
    have e : x.val = 0 := by simpa using key_eq_iff.1 (beq_iff.1 h).2.2
    exact ⟨⟨⟨lit_zero_ne_nan, (beq_iff.1 h).1, (beq_iff.1 h).2.2.ge⟩,
      ⟨(beq_iff.1 h).1, isFin_ne_nan isFin_lit_one, key_le_iff.2 (by rw [e, val_lit_one]; norm_num)⟩⟩, e⟩
  have o : ∀ {x : F32}, (x == lit 1) = true → Frac x ∧ x.val = 1 := by
    intro x h
    have e : x.val = 1 := by simpa using key_eq_iff.1 (beq_iff.1 h).2.2
    exact ⟨⟨⟨lit_zero_ne_nan, (beq_iff.1 h).1, key_le_iff.2 (by rw [e, val_lit_zero]; norm_num)⟩,
      ⟨(beq_iff.1 h).1, isFin_ne_nan isFin_lit_one, (beq_iff.1 h).2.2.le⟩⟩, e⟩
  constructor
  · intro h1 h2
    obtain ⟨s1, s2⟩ := z h1
    obtain ⟨d1, d2⟩ := z h2
    rw [beq_of_val (frac_iff.1 (blend_frac s1 ha d1).1).1 isFin_lit_zero, val_lit_zero]
    exact (blend_pure s1 ha d1).1 s2 d2
  · intro h1 h2
    obtain ⟨s1, s2⟩ := o h1
    obtain ⟨d1, d2⟩ := o h2
    rw [beq_of_val (frac_iff.1 (blend_frac s1 ha d1).1).1 isFin_lit_one, val_lit_one]
    exact (blend_pure s1 ha d1).2 s2 d2

/-- C156, `vec4`: a brighter colour above or below never gives a darker result. -/
theorem C156_vec4_monotone (s s' d d' : V4 F32) (a : F32) (ha : Frac a) (hs : Colour (coord s)) (hs' : Colour (coord s'))
    (hd : Colour (coord d)) (hd' : Colour (coord d')) (i : Fin 4) (h1 : coord s i ≤ coord s' i) (h2 : coord d i ≤ coord d' i) :
    coord (blend4 s a d) i ≤ coord (blend4 s' a d') i := by
  rw [coord_blend4, coord_blend4]
  exact blend_mono (hs i) (hs' i) ha (hd i) (hd' i) h1 h2

/-- C156, `vec4`: `1 - (1 - s) * (1 - d)` also stays from 0 to 1, is within `2^-23` of exact arithmetic, and white stays white. -/
theorem C156_vec4_screen (s d : V4 F32) (hs : Colour (coord s)) (hd : Colour (coord d)) (i : Fin 4) :
    Frac (coord (screen4 s d) i) ∧
    |(coord (screen4 s d) i).val - (1 - (1 - (coord s i).val) * (1 - (coord d i).val))| ≤ 1 / 2 ^ 23 ∧
    ((coord s i == lit 1) = true → (coord (screen4 s d) i == lit 1) = true) := by
  rw [coord_screen4]
  obtain ⟨h1, h2, h3⟩ := screen_frac (hs i) (hd i)
  refine ⟨h1, h3, fun h => ?_⟩
  rw [beq_of_val (frac_iff.1 h1).1 isFin_lit_one, val_lit_one]
  exact h2 (by simpa using key_eq_iff.1 (beq_iff.1 h).2.2)

/-- The hypotheses hold for a colour with three layers over it. -/
example : Colour (coord (⟨lit 1, lit (1/10), lit 0, lit (3/7)⟩ : V4 F32)) ∧ ∀ p ∈ [((⟨lit (1/2), lit (1/3), lit 1, lit (1/1000)⟩ : V4 F32), (lit (1 / 3) : F32)), ((⟨lit 1, lit (1/10), lit 0, lit (3/7)⟩ : V4 F32), lit 1), ((⟨lit (1/2), lit (1/3), lit 1, lit (1/1000)⟩ : V4 F32), lit (1 / 1000))],
    Colour (coord p.1) ∧ Frac p.2 := by
  have e1 : Colour (coord (⟨lit 1, lit (1/10), lit 0, lit (3/7)⟩ : V4 F32)) := by
    intro i; unfold Frac; fin_cases i <;> decide +kernel
  have e2 : Colour (coord (⟨lit (1/2), lit (1/3), lit 1, lit (1/1000)⟩ : V4 F32)) := by
    intro i; unfold Frac; fin_cases i <;> decide +kernel
  refine ⟨e1, ?_⟩
  simp only [List.forall_mem_cons, List.not_mem_nil, false_imp_iff, implies_true, and_true]
  refine ⟨⟨e2, ?_⟩, ⟨e1, ?_⟩, ⟨e2, ?_⟩⟩ <;> unfold Frac <;> decide +kernel

private theorem coord_over (s d : V4 F32) (i : Fin 4) : coord (over s d) i = coord s i + coord d i * (lit 1 - s.w) := by
  fin_cases i <;> rfl

/-- A colour multiplied by its opacity: the opacity `w` is from 0 to 1 and no component is above it. -/
def Premultiplied (c : V4 F32) : Prop := c.w ≤ lit 1 ∧ ∀ i, lit 0 ≤ coord c i ∧ coord c i ≤ c.w

private theorem Premultiplied.frac {c : V4 F32} (h : Premultiplied c) (i : Fin 4) : Frac (coord c i) ∧ (coord c i).val ≤ c.w.val := by
  have l := (h.2 i).2
  exact ⟨⟨(h.2 i).1, ⟨l.1, h.1.2.1, l.2.2.trans h.1.2.2⟩⟩, key_le_iff.1 l.2.2⟩

/-- C156: laying premultiplied colours over each other, any number of them, gives a premultiplied colour: no component ever exceeds the
opacity, and the opacity never exceeds 1, rounding included. -/
theorem C156_over_layers (d : V4 F32) (l : List (V4 F32)) (hd : Premultiplied d) (hl : ∀ s ∈ l, Premultiplied s) :
    Premultiplied (overAll d l) := by
  induction l generalizing d with
  | nil => exact hd
  | cons s l ih =>
    refine ih (over s d) ?_ fun q hq => hl q (by simp [hq])
    have hs := hl s (by simp)
    have sw := (hs.frac 3).1
    have dw := (hd.frac 3).1
    have f : ∀ i, Frac (coord (over s d) i) := fun i => by
      rw [coord_over]; exact (over_frac (hs.frac i).1 sw (hs.frac i).2 (hd.frac i).1).1
    refine ⟨(f 3).2, fun i => ⟨(f i).1, (f i).2.1, (f 3).2.1, ?_⟩⟩
    rw [coord_over]
    exact key_le_iff.2 (over_le (hs.frac i).1 sw (hs.frac i).2 (hd.frac i).1 dw (hd.frac i).2)

/-- C156: an opaque background stays opaque under any number of layers: the opacity is exactly 1 at the end. -/
theorem C156_over_opaque (d : V4 F32) (l : List (V4 F32)) (hd : Premultiplied d) (hl : ∀ s ∈ l, Premultiplied s)
    (h : (d.w == lit 1) = true) : ((overAll d l).w == lit 1) = true := by
  induction l generalizing d with
  | nil => exact h
  | cons s l ih =>
    have hs := hl s (by simp)
    have sw := (hs.frac 3).1
    have dw := (hd.frac 3).1
    refine ih (over s d) ?_ (fun q hq => hl q (by simp [hq])) ?_
    · exact C156_over_layers d [s] hd (by simpa using hs)
    · have f := (over_frac sw sw le_rfl dw).1
      refine (beq_of_val (frac_iff.1 f).1 isFin_lit_one).2 ?_
      rw [val_lit_one]
      exact over_opaque sw dw (by simpa using key_eq_iff.1 (beq_iff.1 h).2.2)

/-- C156: no layer makes the result less opaque than itself, an opaque layer hides what is below exactly, and an empty layer changes
nothing. -/
theorem C156_over_ends (s d : V4 F32) (hs : Premultiplied s) (hd : Premultiplied d) (i : Fin 4) :
    s.w ≤ (over s d).w ∧
    ((s.w == lit 1) = true → (coord (over s d) i == coord s i) = true) ∧
    ((s.w == lit 0) = true → (coord (over s d) i == coord d i) = true) := by
  have sw : Frac s.w := (hs.frac 3).1
  have si := hs.frac i
  have di := (hd.frac i).1
  have f := (over_frac si.1 sw si.2 di).1
  have g := over_frac sw sw le_rfl (hd.frac 3).1
  refine ⟨⟨isFin_ne_nan (frac_iff.1 sw).1, isFin_ne_nan (frac_iff.1 g.1).1, key_le_iff.2 g.2⟩, fun h => ?_, fun h => ?_⟩
  · rw [coord_over, beq_of_val (frac_iff.1 f).1 (frac_iff.1 si.1).1]
    exact over_solid si.1 sw di (by simpa using key_eq_iff.1 (beq_iff.1 h).2.2)
  · have e : s.w.val = 0 := by simpa using key_eq_iff.1 (beq_iff.1 h).2.2
    rw [coord_over, beq_of_val (frac_iff.1 f).1 (frac_iff.1 di).1]
    exact over_clear si.1 sw di e (le_antisymm (e ▸ si.2) (frac_iff.1 si.1).2.1)

/-- The hypotheses hold for a half transparent colour over an opaque one. -/
example : Premultiplied (⟨lit (1 / 5), lit 0, lit (1 / 2), lit (1 / 2)⟩ : V4 F32) ∧
    Premultiplied (⟨lit (1 / 3), lit 1, lit 0, lit 1⟩ : V4 F32) := by
  refine ⟨⟨?_, fun i => ?_⟩, ⟨?_, fun i => ?_⟩⟩
  · decide +kernel
  · fin_cases i <;> decide +kernel
  · decide +kernel
  · fin_cases i <;> decide +kernel

end Zcm
