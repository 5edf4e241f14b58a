import Verif.Lemmas.F32Undo
import Verif.Model.Vec
import Verif.Spec.Accumulate
import Verif.Spec.Coord
import Mathlib.Tactic.IntervalCases

/-!
# C140  Undoing vector arithmetic

`Scaling` (one `v *= s` or `v /= s`) and `totalFactor` are in Spec/Undo.lean.
-/

set_option exponentiation.threshold 300

namespace Zcm

open F32

/-- C140, `float`: reading the smaller of two numbers back from their sum.  The subtraction makes no rounding error of its own, so
what comes back differs from the number put in by the rounding error of the sum alone. -/
theorem C140_readback (a b : F32) (hf : (a + b).IsFin = true) (h : |b.val| ≤ |a.val|) :
    ((a + b) - a).IsFin = true ∧ ((a + b) - a).val = (a + b).val - a.val ∧
    |((a + b) - a).val - b.val| ≤ |a.val + b.val| / 2 ^ 24 := by
  obtain ⟨f, e⟩ := readback hf h
  refine ⟨f, e, ?_⟩
  rw [e, show (a + b).val - a.val - b.val = (a + b).val - (a.val + b.val) by ring]
  exact add_error_rel hf

/-- C140, `float`: any history of up to `2^20` multiplications and divisions whose exact partial results stay between `2^-100` and
`2^100` in magnitude is accurate. -/
theorem C140_scalings (x : F32) (fx : x.IsFin = true) (l : List Scaling) (hn : l.length ≤ 2 ^ 20)
    (hl : ∀ c ∈ l, c.number.IsFin = true ∧ c.number.val ≠ 0)
    (hb : ∀ j ≤ l.length, 1 / 2 ^ 100 ≤ |x.val * totalFactor (l.take j)| ∧ |x.val * totalFactor (l.take j)| ≤ 2 ^ 100) :
    (l.foldl (Scaling.run (· * ·) (· / ·)) x).IsFin = true ∧
      |(l.foldl (Scaling.run (· * ·) (· / ·)) x).val - x.val * totalFactor l| ≤
        ((1 + 1 / 2 ^ 24) ^ l.length - 1) * |x.val * totalFactor l| := by
  have := scalings_rel l x x.val 0 (by simpa using Rel.exact fx) (by omega) hl (fun j hj => by
    obtain ⟨h0, h1⟩ := hb j hj
    have h0' := (Rat.cast_le (K := ℝ)).2 h0
    have h1' := (Rat.cast_le (K := ℝ)).2 h1
    push_cast at h0' h1'
    exact ⟨h0', h1'⟩)
  refine ⟨this.fin, ?_⟩
  have e := this.err
  rw [Nat.zero_add] at e
  apply (Rat.cast_le (K := ℝ)).1
  push_cast
  exact e

private theorem factor_back {ss ws : List F32} (h : ws.Perm ss) (h0 : ∀ s ∈ ss, s.val ≠ 0) :
    totalFactor (ss.map Scaling.times ++ ws.map Scaling.over) = 1 := by
  have e : (ws.map fun s => 1 / s.val).prod = (ss.map fun s => 1 / s.val).prod := (h.map _).prod_eq
  unfold totalFactor
  rw [List.map_append, List.prod_append, List.map_map, List.map_map]
  change (ss.map fun s => s.val).prod * (ws.map fun s => 1 / s.val).prod = 1
  rw [e]
  clear e h
  induction ss with
  | nil => simp
  | cons a ss ih =>
    have := ih fun s hs => h0 s (List.mem_cons_of_mem _ hs)
    rw [List.map_cons, List.map_cons, List.prod_cons, List.prod_cons]
    have a0 := h0 a (List.mem_cons_self ..)
    calc a.val * (ss.map fun s => s.val).prod * (1 / a.val * (ss.map fun s => 1 / s.val).prod)
        = a.val / a.val * ((ss.map fun s => s.val).prod * (ss.map fun s => 1 / s.val).prod) := by ring
      _ = 1 := by rw [this, div_self a0, one_mul]

private theorem total_back {vs ws : List F32} (h : ws.Perm vs) (p : F32) :
    exactTotal (p :: (vs ++ ws.map (- ·))) = p.val ∧ totalSize (p :: (vs ++ ws.map (- ·))) = |p.val| + 2 * totalSize vs := by
  have e : (ws.map fun a => (-a).val).sum = (vs.map fun a => (-a).val).sum := (h.map _).sum_eq
  have e' : (ws.map fun a => |(-a).val|).sum = (vs.map fun a => |(-a).val|).sum := (h.map _).sum_eq
  constructor
  · unfold exactTotal
    rw [List.map_cons, List.sum_cons, List.map_append, List.sum_append, List.map_map]
    change p.val + ((vs.map fun a => a.val).sum + (ws.map fun a => (-a).val).sum) = _
    rw [e]
    have : (vs.map fun a => (-a).val).sum = -(vs.map fun a => a.val).sum := by
      clear e e' h
      induction vs with
      | nil => simp
      | cons a vs ih => rw [List.map_cons, List.map_cons, List.sum_cons, List.sum_cons, ih, val_neg]; ring
    rw [this]; ring
  · unfold totalSize
    rw [List.map_cons, List.sum_cons, List.map_append, List.sum_append, List.map_map]
    change |p.val| + ((vs.map fun a => |a.val|).sum + (ws.map fun a => |(-a).val|).sum) = _
    rw [e']
    have : (vs.map fun a => |(-a).val|) = vs.map fun a => |a.val| := by simp only [val_neg, abs_neg]
    rw [this]; ring

/-- C140, `float`: numbers added one after the other and then subtracted again, in whatever order: what is left is the start value
up to rounding errors. -/
theorem C140_added_back (p : F32) (vs ws : List F32) (h : ws.Perm vs)
    (hf : (ws.foldl (· - ·) (vs.foldl (· + ·) p)).IsFin = true) :
    |(ws.foldl (· - ·) (vs.foldl (· + ·) p)).val - p.val| ≤
      ((1 + 1 / 2 ^ 24) ^ (2 * vs.length) - 1) * (|p.val| + 2 * totalSize vs) := by
  have e : ∀ x : F32, ws.foldl (· - ·) x = (ws.map (- ·)).foldl (· + ·) x := by
    clear h hf
    induction ws with
    | nil => exact fun _ => rfl
    | cons w ws ih => intro x; rw [List.foldl_cons, List.map_cons, List.foldl_cons, ih, sub_eq]
  rw [e, ← List.foldl_append] at hf ⊢
  have t := (fold_add (vs ++ ws.map (- ·)) p).2 hf
  rw [(total_back h p).1, (total_back h p).2] at t
  refine t.trans (le_of_eq ?_)
  congr 3
  simp [h.length_eq]
  omega

/-! ## vec2 -/

/-- C140, `vec2`: `v / v` is exactly 1 in every component that is finite and not zero. -/
theorem C140_vec2_self (v : V2 F32) (i : Fin 2) (h : (coord v i).IsFin = true) (h0 : (coord v i).val ≠ 0) :
    coord (v / v) i = lit 1 ∧ coord (V2.divAssign v v) i = lit 1 := by
  have e : coord (v / v) i = coord v i / coord v i := by fin_cases i <;> rfl
  have e' : coord (V2.divAssign v v) i = coord v i / coord v i := by fin_cases i <;> rfl
  rw [e, e', quotient_self h h0]
  exact ⟨rfl, rfl⟩

/-- C140, `vec2`: `(v + w) - v` gives `w` back up to the rounding error of the sum alone, in every component in which `w` is not
larger than `v`. -/
theorem C140_vec2_readback (v w : V2 F32) (i : Fin 2) (hf : (coord (v + w) i).IsFin = true)
    (h : |(coord w i).val| ≤ |(coord v i).val|) :
    (coord ((v + w) - v) i).IsFin = true ∧ (coord ((v + w) - v) i).val = (coord (v + w) i).val - (coord v i).val ∧
    |(coord ((v + w) - v) i).val - (coord w i).val| ≤ |(coord v i).val + (coord w i).val| / 2 ^ 24 := by
  have e : coord (v + w) i = coord v i + coord w i := by fin_cases i <;> rfl
  have e' : coord ((v + w) - v) i = (coord v i + coord w i) - coord v i := by fin_cases i <;> rfl
  rw [e] at hf
  rw [e', e]
  exact C140_readback _ _ hf h

private theorem scalings_vec2 (l : List Scaling) (i : Fin 2) : ∀ v : V2 F32,
    coord (l.foldl (Scaling.run V2.mulAssignS V2.divAssignS) v) i =
      l.foldl (Scaling.run (· * ·) (· / ·)) (coord v i) := by
  induction l with
  | nil => exact fun _ => rfl
  | cons c l ih =>
    intro v
    rw [List.foldl_cons, ih, List.foldl_cons]
    congr 1
    cases c <;> fin_cases i <;> rfl

/-- C140, `vec2`: any history of `v *= s;` and `v /= s;` is accurate in every component. -/
theorem C140_vec2_scalings (v : V2 F32) (l : List Scaling) (i : Fin 2) (fv : (coord v i).IsFin = true) (hn : l.length ≤ 2 ^ 20)
    (hl : ∀ c ∈ l, c.number.IsFin = true ∧ c.number.val ≠ 0)
    (hb : ∀ j ≤ l.length, 1 / 2 ^ 100 ≤ |(coord v i).val * totalFactor (l.take j)| ∧
      |(coord v i).val * totalFactor (l.take j)| ≤ 2 ^ 100) :
    (coord (l.foldl (Scaling.run V2.mulAssignS V2.divAssignS) v) i).IsFin = true ∧
      |(coord (l.foldl (Scaling.run V2.mulAssignS V2.divAssignS) v) i).val - (coord v i).val * totalFactor l| ≤
        ((1 + 1 / 2 ^ 24) ^ l.length - 1) * |(coord v i).val * totalFactor l| := by
  rw [scalings_vec2]
  exact C140_scalings _ fv l hn hl hb

/-- C140, `vec2`: scaled by a list of numbers and then divided by the same numbers in whatever order, a vector comes back up to
one rounding error per step. -/
theorem C140_vec2_scaled_back (v : V2 F32) (ss ws : List F32) (hp : ws.Perm ss) (i : Fin 2) (fv : (coord v i).IsFin = true)
    (hn : ss.length ≤ 2 ^ 19) (hs : ∀ s ∈ ss, s.IsFin = true ∧ s.val ≠ 0)
    (hb : ∀ j ≤ 2 * ss.length,
      1 / 2 ^ 100 ≤ |(coord v i).val * totalFactor ((ss.map Scaling.times ++ ws.map Scaling.over).take j)| ∧
      |(coord v i).val * totalFactor ((ss.map Scaling.times ++ ws.map Scaling.over).take j)| ≤ 2 ^ 100) :
    (coord (ws.foldl V2.divAssignS (ss.foldl V2.mulAssignS v)) i).IsFin = true ∧
      |(coord (ws.foldl V2.divAssignS (ss.foldl V2.mulAssignS v)) i).val - (coord v i).val| ≤
        ((1 + 1 / 2 ^ 24) ^ (2 * ss.length) - 1) * |(coord v i).val| := by
  have len : (ss.map Scaling.times ++ ws.map Scaling.over).length = 2 * ss.length := by simp [hp.length_eq]; omega
  have e : ws.foldl V2.divAssignS (ss.foldl V2.mulAssignS v) =
      (ss.map Scaling.times ++ ws.map Scaling.over).foldl (Scaling.run V2.mulAssignS V2.divAssignS) v := by
    rw [List.foldl_append, List.foldl_map, List.foldl_map]; rfl
  rw [e]
  have h := C140_vec2_scalings v (ss.map Scaling.times ++ ws.map Scaling.over) i fv (by rw [len]; omega) (fun c hc => by
    rcases List.mem_append.1 hc with m | m
    · obtain ⟨s, hm, rfl⟩ := List.mem_map.1 m
      exact hs s hm
    · obtain ⟨s, hm, rfl⟩ := List.mem_map.1 m
      exact hs s (hp.mem_iff.1 hm)) (by rw [len]; exact hb)
  rwa [len, factor_back hp fun s hm => (hs s hm).2, mul_one] at h

/-- C140, `vec2`: moved by a list of offsets and then moved back by the same offsets in whatever order, a point comes back up to
rounding errors. -/
theorem C140_vec2_moved_back (p : V2 F32) (vs ws : List (V2 F32)) (hp : ws.Perm vs) (i : Fin 2)
    (hf : (coord (ws.foldl V2.subAssign (vs.foldl V2.addAssign p)) i).IsFin = true) :
    |(coord (ws.foldl V2.subAssign (vs.foldl V2.addAssign p)) i).val - (coord p i).val| ≤
      ((1 + 1 / 2 ^ 24) ^ (2 * vs.length) - 1) * (|(coord p i).val| + 2 * totalSize (vs.map fun v => coord v i)) := by
  have a : ∀ p : V2 F32, coord (vs.foldl V2.addAssign p) i = (vs.map fun v => coord v i).foldl (· + ·) (coord p i) := by
    clear hf hp
    induction vs with
    | nil => exact fun _ => rfl
    | cons v vs ih =>
      intro p
      rw [List.foldl_cons, ih, List.map_cons, List.foldl_cons]
      congr 1
      fin_cases i <;> rfl
  have b : ∀ p : V2 F32, coord (ws.foldl V2.subAssign p) i = (ws.map fun v => coord v i).foldl (· - ·) (coord p i) := by
    clear hf hp
    induction ws with
    | nil => exact fun _ => rfl
    | cons v ws ih =>
      intro p
      rw [List.foldl_cons, ih, List.map_cons, List.foldl_cons]
      congr 1
      fin_cases i <;> rfl
  rw [b, a] at hf ⊢
  have h := C140_added_back (coord p i) _ _ (hp.map fun v => coord v i) hf
  rwa [List.length_map] at h

/-! ## vec3 -/

/-- C140, `vec3`: `v / v` is exactly 1 in every component that is finite and not zero. -/
theorem C140_vec3_self (v : V3 F32) (i : Fin 3) (h : (coord v i).IsFin = true) (h0 : (coord v i).val ≠ 0) :
    coord (v / v) i = lit 1 ∧ coord (V3.divAssign v v) i = lit 1 := by
  have e : coord (v / v) i = coord v i / coord v i := by fin_cases i <;> rfl
  have e' : coord (V3.divAssign v v) i = coord v i / coord v i := by fin_cases i <;> rfl
  rw [e, e', quotient_self h h0]
  exact ⟨rfl, rfl⟩

/-- C140, `vec3`: `(v + w) - v` gives `w` back up to the rounding error of the sum alone, in every component in which `w` is not
larger than `v`. -/
theorem C140_vec3_readback (v w : V3 F32) (i : Fin 3) (hf : (coord (v + w) i).IsFin = true)
    (h : |(coord w i).val| ≤ |(coord v i).val|) :
    (coord ((v + w) - v) i).IsFin = true ∧ (coord ((v + w) - v) i).val = (coord (v + w) i).val - (coord v i).val ∧
    |(coord ((v + w) - v) i).val - (coord w i).val| ≤ |(coord v i).val + (coord w i).val| / 2 ^ 24 := by
  have e : coord (v + w) i = coord v i + coord w i := by fin_cases i <;> rfl
  have e' : coord ((v + w) - v) i = (coord v i + coord w i) - coord v i := by fin_cases i <;> rfl
  rw [e] at hf
  rw [e', e]
  exact C140_readback _ _ hf h

private theorem scalings_vec3 (l : List Scaling) (i : Fin 3) : ∀ v : V3 F32,
    coord (l.foldl (Scaling.run V3.mulAssignS V3.divAssignS) v) i =
      l.foldl (Scaling.run (· * ·) (· / ·)) (coord v i) := by
  induction l with
  | nil => exact fun _ => rfl
  | cons c l ih =>
    intro v
    rw [List.foldl_cons, ih, List.foldl_cons]
    congr 1
    cases c <;> fin_cases i <;> rfl

/-- C140, `vec3`: any history of `v *= s;` and `v /= s;` is accurate in every component. -/
theorem C140_vec3_scalings (v : V3 F32) (l : List Scaling) (i : Fin 3) (fv : (coord v i).IsFin = true) (hn : l.length ≤ 2 ^ 20)
    (hl : ∀ c ∈ l, c.number.IsFin = true ∧ c.number.val ≠ 0)
    (hb : ∀ j ≤ l.length, 1 / 2 ^ 100 ≤ |(coord v i).val * totalFactor (l.take j)| ∧
      |(coord v i).val * totalFactor (l.take j)| ≤ 2 ^ 100) :
    (coord (l.foldl (Scaling.run V3.mulAssignS V3.divAssignS) v) i).IsFin = true ∧
      |(coord (l.foldl (Scaling.run V3.mulAssignS V3.divAssignS) v) i).val - (coord v i).val * totalFactor l| ≤
        ((1 + 1 / 2 ^ 24) ^ l.length - 1) * |(coord v i).val * totalFactor l| := by
  rw [scalings_vec3]
  exact C140_scalings _ fv l hn hl hb

/-- C140, `vec3`: scaled by a list of numbers and then divided by the same numbers in whatever order, a vector comes back up to
one rounding error per step. -/
theorem C140_vec3_scaled_back (v : V3 F32) (ss ws : List F32) (hp : ws.Perm ss) (i : Fin 3) (fv : (coord v i).IsFin = true)
    (hn : ss.length ≤ 2 ^ 19) (hs : ∀ s ∈ ss, s.IsFin = true ∧ s.val ≠ 0)
    (hb : ∀ j ≤ 2 * ss.length,
      1 / 2 ^ 100 ≤ |(coord v i).val * totalFactor ((ss.map Scaling.times ++ ws.map Scaling.over).take j)| ∧
      |(coord v i).val * totalFactor ((ss.map Scaling.times ++ ws.map Scaling.over).take j)| ≤ 2 ^ 100) :
    (coord (ws.foldl V3.divAssignS (ss.foldl V3.mulAssignS v)) i).IsFin = true ∧
      |(coord (ws.foldl V3.divAssignS (ss.foldl V3.mulAssignS v)) i).val - (coord v i).val| ≤
        ((1 + 1 / 2 ^ 24) ^ (2 * ss.length) - 1) * |(coord v i).val| := by
  have len : (ss.map Scaling.times ++ ws.map Scaling.over).length = 2 * ss.length := by simp [hp.length_eq]; omega
  have e : ws.foldl V3.divAssignS (ss.foldl V3.mulAssignS v) =
      (ss.map Scaling.times ++ ws.map Scaling.over).foldl (Scaling.run V3.mulAssignS V3.divAssignS) v := by
    rw [List.foldl_append, List.foldl_map, List.foldl_map]; rfl
  rw [e]
  have h := C140_vec3_scalings v (ss.map Scaling.times ++ ws.map Scaling.over) i fv (by rw [len]; omega) (fun c hc => by
    rcases List.mem_append.1 hc with m | m
    · obtain ⟨s, hm, rfl⟩ := List.mem_map.1 m
      exact hs s hm
    · obtain ⟨s, hm, rfl⟩ := List.mem_map.1 m
      exact hs s (hp.mem_iff.1 hm)) (by rw [len]; exact hb)
  rwa [len, factor_back hp fun s hm => (hs s hm).2, mul_one] at h

/-- C140, `vec3`: moved by a list of offsets and then moved back by the same offsets in whatever order, a point comes back up to
rounding errors. -/
theorem C140_vec3_moved_back (p : V3 F32) (vs ws : List (V3 F32)) (hp : ws.Perm vs) (i : Fin 3)
    (hf : (coord (ws.foldl V3.subAssign (vs.foldl V3.addAssign p)) i).IsFin = true) :
    |(coord (ws.foldl V3.subAssign (vs.foldl V3.addAssign p)) i).val - (coord p i).val| ≤
      ((1 + 1 / 2 ^ 24) ^ (2 * vs.length) - 1) * (|(coord p i).val| + 2 * totalSize (vs.map fun v => coord v i)) := by
  have a : ∀ p : V3 F32, coord (vs.foldl V3.addAssign p) i = (vs.map fun v => coord v i).foldl (· + ·) (coord p i) := by
    clear hf hp
    induction vs with
    | nil => exact fun _ => rfl
    | cons v vs ih =>
      intro p
      rw [List.foldl_cons, ih, List.map_cons, List.foldl_cons]
      congr 1
      fin_cases i <;> rfl
  have b : ∀ p : V3 F32, coord (ws.foldl V3.subAssign p) i = (ws.map fun v => coord v i).foldl (· - ·) (coord p i) := by
    clear hf hp
    induction ws with
    | nil => exact fun _ => rfl
    | cons v ws ih =>
      intro p
      rw [List.foldl_cons, ih, List.map_cons, List.foldl_cons]
      congr 1
      fin_cases i <;> rfl
  rw [b, a] at hf ⊢
  have h := C140_added_back (coord p i) _ _ (hp.map fun v => coord v i) hf
  rwa [List.length_map] at h

/-! ## vec4 -/

/-- C140, `vec4`: `v / v` is exactly 1 in every component that is finite and not zero. -/
theorem C140_vec4_self (v : V4 F32) (i : Fin 4) (h : (coord v i).IsFin = true) (h0 : (coord v i).val ≠ 0) :
    coord (v / v) i = lit 1 ∧ coord (V4.divAssign v v) i = lit 1 := by
  have e : coord (v / v) i = coord v i / coord v i := by fin_cases i <;> rfl
  have e' : coord (V4.divAssign v v) i = coord v i / coord v i := by fin_cases i <;> rfl
  rw [e, e', quotient_self h h0]
  exact ⟨rfl, rfl⟩

/-- C140, `vec4`: `(v + w) - v` gives `w` back up to the rounding error of the sum alone, in every component in which `w` is not
larger than `v`. -/
theorem C140_vec4_readback (v w : V4 F32) (i : Fin 4) (hf : (coord (v + w) i).IsFin = true)
    (h : |(coord w i).val| ≤ |(coord v i).val|) :
    (coord ((v + w) - v) i).IsFin = true ∧ (coord ((v + w) - v) i).val = (coord (v + w) i).val - (coord v i).val ∧
    |(coord ((v + w) - v) i).val - (coord w i).val| ≤ |(coord v i).val + (coord w i).val| / 2 ^ 24 := by
  have e : coord (v + w) i = coord v i + coord w i := by fin_cases i <;> rfl
  have e' : coord ((v + w) - v) i = (coord v i + coord w i) - coord v i := by fin_cases i <;> rfl
  rw [e] at hf
  rw [e', e]
  exact C140_readback _ _ hf h

private theorem scalings_vec4 (l : List Scaling) (i : Fin 4) : ∀ v : V4 F32,
    coord (l.foldl (Scaling.run V4.mulAssignS V4.divAssignS) v) i =
      l.foldl (Scaling.run (· * ·) (· / ·)) (coord v i) := by
  induction l with
  | nil => exact fun _ => rfl
  | cons c l ih =>
    intro v
    rw [List.foldl_cons, ih, List.foldl_cons]
    congr 1
    cases c <;> fin_cases i <;> rfl

/-- C140, `vec4`: any history of `v *= s;` and `v /= s;` is accurate in every component. -/
theorem C140_vec4_scalings (v : V4 F32) (l : List Scaling) (i : Fin 4) (fv : (coord v i).IsFin = true) (hn : l.length ≤ 2 ^ 20)
    (hl : ∀ c ∈ l, c.number.IsFin = true ∧ c.number.val ≠ 0)
    (hb : ∀ j ≤ l.length, 1 / 2 ^ 100 ≤ |(coord v i).val * totalFactor (l.take j)| ∧
      |(coord v i).val * totalFactor (l.take j)| ≤ 2 ^ 100) :
    (coord (l.foldl (Scaling.run V4.mulAssignS V4.divAssignS) v) i).IsFin = true ∧
      |(coord (l.foldl (Scaling.run V4.mulAssignS V4.divAssignS) v) i).val - (coord v i).val * totalFactor l| ≤
        ((1 + 1 / 2 ^ 24) ^ l.length - 1) * |(coord v i).val * totalFactor l| := by
  rw [scalings_vec4]
  exact C140_scalings _ fv l hn hl hb

/-- C140, `vec4`: scaled by a list of numbers and then divided by the same numbers in whatever order, a vector comes back up to
one rounding error per step. -/
theorem C140_vec4_scaled_back (v : V4 F32) (ss ws : List F32) (hp : ws.Perm ss) (i : Fin 4) (fv : (coord v i).IsFin = true)
    (hn : ss.length ≤ 2 ^ 19) (hs : ∀ s ∈ ss, s.IsFin = true ∧ s.val ≠ 0)
    (hb : ∀ j ≤ 2 * ss.length,
      1 / 2 ^ 100 ≤ |(coord v i).val * totalFactor ((ss.map Scaling.times ++ ws.map Scaling.over).take j)| ∧
      |(coord v i).val * totalFactor ((ss.map Scaling.times ++ ws.map Scaling.over).take j)| ≤ 2 ^ 100) :
    (coord (ws.foldl V4.divAssignS (ss.foldl V4.mulAssignS v)) i).IsFin = true ∧
      |(coord (ws.foldl V4.divAssignS (ss.foldl V4.mulAssignS v)) i).val - (coord v i).val| ≤
        ((1 + 1 / 2 ^ 24) ^ (2 * ss.length) - 1) * |(coord v i).val| := by
  have len : (ss.map Scaling.times ++ ws.map Scaling.over).length = 2 * ss.length := by simp [hp.length_eq]; omega
  have e : ws.foldl V4.divAssignS (ss.foldl V4.mulAssignS v) =
      (ss.map Scaling.times ++ ws.map Scaling.over).foldl (Scaling.run V4.mulAssignS V4.divAssignS) v := by
    rw [List.foldl_append, List.foldl_map, List.foldl_map]; rfl
  rw [e]
  have h := C140_vec4_scalings v (ss.map Scaling.times ++ ws.map Scaling.over) i fv (by rw [len]; omega) (fun c hc => by
    rcases List.mem_append.1 hc with m | m
    · obtain ⟨s, hm, rfl⟩ := List.mem_map.1 m
      exact hs s hm
    · obtain ⟨s, hm, rfl⟩ := List.mem_map.1 m
      exact hs s (hp.mem_iff.1 hm)) (by rw [len]; exact hb)
  rwa [len, factor_back hp fun s hm => (hs s hm).2, mul_one] at h

/-- C140, `vec4`: moved by a list of offsets and then moved back by the same offsets in whatever order, a point comes back up to
rounding errors. -/
theorem C140_vec4_moved_back (p : V4 F32) (vs ws : List (V4 F32)) (hp : ws.Perm vs) (i : Fin 4)
    (hf : (coord (ws.foldl V4.subAssign (vs.foldl V4.addAssign p)) i).IsFin = true) :
    |(coord (ws.foldl V4.subAssign (vs.foldl V4.addAssign p)) i).val - (coord p i).val| ≤
      ((1 + 1 / 2 ^ 24) ^ (2 * vs.length) - 1) * (|(coord p i).val| + 2 * totalSize (vs.map fun v => coord v i)) := by
  have a : ∀ p : V4 F32, coord (vs.foldl V4.addAssign p) i = (vs.map fun v => coord v i).foldl (· + ·) (coord p i) := by
    clear hf hp
    induction vs with
    | nil => exact fun _ => rfl
    | cons v vs ih =>
      intro p
      rw [List.foldl_cons, ih, List.map_cons, List.foldl_cons]
      congr 1
      fin_cases i <;> rfl
  have b : ∀ p : V4 F32, coord (ws.foldl V4.subAssign p) i = (ws.map fun v => coord v i).foldl (· - ·) (coord p i) := by
    clear hf hp
    induction ws with
    | nil => exact fun _ => rfl
    | cons v ws ih =>
      intro p
      rw [List.foldl_cons, ih, List.map_cons, List.foldl_cons]
      congr 1
      fin_cases i <;> rfl
  rw [b, a] at hf ⊢
  have h := C140_added_back (coord p i) _ _ (hp.map fun v => coord v i) hf
  rwa [List.length_map] at h

/-- 7 scaled by 3 and by 5, then divided by 5 and by 3, meets the hypotheses. -/
example : let v : V3 F32 := ⟨lit 7, lit 7, lit 7⟩
    |(coord ([lit 5, lit 3].foldl V3.divAssignS ([lit 3, lit 5].foldl V3.mulAssignS v)) 1).val - 7| ≤ 1 / 100000 := by
  intro v
  have c7 : (coord v 1).val = 7 := by decide +kernel
  have h := C140_vec3_scaled_back v [lit 3, lit 5] [lit 5, lit 3] (List.Perm.swap _ _ _) 1 (by decide +kernel) (by simp) (by
      intro s hs
      fin_cases hs <;> decide +kernel) (by
      intro j hj
      have v3 : (lit 3 : F32).val = 3 := by decide +kernel
      have v5 : (lit 5 : F32).val = 5 := by decide +kernel
      have hj : j ≤ 4 := hj
      rw [c7]
      interval_cases j <;>
        simp only [List.map_cons, List.map_nil, List.cons_append, List.nil_append, List.take_zero, List.take_succ_cons, totalFactor,
          Scaling.factor, List.prod_cons, List.prod_nil, v3, v5] <;> norm_num)
  rw [c7] at h
  refine h.2.trans ?_
  simp only [List.length_cons, List.length_nil]
  norm_num

/-- `1 + 2^-30`: the small number is lost, and that is what the bound allows. -/
example : let a : F32 := lit 1; let b : F32 := lit (1 / 2 ^ 30)
    |b.val| ≤ |a.val| ∧ (a + b).IsFin = true ∧ ((a + b) - a).val = 0 := by
  refine ⟨?_, ?_, ?_⟩ <;> decide +kernel

/-- Moving by three offsets and back. -/
example : let p : V2 F32 := ⟨lit 1, lit 2⟩; let vs : List (V2 F32) := [⟨lit 3, lit 4⟩, ⟨lit 5, lit 6⟩, ⟨lit 7, lit 8⟩]
    (coord (vs.reverse.foldl V2.subAssign (vs.foldl V2.addAssign p)) 0).IsFin = true := by decide +kernel

end Zcm
