import Verif.Lemmas.F32Slab
import Verif.Spec.Slab
import Verif.Props.C72
import Verif.Props.C132

/-!
# C147: lines and boxes

Caller code, for the line of the points `o + t * d` and the box from `lo` to `hi`:

    vec3 inv = 1.0f / d;
    vec3 t1 = (lo - o) * inv, t2 = (hi - o) * inv;
    float near = compMax(min(t1, t2)), far = compMin(max(t1, t2));
    bool hit = near <= far;
-/

set_option exponentiation.threshold 300

namespace Zcm

open F32


/-- Caller code for vec2: the first and the last parameter of the line in the box. -/
def boxTimes2 (lo hi o d : V2 F32) : F32 × F32 :=
  let inv := (lit 1 : F32) / d
  let t1 := (lo - o) * inv
  let t2 := (hi - o) * inv
  (V2.compMax (V2.min t1 t2), V2.compMin (V2.max t1 t2))

/-- Caller code for vec2: the line meets the box. -/
def boxHit2 (lo hi o d : V2 F32) : Prop := (boxTimes2 lo hi o d).1 ≤ (boxTimes2 lo hi o d).2

private theorem times2 (lo hi o d : V2 F32)
    (h : ∀ i, (coord lo i - coord o i) * (lit 1 / coord d i) ≠ .nan ∧ (coord hi i - coord o i) * (lit 1 / coord d i) ≠ .nan) :
    ((∃ i, (boxTimes2 lo hi o d).1 = F.min ((coord lo i - coord o i) * (lit 1 / coord d i)) ((coord hi i - coord o i) * (lit 1 / coord d i))) ∧
      ∀ i, F.min ((coord lo i - coord o i) * (lit 1 / coord d i)) ((coord hi i - coord o i) * (lit 1 / coord d i)) ≤ (boxTimes2 lo hi o d).1) ∧
    ((∃ i, (boxTimes2 lo hi o d).2 = F.max ((coord lo i - coord o i) * (lit 1 / coord d i)) ((coord hi i - coord o i) * (lit 1 / coord d i))) ∧
      ∀ i, (boxTimes2 lo hi o d).2 ≤ F.max ((coord lo i - coord o i) * (lit 1 / coord d i)) ((coord hi i - coord o i) * (lit 1 / coord d i))) := by
  have ca : ∀ i, coord (V2.min ((lo - o) * ((lit 1 : F32) / d)) ((hi - o) * ((lit 1 : F32) / d))) i =
      F.min ((coord lo i - coord o i) * (lit 1 / coord d i)) ((coord hi i - coord o i) * (lit 1 / coord d i)) := by
    intro i; fin_cases i <;> rfl
  have cb : ∀ i, coord (V2.max ((lo - o) * ((lit 1 : F32) / d)) ((hi - o) * ((lit 1 : F32) / d))) i =
      F.max ((coord lo i - coord o i) * (lit 1 / coord d i)) ((coord hi i - coord o i) * (lit 1 / coord d i)) := by
    intro i; fin_cases i <;> rfl
  have g1 := C72_vec2_max_float (V2.min ((lo - o) * ((lit 1 : F32) / d)) ((hi - o) * ((lit 1 : F32) / d)))
    (fun i => by rw [ca]; exact (F32.min_key (h i).1 (h i).2).1)
  have g2 := C72_vec2_min_float (V2.max ((lo - o) * ((lit 1 : F32) / d)) ((hi - o) * ((lit 1 : F32) / d)))
    (fun i => by rw [cb]; exact (F32.max_key (h i).1 (h i).2).1)
  obtain ⟨⟨i, p⟩, q⟩ := g1
  obtain ⟨⟨j, r⟩, s⟩ := g2
  exact ⟨⟨⟨i, by rw [← ca]; exact p⟩, fun i => by rw [← ca]; exact q i⟩, ⟨⟨j, by rw [← cb]; exact r⟩, fun i => by rw [← cb]; exact s i⟩⟩

/-- C147, vec2: if one box is inside another, then the outer box is entered no later and left no earlier, and a line that meets the
inner box as computed meets the outer box as computed. Nothing is lost to rounding, overflow, or a direction with zero components. -/
theorem C147_vec2_nested (lo hi lo' hi' o d : V2 F32) (fl : ∀ i, (coord lo i).IsFin = true) (fh : ∀ i, (coord hi i).IsFin = true)
    (fl' : ∀ i, (coord lo' i).IsFin = true) (fh' : ∀ i, (coord hi' i).IsFin = true) (fo : ∀ i, (coord o i).IsFin = true)
    (h : ∀ i, coord lo i ≤ coord hi i) (h1 : ∀ i, coord lo' i ≤ coord lo i) (h2 : ∀ i, coord hi i ≤ coord hi' i)
    (c : Crosses (coord lo) (coord hi) (coord o) (coord d)) (c' : Crosses (coord lo') (coord hi') (coord o) (coord d)) :
    (boxTimes2 lo' hi' o d).1 ≤ (boxTimes2 lo hi o d).1 ∧ (boxTimes2 lo hi o d).2 ≤ (boxTimes2 lo' hi' o d).2 ∧
    (boxHit2 lo hi o d → boxHit2 lo' hi' o d) := by
  have n1 := fun i => crossing_ne_nan (fl i) (fo i) (c i).1 ((c i).2.imp_right (·.1))
  have n2 := fun i => crossing_ne_nan (fh i) (fo i) (c i).1 ((c i).2.imp_right (·.2))
  have n3 := fun i => crossing_ne_nan (fl' i) (fo i) (c' i).1 ((c' i).2.imp_right (·.1))
  have n4 := fun i => crossing_ne_nan (fh' i) (fo i) (c' i).1 ((c' i).2.imp_right (·.2))
  obtain ⟨⟨-, a2⟩, ⟨⟨j, b1⟩, b2⟩⟩ := times2 lo hi o d fun i => ⟨n1 i, n2 i⟩
  obtain ⟨⟨⟨i, a3⟩, a4⟩, ⟨⟨l, b3⟩, b4⟩⟩ := times2 lo' hi' o d fun i => ⟨n3 i, n4 i⟩
  have m := fun i => slab_mono (fl i) (fh i) (fl' i) (fh' i) (fo i) (h i) (h1 i) (h2 i) (n1 i) (n2 i) (n3 i) (n4 i)
  have r1 : (boxTimes2 lo' hi' o d).1 ≤ (boxTimes2 lo hi o d).1 := by rw [a3]; exact le_trans_f (m i).1 (a2 i)
  have r2 : (boxTimes2 lo hi o d).2 ≤ (boxTimes2 lo' hi' o d).2 := by rw [b3]; exact le_trans_f (b2 l) (m l).2
  exact ⟨r1, r2, fun hit => le_trans_f r1 (le_trans_f hit r2)⟩

/-- C147, vec2: a bounding box hierarchy never loses a hit. The box around a list of boxes, made with `min` and `max`, is hit as computed
by every line that hits one of the boxes as computed. -/
theorem C147_vec2_hierarchy (p : V2 F32 × V2 F32) (ps : List (V2 F32 × V2 F32)) (b : V2 F32 × V2 F32) (hb : b ∈ p :: ps) (o d : V2 F32)
    (f : ∀ a ∈ p :: ps, ∀ i, (coord a.1 i).IsFin = true ∧ (coord a.2 i).IsFin = true) (fo : ∀ i, (coord o i).IsFin = true)
    (h : ∀ i, coord b.1 i ≤ coord b.2 i) (c : Crosses (coord b.1) (coord b.2) (coord o) (coord d))
    (c' : Crosses (coord ((ps.map (·.1)).foldl V2.min p.1)) (coord ((ps.map (·.2)).foldl V2.max p.2)) (coord o) (coord d))
    (hit : boxHit2 b.1 b.2 o d) : boxHit2 ((ps.map (·.1)).foldl V2.min p.1) ((ps.map (·.2)).foldl V2.max p.2) o d := by
  have s := fun i => (C132_vec2_box p.1 (ps.map (·.1)) i (isFin_ne_nan (f p (by simp) i).1)).1
  have l := fun i => (C132_vec2_box p.2 (ps.map (·.2)) i (isFin_ne_nan (f p (by simp) i).2)).2
  have fs : ∀ i, (coord ((ps.map (·.1)).foldl V2.min p.1) i).IsFin = true := fun i => by
    have e := (s i).1
    rw [← List.map_cons, List.map_map] at e
    obtain ⟨a, ha, e⟩ := List.mem_map.1 e
    rw [← e]; exact (f a ha i).1
  have fg : ∀ i, (coord ((ps.map (·.2)).foldl V2.max p.2) i).IsFin = true := fun i => by
    have e := (l i).1
    rw [← List.map_cons, List.map_map] at e
    obtain ⟨a, ha, e⟩ := List.mem_map.1 e
    rw [← e]; exact (f a ha i).2
  refine (C147_vec2_nested b.1 b.2 _ _ o d (fun i => (f b hb i).1) (fun i => (f b hb i).2) fs fg fo h (fun i => ?_) (fun i => ?_) c c').2.2 hit
  · refine (s i).2.2 _ ?_ (isFin_ne_nan (f b hb i).1)
    rw [← List.map_cons, List.map_map]
    exact List.mem_map.2 ⟨b, hb, rfl⟩
  · refine (l i).2.2 _ ?_ (isFin_ne_nan (f b hb i).2)
    rw [← List.map_cons, List.map_map]
    exact List.mem_map.2 ⟨b, hb, rfl⟩

/-- C147, vec2: the answer is right up to rounding. If the exact line is in the box over a stretch of parameters longer than twice the
error `3.01 / 2^24 * T`, the computed answer is yes. If the computed answer is yes, then at every parameter from the computed entry to the
computed exit the exact point is in the box up to a distance of `|d i|` times the error in coordinate `i`. -/
theorem C147_vec2_decision (lo hi o d : V2 F32) (T : ℝ) (g : GoodBox (coord lo) (coord hi) (coord o) (coord d) T) :
    (∀ s1 s2 : ℝ, 2 * (3.01 / 2 ^ 24 * T + 1 / 2 ^ 149) ≤ s2 - s1 →
      InBox (coord lo) (coord hi) (coord o) (coord d) s1 (fun _ => 0) → InBox (coord lo) (coord hi) (coord o) (coord d) s2 (fun _ => 0) →
      boxHit2 lo hi o d) ∧
    (boxHit2 lo hi o d → (boxTimes2 lo hi o d).1.IsFin = true ∧ (boxTimes2 lo hi o d).2.IsFin = true ∧
      ∀ s : ℝ, ((boxTimes2 lo hi o d).1.val : ℝ) ≤ s → s ≤ (boxTimes2 lo hi o d).2.val →
        InBox (coord lo) (coord hi) (coord o) (coord d) s (fun i => |((coord d i).val : ℝ)| * (3.01 / 2 ^ 24 * T + 1 / 2 ^ 149))) := by
  have c1 := fun i => near_crossing (g.fin i).1 (g.fin i).2.2.1 (g.fin i).2.2.2 (g.d_ge i) (g.d_le i) (g.lo_le i).1 (g.lo_le i).2
  have c2 := fun i => near_crossing (g.fin i).2.1 (g.fin i).2.2.1 (g.fin i).2.2.2 (g.d_ge i) (g.d_le i) (g.hi_le i).1 (g.hi_le i).2
  obtain ⟨a, b⟩ := times2 lo hi o d fun i => ⟨isFin_ne_nan (c1 i).1, isFin_ne_nan (c2 i).1⟩
  exact slab_decision g (fun _ => rfl) (fun _ => rfl) a b

/-- `C147_vec2_nested` is not vacuous: a direction parallel to the first axis, one box inside another, and a hit. -/
example : boxHit2 { x := lit 1, y := lit (-1) } { x := lit 3, y := lit 2 } { x := lit 0, y := lit 0 } { x := lit 2, y := lit 0 } ∧
    boxHit2 { x := lit (-5), y := lit (-3) } { x := lit 3, y := lit 4 } { x := lit 0, y := lit 0 } { x := lit 2, y := lit 0 } := by
  have c : ∀ {lo hi o d : V2 F32}, (∀ i, (coord d i).IsFin = true ∧ ((lit 1 / coord d i).IsFin = true ∨
      ((coord lo i).val ≠ (coord o i).val ∧ (coord hi i).val ≠ (coord o i).val))) → Crosses (coord lo) (coord hi) (coord o) (coord d) := id
  have hit : boxHit2 { x := lit 1, y := lit (-1) } { x := lit 3, y := lit 2 } { x := lit 0, y := lit 0 } { x := lit 2, y := lit 0 } := by unfold boxHit2; decide +kernel
  refine ⟨hit, (C147_vec2_nested _ _ _ _ _ _ (by decide +kernel) (by decide +kernel) (by decide +kernel) (by decide +kernel) (by decide +kernel)
    (by decide +kernel) (by decide +kernel) (by decide +kernel) (c (by decide +kernel)) (c (by decide +kernel))).2.2 hit⟩

private def exFirst2 : V2 F32 × V2 F32 := ({ x := lit (-9), y := lit (-4) }, { x := lit (-8), y := lit (-3) })
private def exBox2 : V2 F32 × V2 F32 := ({ x := lit 1, y := lit (-1) }, { x := lit 3, y := lit 2 })

/-- `C147_vec2_hierarchy` is not vacuous: two boxes, and a line that hits the second. -/
example : boxHit2 (([exBox2].map (·.1)).foldl V2.min exFirst2.1) (([exBox2].map (·.2)).foldl V2.max exFirst2.2)
    { x := lit 0, y := lit 0 } { x := lit 2, y := lit 1 } := by
  have c : ∀ {lo hi o d : V2 F32}, (∀ i, (coord d i).IsFin = true ∧ ((lit 1 / coord d i).IsFin = true ∨
      ((coord lo i).val ≠ (coord o i).val ∧ (coord hi i).val ≠ (coord o i).val))) → Crosses (coord lo) (coord hi) (coord o) (coord d) := id
  have hit : boxHit2 exBox2.1 exBox2.2 { x := lit 0, y := lit 0 } { x := lit 2, y := lit 1 } := by unfold boxHit2; decide +kernel
  exact C147_vec2_hierarchy exFirst2 [exBox2] exBox2 (by simp) _ _
    (by decide +kernel) (by decide +kernel) (by decide +kernel) (c (by decide +kernel)) (c (by decide +kernel)) hit

/-- `C147_vec2_decision` is not vacuous: the line through the origin and the box from one to three. -/
example : boxHit2 { x := lit 1, y := lit 1 } { x := lit 3, y := lit 3 } { x := lit 0, y := lit 0 } { x := lit 1, y := lit 2 } := by
  have v0 : (lit 0 : F32).val = 0 := by decide +kernel
  have v1 : (lit 1 : F32).val = 1 := by decide +kernel
  have v2 : (lit 2 : F32).val = 2 := by decide +kernel
  have v3 : (lit 3 : F32).val = 3 := by decide +kernel
  refine (C147_vec2_decision _ _ _ _ 3 ⟨by decide +kernel, by decide +kernel, fun i => ?_, fun i => ?_, fun i => ?_, fun i => ?_⟩).1 1 1.5
    (by norm_num) (fun i => ?_) (fun i => ?_) <;> fin_cases i <;> simp [coord, v0, v1, v2, v3] <;> norm_num

/-- Caller code for vec3: the first and the last parameter of the line in the box. -/
def boxTimes3 (lo hi o d : V3 F32) : F32 × F32 :=
  let inv := (lit 1 : F32) / d
  let t1 := (lo - o) * inv
  let t2 := (hi - o) * inv
  (V3.compMax (V3.min t1 t2), V3.compMin (V3.max t1 t2))

/-- Caller code for vec3: the line meets the box. -/
def boxHit3 (lo hi o d : V3 F32) : Prop := (boxTimes3 lo hi o d).1 ≤ (boxTimes3 lo hi o d).2

private theorem times3 (lo hi o d : V3 F32)
    (h : ∀ i, (coord lo i - coord o i) * (lit 1 / coord d i) ≠ .nan ∧ (coord hi i - coord o i) * (lit 1 / coord d i) ≠ .nan) :
    ((∃ i, (boxTimes3 lo hi o d).1 = F.min ((coord lo i - coord o i) * (lit 1 / coord d i)) ((coord hi i - coord o i) * (lit 1 / coord d i))) ∧
      ∀ i, F.min ((coord lo i - coord o i) * (lit 1 / coord d i)) ((coord hi i - coord o i) * (lit 1 / coord d i)) ≤ (boxTimes3 lo hi o d).1) ∧
    ((∃ i, (boxTimes3 lo hi o d).2 = F.max ((coord lo i - coord o i) * (lit 1 / coord d i)) ((coord hi i - coord o i) * (lit 1 / coord d i))) ∧
      ∀ i, (boxTimes3 lo hi o d).2 ≤ F.max ((coord lo i - coord o i) * (lit 1 / coord d i)) ((coord hi i - coord o i) * (lit 1 / coord d i))) := by
  have ca : ∀ i, coord (V3.min ((lo - o) * ((lit 1 : F32) / d)) ((hi - o) * ((lit 1 : F32) / d))) i =
      F.min ((coord lo i - coord o i) * (lit 1 / coord d i)) ((coord hi i - coord o i) * (lit 1 / coord d i)) := by
    intro i; fin_cases i <;> rfl
  have cb : ∀ i, coord (V3.max ((lo - o) * ((lit 1 : F32) / d)) ((hi - o) * ((lit 1 : F32) / d))) i =
      F.max ((coord lo i - coord o i) * (lit 1 / coord d i)) ((coord hi i - coord o i) * (lit 1 / coord d i)) := by
    intro i; fin_cases i <;> rfl
  have g1 := C72_vec3_max_float (V3.min ((lo - o) * ((lit 1 : F32) / d)) ((hi - o) * ((lit 1 : F32) / d)))
    (fun i => by rw [ca]; exact (F32.min_key (h i).1 (h i).2).1)
  have g2 := C72_vec3_min_float (V3.max ((lo - o) * ((lit 1 : F32) / d)) ((hi - o) * ((lit 1 : F32) / d)))
    (fun i => by rw [cb]; exact (F32.max_key (h i).1 (h i).2).1)
  obtain ⟨⟨i, p⟩, q⟩ := g1
  obtain ⟨⟨j, r⟩, s⟩ := g2
  exact ⟨⟨⟨i, by rw [← ca]; exact p⟩, fun i => by rw [← ca]; exact q i⟩, ⟨⟨j, by rw [← cb]; exact r⟩, fun i => by rw [← cb]; exact s i⟩⟩

/-- C147, vec3: if one box is inside another, then the outer box is entered no later and left no earlier, and a line that meets the
inner box as computed meets the outer box as computed. Nothing is lost to rounding, overflow, or a direction with zero components. -/
theorem C147_vec3_nested (lo hi lo' hi' o d : V3 F32) (fl : ∀ i, (coord lo i).IsFin = true) (fh : ∀ i, (coord hi i).IsFin = true)
    (fl' : ∀ i, (coord lo' i).IsFin = true) (fh' : ∀ i, (coord hi' i).IsFin = true) (fo : ∀ i, (coord o i).IsFin = true)
    (h : ∀ i, coord lo i ≤ coord hi i) (h1 : ∀ i, coord lo' i ≤ coord lo i) (h2 : ∀ i, coord hi i ≤ coord hi' i)
    (c : Crosses (coord lo) (coord hi) (coord o) (coord d)) (c' : Crosses (coord lo') (coord hi') (coord o) (coord d)) :
    (boxTimes3 lo' hi' o d).1 ≤ (boxTimes3 lo hi o d).1 ∧ (boxTimes3 lo hi o d).2 ≤ (boxTimes3 lo' hi' o d).2 ∧
    (boxHit3 lo hi o d → boxHit3 lo' hi' o d) := by
  have n1 := fun i => crossing_ne_nan (fl i) (fo i) (c i).1 ((c i).2.imp_right (·.1))
  have n2 := fun i => crossing_ne_nan (fh i) (fo i) (c i).1 ((c i).2.imp_right (·.2))
  have n3 := fun i => crossing_ne_nan (fl' i) (fo i) (c' i).1 ((c' i).2.imp_right (·.1))
  have n4 := fun i => crossing_ne_nan (fh' i) (fo i) (c' i).1 ((c' i).2.imp_right (·.2))
  obtain ⟨⟨-, a2⟩, ⟨⟨j, b1⟩, b2⟩⟩ := times3 lo hi o d fun i => ⟨n1 i, n2 i⟩
  obtain ⟨⟨⟨i, a3⟩, a4⟩, ⟨⟨l, b3⟩, b4⟩⟩ := times3 lo' hi' o d fun i => ⟨n3 i, n4 i⟩
  have m := fun i => slab_mono (fl i) (fh i) (fl' i) (fh' i) (fo i) (h i) (h1 i) (h2 i) (n1 i) (n2 i) (n3 i) (n4 i)
  have r1 : (boxTimes3 lo' hi' o d).1 ≤ (boxTimes3 lo hi o d).1 := by rw [a3]; exact le_trans_f (m i).1 (a2 i)
  have r2 : (boxTimes3 lo hi o d).2 ≤ (boxTimes3 lo' hi' o d).2 := by rw [b3]; exact le_trans_f (b2 l) (m l).2
  exact ⟨r1, r2, fun hit => le_trans_f r1 (le_trans_f hit r2)⟩

/-- C147, vec3: a bounding box hierarchy never loses a hit. The box around a list of boxes, made with `min` and `max`, is hit as computed
by every line that hits one of the boxes as computed. -/
theorem C147_vec3_hierarchy (p : V3 F32 × V3 F32) (ps : List (V3 F32 × V3 F32)) (b : V3 F32 × V3 F32) (hb : b ∈ p :: ps) (o d : V3 F32)
    (f : ∀ a ∈ p :: ps, ∀ i, (coord a.1 i).IsFin = true ∧ (coord a.2 i).IsFin = true) (fo : ∀ i, (coord o i).IsFin = true)
    (h : ∀ i, coord b.1 i ≤ coord b.2 i) (c : Crosses (coord b.1) (coord b.2) (coord o) (coord d))
    (c' : Crosses (coord ((ps.map (·.1)).foldl V3.min p.1)) (coord ((ps.map (·.2)).foldl V3.max p.2)) (coord o) (coord d))
    (hit : boxHit3 b.1 b.2 o d) : boxHit3 ((ps.map (·.1)).foldl V3.min p.1) ((ps.map (·.2)).foldl V3.max p.2) o d := by
  have s := fun i => (C132_vec3_box p.1 (ps.map (·.1)) i (isFin_ne_nan (f p (by simp) i).1)).1
  have l := fun i => (C132_vec3_box p.2 (ps.map (·.2)) i (isFin_ne_nan (f p (by simp) i).2)).2
  have fs : ∀ i, (coord ((ps.map (·.1)).foldl V3.min p.1) i).IsFin = true := fun i => by
    have e := (s i).1
    rw [← List.map_cons, List.map_map] at e
    obtain ⟨a, ha, e⟩ := List.mem_map.1 e
    rw [← e]; exact (f a ha i).1
  have fg : ∀ i, (coord ((ps.map (·.2)).foldl V3.max p.2) i).IsFin = true := fun i => by
    have e := (l i).1
    rw [← List.map_cons, List.map_map] at e
    obtain ⟨a, ha, e⟩ := List.mem_map.1 e
    rw [← e]; exact (f a ha i).2
  refine (C147_vec3_nested b.1 b.2 _ _ o d (fun i => (f b hb i).1) (fun i => (f b hb i).2) fs fg fo h (fun i => ?_) (fun i => ?_) c c').2.2 hit
  · refine (s i).2.2 _ ?_ (isFin_ne_nan (f b hb i).1)
    rw [← List.map_cons, List.map_map]
    exact List.mem_map.2 ⟨b, hb, rfl⟩
  · refine (l i).2.2 _ ?_ (isFin_ne_nan (f b hb i).2)
    rw [← List.map_cons, List.map_map]
    exact List.mem_map.2 ⟨b, hb, rfl⟩

/-- C147, vec3: the answer is right up to rounding. If the exact line is in the box over a stretch of parameters longer than twice the
error `3.01 / 2^24 * T`, the computed answer is yes. If the computed answer is yes, then at every parameter from the computed entry to the
computed exit the exact point is in the box up to a distance of `|d i|` times the error in coordinate `i`. -/
theorem C147_vec3_decision (lo hi o d : V3 F32) (T : ℝ) (g : GoodBox (coord lo) (coord hi) (coord o) (coord d) T) :
    (∀ s1 s2 : ℝ, 2 * (3.01 / 2 ^ 24 * T + 1 / 2 ^ 149) ≤ s2 - s1 →
      InBox (coord lo) (coord hi) (coord o) (coord d) s1 (fun _ => 0) → InBox (coord lo) (coord hi) (coord o) (coord d) s2 (fun _ => 0) →
      boxHit3 lo hi o d) ∧
    (boxHit3 lo hi o d → (boxTimes3 lo hi o d).1.IsFin = true ∧ (boxTimes3 lo hi o d).2.IsFin = true ∧
      ∀ s : ℝ, ((boxTimes3 lo hi o d).1.val : ℝ) ≤ s → s ≤ (boxTimes3 lo hi o d).2.val →
        InBox (coord lo) (coord hi) (coord o) (coord d) s (fun i => |((coord d i).val : ℝ)| * (3.01 / 2 ^ 24 * T + 1 / 2 ^ 149))) := by
  have c1 := fun i => near_crossing (g.fin i).1 (g.fin i).2.2.1 (g.fin i).2.2.2 (g.d_ge i) (g.d_le i) (g.lo_le i).1 (g.lo_le i).2
  have c2 := fun i => near_crossing (g.fin i).2.1 (g.fin i).2.2.1 (g.fin i).2.2.2 (g.d_ge i) (g.d_le i) (g.hi_le i).1 (g.hi_le i).2
  obtain ⟨a, b⟩ := times3 lo hi o d fun i => ⟨isFin_ne_nan (c1 i).1, isFin_ne_nan (c2 i).1⟩
  exact slab_decision g (fun _ => rfl) (fun _ => rfl) a b

/-- `C147_vec3_nested` is not vacuous: a direction parallel to the first axis, one box inside another, and a hit. -/
example : boxHit3 { x := lit 1, y := lit (-1), z := lit (-1) } { x := lit 3, y := lit 2, z := lit 2 } { x := lit 0, y := lit 0, z := lit 0 } { x := lit 2, y := lit 0, z := lit 0 } ∧
    boxHit3 { x := lit (-5), y := lit (-3), z := lit (-1) } { x := lit 3, y := lit 4, z := lit 2 } { x := lit 0, y := lit 0, z := lit 0 } { x := lit 2, y := lit 0, z := lit 0 } := by
  have c : ∀ {lo hi o d : V3 F32}, (∀ i, (coord d i).IsFin = true ∧ ((lit 1 / coord d i).IsFin = true ∨
      ((coord lo i).val ≠ (coord o i).val ∧ (coord hi i).val ≠ (coord o i).val))) → Crosses (coord lo) (coord hi) (coord o) (coord d) := id
  have hit : boxHit3 { x := lit 1, y := lit (-1), z := lit (-1) } { x := lit 3, y := lit 2, z := lit 2 } { x := lit 0, y := lit 0, z := lit 0 } { x := lit 2, y := lit 0, z := lit 0 } := by unfold boxHit3; decide +kernel
  refine ⟨hit, (C147_vec3_nested _ _ _ _ _ _ (by decide +kernel) (by decide +kernel) (by decide +kernel) (by decide +kernel) (by decide +kernel)
    (by decide +kernel) (by decide +kernel) (by decide +kernel) (c (by decide +kernel)) (c (by decide +kernel))).2.2 hit⟩

private def exFirst3 : V3 F32 × V3 F32 := ({ x := lit (-9), y := lit (-4), z := lit 1 }, { x := lit (-8), y := lit (-3), z := lit 2 })
private def exBox3 : V3 F32 × V3 F32 := ({ x := lit 1, y := lit (-1), z := lit (-1) }, { x := lit 3, y := lit 2, z := lit 2 })

/-- `C147_vec3_hierarchy` is not vacuous: two boxes, and a line that hits the second. -/
example : boxHit3 (([exBox3].map (·.1)).foldl V3.min exFirst3.1) (([exBox3].map (·.2)).foldl V3.max exFirst3.2)
    { x := lit 0, y := lit 0, z := lit 0 } { x := lit 2, y := lit 1, z := lit 1 } := by
  have c : ∀ {lo hi o d : V3 F32}, (∀ i, (coord d i).IsFin = true ∧ ((lit 1 / coord d i).IsFin = true ∨
      ((coord lo i).val ≠ (coord o i).val ∧ (coord hi i).val ≠ (coord o i).val))) → Crosses (coord lo) (coord hi) (coord o) (coord d) := id
  have hit : boxHit3 exBox3.1 exBox3.2 { x := lit 0, y := lit 0, z := lit 0 } { x := lit 2, y := lit 1, z := lit 1 } := by unfold boxHit3; decide +kernel
  exact C147_vec3_hierarchy exFirst3 [exBox3] exBox3 (by simp) _ _
    (by decide +kernel) (by decide +kernel) (by decide +kernel) (c (by decide +kernel)) (c (by decide +kernel)) hit

/-- `C147_vec3_decision` is not vacuous: the line through the origin and the box from one to three. -/
example : boxHit3 { x := lit 1, y := lit 1, z := lit 1 } { x := lit 3, y := lit 3, z := lit 3 } { x := lit 0, y := lit 0, z := lit 0 } { x := lit 1, y := lit 2, z := lit 2 } := by
  have v0 : (lit 0 : F32).val = 0 := by decide +kernel
  have v1 : (lit 1 : F32).val = 1 := by decide +kernel
  have v2 : (lit 2 : F32).val = 2 := by decide +kernel
  have v3 : (lit 3 : F32).val = 3 := by decide +kernel
  refine (C147_vec3_decision _ _ _ _ 3 ⟨by decide +kernel, by decide +kernel, fun i => ?_, fun i => ?_, fun i => ?_, fun i => ?_⟩).1 1 1.5
    (by norm_num) (fun i => ?_) (fun i => ?_) <;> fin_cases i <;> simp [coord, v0, v1, v2, v3] <;> norm_num

end Zcm
