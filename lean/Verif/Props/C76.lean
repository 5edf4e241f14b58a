import Verif.Lemmas.F32Range
import Verif.Lemmas.Ops
import Verif.Model.Common
import Verif.Props.C24
import Verif.Spec.Coord
import Mathlib.Tactic.FinCases

/-!
# C76: range guarantees survive rounding

Everything here is binary32 arithmetic with rounding to nearest (`F32`); `≤` is the C++ comparison, false on NaN.
-/

namespace Zcm

open F32

/-- The result is a number of `[lo, hi]`. -/
def InRange (lo hi r : F32) : Prop := lo ≤ r ∧ r ≤ hi

/-- C76, `fract(float)`: for finite `x` the result is in `[0, 1]` (1 is reached, see C21). -/
theorem C76_fract (x : F32) (hx : x.IsFin = true) : InRange (lit 0) (lit 1) (F.fract x) := by
  rw [fract_eq_round hx]
  have h := round_between isFin_lit_one (Int.fract_nonneg x.val)
    (by rw [val_lit_one]; exact (Int.fract_lt_one x.val).le) false
  exact ⟨le_of_val isFin_lit_zero h.1 (by rw [val_lit_zero]; exact h.2.1), le_of_val h.1 isFin_lit_one h.2.2⟩

/-- C76, `fract` of vectors: every component. -/
theorem C76_fract_vec (a : V2 F32) (b : V3 F32) (c : V4 F32) :
    (∀ i, (coord a i).IsFin = true → InRange (lit 0) (lit 1) (coord (V2.fract a) i)) ∧
    (∀ i, (coord b i).IsFin = true → InRange (lit 0) (lit 1) (coord (V3.fract b) i)) ∧
    (∀ i, (coord c i).IsFin = true → InRange (lit 0) (lit 1) (coord (V4.fract c) i)) := by
  refine ⟨?_, ?_, ?_⟩ <;> intro i h <;> fin_cases i <;> exact C76_fract _ h

/-- C76, `clamp`: any number `x` and any `lo <= hi` (infinities included). -/
theorem C76_clamp (x lo hi : F32) (hx : x ≠ .nan) (h : lo ≤ hi) : InRange lo hi (F.clamp x lo hi) :=
  clamp_range hx h

/-- C76, `clamp` of vectors: every component. -/
theorem C76_clamp_vec (a la ha : V2 F32) (b lb hb : V3 F32) (c lc hc : V4 F32) :
    (∀ i, coord a i ≠ .nan → coord la i ≤ coord ha i →
      InRange (coord la i) (coord ha i) (coord (V2.clamp a la ha) i)) ∧
    (∀ i, coord b i ≠ .nan → coord lb i ≤ coord hb i →
      InRange (coord lb i) (coord hb i) (coord (V3.clamp b lb hb) i)) ∧
    (∀ i, coord c i ≠ .nan → coord lc i ≤ coord hc i →
      InRange (coord lc i) (coord hc i) (coord (V4.clamp c lc hc) i)) := by
  refine ⟨?_, ?_, ?_⟩ <;> intro i h h' <;> fin_cases i <;> exact C76_clamp _ _ _ h h'

/-- C76, `dot(v, v)`, `length2(v)`, `length(v)` and `distance(v, w)` are NaN or at least 0, for every bit pattern of
every component. -/
theorem C76_length (s : F32) (a a' : V2 F32) (b b' : V3 F32) (c c' : V4 F32) (q : Quat F32) :
    (∀ r ∈ [F.dot s s, F.length2 s,
        V2.dot a a, V2.length2 a, V2.length a, V2.distance a a',
        V3.dot b b, V3.length2 b, V3.length b, V3.distance b b',
        V4.dot c c, V4.length2 c, V4.length c, V4.distance c c',
        Quat.dot q q, Quat.length2 q, Quat.length q], r = .nan ∨ lit 0 ≤ r) := by
  have d2 : ∀ v : V2 F32, NonnegOrNan (V2.dot v v) := fun v => add_nonneg' (sq_nonneg' _) (sq_nonneg' _)
  have d3 : ∀ v : V3 F32, NonnegOrNan (V3.dot v v) :=
    fun v => add_nonneg' (add_nonneg' (sq_nonneg' _) (sq_nonneg' _)) (sq_nonneg' _)
  have d4 : ∀ v : V4 F32, NonnegOrNan (V4.dot v v) :=
    fun v => add_nonneg' (add_nonneg' (add_nonneg' (sq_nonneg' _) (sq_nonneg' _)) (sq_nonneg' _)) (sq_nonneg' _)
  have dq : ∀ v : Quat F32, NonnegOrNan (Quat.dot v v) :=
    fun v => add_nonneg' (add_nonneg' (add_nonneg' (sq_nonneg' _) (sq_nonneg' _)) (sq_nonneg' _)) (sq_nonneg' _)
  have hs := sq_nonneg' s
  intro r hr
  simp only [List.mem_cons, List.not_mem_nil, or_false] at hr
  rcases hr with h | h | h | h | h | h | h | h | h | h | h | h | h | h | h | h | h <;> subst h
  · exact hs
  · exact hs
  · exact d2 a
  · exact d2 a
  · exact sqrt_nonneg' (d2 a)
  · exact sqrt_nonneg' (d2 (a - a'))
  · exact d3 b
  · exact d3 b
  · exact sqrt_nonneg' (d3 b)
  · exact sqrt_nonneg' (d3 (b - b'))
  · exact d4 c
  · exact d4 c
  · exact sqrt_nonneg' (d4 c)
  · exact sqrt_nonneg' (d4 (c - c'))
  · exact dq q
  · exact dq q
  · exact sqrt_nonneg' (dq q)

/-- C76, `smoothstep(float, float, float)`: whatever the edges (equal, inverted, infinite), the result is NaN or
in `[0, 1]`: rounding never pushes it out. -/
theorem C76_smoothstep (e0 e1 x : F32) :
    F.smoothstep e0 e1 x = .nan ∨ InRange (lit 0) (lit 1) (F.smoothstep e0 e1 x) := by
  by_cases hu : (x - e0) / (e1 - e0) = .nan
  · left
    unfold F.smoothstep
    rw [hu]
    have : F.clamp (.nan : F32) (lit 0) (lit 1) = .nan := by simp [F.clamp, F.min, F.max]
    rw [this]; simp
  · exact .inr (smoothstep_range _ _ _ hu)

/-- C76, `smoothstep` of vectors: every component. -/
theorem C76_smoothstep_vec (a la ha : V2 F32) (b lb hb : V3 F32) (c lc hc : V4 F32) :
    (∀ i, coord (V2.smoothstep la ha a) i = .nan ∨
      InRange (lit 0) (lit 1) (coord (V2.smoothstep la ha a) i)) ∧
    (∀ i, coord (V3.smoothstep lb hb b) i = .nan ∨
      InRange (lit 0) (lit 1) (coord (V3.smoothstep lb hb b) i)) ∧
    (∀ i, coord (V4.smoothstep lc hc c) i = .nan ∨
      InRange (lit 0) (lit 1) (coord (V4.smoothstep lc hc c) i)) := by
  refine ⟨?_, ?_, ?_⟩ <;> intro i <;> fin_cases i <;> exact C76_smoothstep _ _ _

/-- C76, `smoothstep`: with ordered finite edges whose distance does not overflow, a finite `x` never gives NaN. -/
theorem C76_smoothstep_fin (e0 e1 x : F32) (h0 : e0.IsFin = true) (h1 : e1.IsFin = true) (hx : x.IsFin = true)
    (h : e0 < e1) (hd : (e1 - e0).IsFin = true) :
    InRange (lit 0) (lit 1) (F.smoothstep e0 e1 x) := by
  have hp := sub_key_pos h0 h1 h
  have hxn : x - e0 ≠ .nan := by rw [sub_fin hx h0]; exact round_ne_nan _ _
  exact smoothstep_range _ _ _ (div_ne_nan hxn hd hp.ne')

/-- C76, `mix(x, y, 0) == x` for finite `x` when `y - x` does not overflow, componentwise for vectors and with a
scalar or vector parameter. -/
theorem C76_mix (x y : F32) (a a' : V2 F32) (b b' : V3 F32) (c c' : V4 F32) :
    (x.IsFin = true → (y - x).IsFin = true → (F.mix x y (lit 0) == x) = true) ∧
    (∀ i, (coord a i).IsFin = true → (coord a' i - coord a i).IsFin = true →
      (coord (V2.mix a a' (V2.splat (lit 0))) i == coord a i) = true ∧
      (coord (V2.mixS a a' (lit 0)) i == coord a i) = true) ∧
    (∀ i, (coord b i).IsFin = true → (coord b' i - coord b i).IsFin = true →
      (coord (V3.mix b b' (V3.splat (lit 0))) i == coord b i) = true ∧
      (coord (V3.mixS b b' (lit 0)) i == coord b i) = true) ∧
    (∀ i, (coord c i).IsFin = true → (coord c' i - coord c i).IsFin = true →
      (coord (V4.mix c c' (V4.splat (lit 0))) i == coord c i) = true ∧
      (coord (V4.mixS c c' (lit 0)) i == coord c i) = true) := by
  refine ⟨C24_float_zero x y, ?_, ?_, ?_⟩ <;> intro i h h' <;> fin_cases i <;>
    exact ⟨C24_float_zero _ _ h h', C24_float_zero _ _ h h'⟩

/-- Non-vacuity: the upper bound of `fract` and the interior of `smoothstep` are reached with rounding; `smoothstep`
with equal edges is NaN at the edge; lengths overflow to infinity, which is still `>= 0`. -/
example : F.fract (lit (-1/10^20) : F32) = lit 1 ∧
    F.smoothstep (lit 0) (lit 3) (lit 1 : F32) ≠ lit 0 ∧ F.smoothstep (lit 0) (lit 3) (lit 1 : F32) < lit (1/2) ∧
    F.smoothstep (lit 1) (lit 1) (lit 1 : F32) = .nan ∧ F.smoothstep (lit 1) (lit 1) (lit 2 : F32) = lit 1 ∧
    F.clamp (.inf false) (lit 0) (lit 7 : F32) = lit 7 ∧
    V2.length (⟨lit (10^30), lit 1⟩ : V2 F32) = .inf false ∧
    V2.dot (⟨.inf true, .nan⟩ : V2 F32) ⟨.inf true, .nan⟩ = .nan := by decide +kernel

/-- `length(float)` is not covered by `C76_length`: it returns its argument (C31). -/
example : (F.length (lit (-1)) : F32) < lit 0 := by decide +kernel

end Zcm
