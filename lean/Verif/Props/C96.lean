import Verif.Lemmas.F32Scale
import Verif.Lemmas.F32Zero
import Verif.Model.Common
import Verif.Model.Geometric
import Verif.Model.MatrixTransform
import Verif.Spec.Coord

/-!
# C96: scaling by powers of two in IEEE arithmetic

`ScaledBy k x x'` says that the finite float `x'` is exactly `x · 2^k` and `NoUnderflow` that a product is 0 or
not below the least normal number (Spec/Scaled.lean).
-/

namespace Zcm

open F32

set_option exponentiation.threshold 300

section helpers
variable {j k : ℤ} {a a' b b' c c' d d' e e' f f' g g' h h' : F32}

private theorem mulFin (p : (a * b).IsFin = true) (p' : (a' * b').IsFin = true)
    (ha : ScaledBy j a a') (hb : ScaledBy k b b') (u : NoUnderflow (a.val * b.val))
    (u' : NoUnderflow (a'.val * b'.val)) : ScaledBy (j + k) (a * b) (a' * b') := ha.mul hb p p' u u'

private theorem dot2 (ha : ScaledBy j a a') (hb : ScaledBy k b b') (hc : ScaledBy j c c') (hd : ScaledBy k d d')
    (u1 : NoUnderflow (a.val * b.val)) (u1' : NoUnderflow (a'.val * b'.val))
    (u2 : NoUnderflow (c.val * d.val)) (u2' : NoUnderflow (c'.val * d'.val))
    (p : (a * b + c * d).IsFin = true) (p' : (a' * b' + c' * d').IsFin = true) :
    ScaledBy (j + k) (a * b + c * d) (a' * b' + c' * d') := by
  have q := isFin_add p
  have q' := isFin_add p'
  exact (ha.mul hb q.1 q'.1 u1 u1').add (hc.mul hd q.2 q'.2 u2 u2') p p'

private theorem diff2 (ha : ScaledBy j a a') (hb : ScaledBy k b b') (hc : ScaledBy j c c') (hd : ScaledBy k d d')
    (u1 : NoUnderflow (a.val * b.val)) (u1' : NoUnderflow (a'.val * b'.val))
    (u2 : NoUnderflow (c.val * d.val)) (u2' : NoUnderflow (c'.val * d'.val))
    (p : (a * b - c * d).IsFin = true) (p' : (a' * b' - c' * d').IsFin = true) :
    ScaledBy (j + k) (a * b - c * d) (a' * b' - c' * d') := by
  have q := isFin_sub p
  have q' := isFin_sub p'
  exact (ha.mul hb q.1 q'.1 u1 u1').sub (hc.mul hd q.2 q'.2 u2 u2') p p'

private theorem dot3 (ha : ScaledBy j a a') (hb : ScaledBy k b b') (hc : ScaledBy j c c') (hd : ScaledBy k d d')
    (he : ScaledBy j e e') (hf : ScaledBy k f f')
    (u1 : NoUnderflow (a.val * b.val)) (u1' : NoUnderflow (a'.val * b'.val))
    (u2 : NoUnderflow (c.val * d.val)) (u2' : NoUnderflow (c'.val * d'.val))
    (u3 : NoUnderflow (e.val * f.val)) (u3' : NoUnderflow (e'.val * f'.val))
    (p : (a * b + c * d + e * f).IsFin = true) (p' : (a' * b' + c' * d' + e' * f').IsFin = true) :
    ScaledBy (j + k) (a * b + c * d + e * f) (a' * b' + c' * d' + e' * f') := by
  have q := isFin_add p
  have q' := isFin_add p'
  exact (dot2 ha hb hc hd u1 u1' u2 u2' q.1 q'.1).add (he.mul hf q.2 q'.2 u3 u3') p p'

private theorem dot4 (ha : ScaledBy j a a') (hb : ScaledBy k b b') (hc : ScaledBy j c c') (hd : ScaledBy k d d')
    (he : ScaledBy j e e') (hf : ScaledBy k f f') (hg : ScaledBy j g g') (hh : ScaledBy k h h')
    (u1 : NoUnderflow (a.val * b.val)) (u1' : NoUnderflow (a'.val * b'.val))
    (u2 : NoUnderflow (c.val * d.val)) (u2' : NoUnderflow (c'.val * d'.val))
    (u3 : NoUnderflow (e.val * f.val)) (u3' : NoUnderflow (e'.val * f'.val))
    (u4 : NoUnderflow (g.val * h.val)) (u4' : NoUnderflow (g'.val * h'.val))
    (p : (a * b + c * d + e * f + g * h).IsFin = true) (p' : (a' * b' + c' * d' + e' * f' + g' * h').IsFin = true) :
    ScaledBy (j + k) (a * b + c * d + e * f + g * h) (a' * b' + c' * d' + e' * f' + g' * h') := by
  have q := isFin_add p
  have q' := isFin_add p'
  exact (dot3 ha hb hc hd he hf u1 u1' u2 u2' u3 u3' q.1 q'.1).add (hg.mul hh q.2 q'.2 u4 u4') p p'

private theorem dot22 (ha : ScaledBy j a a') (hb : ScaledBy k b b') (hc : ScaledBy j c c') (hd : ScaledBy k d d')
    (he : ScaledBy j e e') (hf : ScaledBy k f f') (hg : ScaledBy j g g') (hh : ScaledBy k h h')
    (u1 : NoUnderflow (a.val * b.val)) (u1' : NoUnderflow (a'.val * b'.val))
    (u2 : NoUnderflow (c.val * d.val)) (u2' : NoUnderflow (c'.val * d'.val))
    (u3 : NoUnderflow (e.val * f.val)) (u3' : NoUnderflow (e'.val * f'.val))
    (u4 : NoUnderflow (g.val * h.val)) (u4' : NoUnderflow (g'.val * h'.val))
    (p : (a * b + c * d + (e * f + g * h)).IsFin = true)
    (p' : (a' * b' + c' * d' + (e' * f' + g' * h')).IsFin = true) :
    ScaledBy (j + k) (a * b + c * d + (e * f + g * h)) (a' * b' + c' * d' + (e' * f' + g' * h')) := by
  have q := isFin_add p
  have q' := isFin_add p'
  exact (dot2 ha hb hc hd u1 u1' u2 u2' q.1 q'.1).add (dot2 he hf hg hh u3 u3' u4 u4' q.2 q'.2) p p'

end helpers

/-! ## `dot` and `cross` -/

/-- Scaling one argument of `dot` by `2^j` and the other by `2^k` scales the result by exactly `2^(j+k)`, rounding
errors included, as long as nothing overflows or underflows. -/
theorem C96_dot :
    (∀ (j k : ℤ) (a a' b b' : V2 F32), (∀ i, ScaledBy j (coord a i) (coord a' i)) →
      (∀ i, ScaledBy k (coord b i) (coord b' i)) → (V2.dot a b).IsFin = true → (V2.dot a' b').IsFin = true →
      (∀ i, NoUnderflow ((coord a i).val * (coord b i).val) ∧ NoUnderflow ((coord a' i).val * (coord b' i).val)) →
      ScaledBy (j + k) (V2.dot a b) (V2.dot a' b')) ∧
    (∀ (j k : ℤ) (a a' b b' : V3 F32), (∀ i, ScaledBy j (coord a i) (coord a' i)) →
      (∀ i, ScaledBy k (coord b i) (coord b' i)) → (V3.dot a b).IsFin = true → (V3.dot a' b').IsFin = true →
      (∀ i, NoUnderflow ((coord a i).val * (coord b i).val) ∧ NoUnderflow ((coord a' i).val * (coord b' i).val)) →
      ScaledBy (j + k) (V3.dot a b) (V3.dot a' b')) ∧
    (∀ (j k : ℤ) (a a' b b' : V4 F32), (∀ i, ScaledBy j (coord a i) (coord a' i)) →
      (∀ i, ScaledBy k (coord b i) (coord b' i)) → (V4.dot a b).IsFin = true → (V4.dot a' b').IsFin = true →
      (∀ i, NoUnderflow ((coord a i).val * (coord b i).val) ∧ NoUnderflow ((coord a' i).val * (coord b' i).val)) →
      ScaledBy (j + k) (V4.dot a b) (V4.dot a' b')) ∧
    (∀ (j k : ℤ) (a a' b b' : Quat F32), (∀ i, ScaledBy j (coord a i) (coord a' i)) →
      (∀ i, ScaledBy k (coord b i) (coord b' i)) → (Quat.dot a b).IsFin = true → (Quat.dot a' b').IsFin = true →
      (∀ i, NoUnderflow ((coord a i).val * (coord b i).val) ∧ NoUnderflow ((coord a' i).val * (coord b' i).val)) →
      ScaledBy (j + k) (Quat.dot a b) (Quat.dot a' b')) := by
  refine ⟨?_, ?_, ?_, ?_⟩
  · intro j k a a' b b' ha hb p p' u
    exact dot2 (ha 0) (hb 0) (ha 1) (hb 1) (u 0).1 (u 0).2 (u 1).1 (u 1).2 p p'
  · intro j k a a' b b' ha hb p p' u
    exact dot3 (ha 0) (hb 0) (ha 1) (hb 1) (ha 2) (hb 2) (u 0).1 (u 0).2 (u 1).1 (u 1).2 (u 2).1 (u 2).2 p p'
  · intro j k a a' b b' ha hb p p' u
    exact dot4 (ha 0) (hb 0) (ha 1) (hb 1) (ha 2) (hb 2) (ha 3) (hb 3) (u 0).1 (u 0).2 (u 1).1 (u 1).2 (u 2).1
      (u 2).2 (u 3).1 (u 3).2 p p'
  · intro j k a a' b b' ha hb p p' u
    exact dot4 (ha 0) (hb 0) (ha 1) (hb 1) (ha 2) (hb 2) (ha 3) (hb 3) (u 0).1 (u 0).2 (u 1).1 (u 1).2 (u 2).1
      (u 2).2 (u 3).1 (u 3).2 p p'

/-- The same for `cross`, component by component. -/
theorem C96_cross (j k : ℤ) (a a' b b' : V3 F32) (ha : ∀ i, ScaledBy j (coord a i) (coord a' i))
    (hb : ∀ i, ScaledBy k (coord b i) (coord b' i)) (p : ∀ i, (coord (V3.cross a b) i).IsFin = true)
    (p' : ∀ i, (coord (V3.cross a' b') i).IsFin = true)
    (u : ∀ i l, NoUnderflow ((coord a i).val * (coord b l).val) ∧ NoUnderflow ((coord a' i).val * (coord b' l).val)) :
    ∀ i, ScaledBy (j + k) (coord (V3.cross a b) i) (coord (V3.cross a' b') i) := by
  intro i
  fin_cases i
  · exact diff2 (ha 1) (hb 2) (ha 2) (hb 1) (u 1 2).1 (u 1 2).2 (u 2 1).1 (u 2 1).2 (p 0) (p' 0)
  · exact diff2 (ha 2) (hb 0) (ha 0) (hb 2) (u 2 0).1 (u 2 0).2 (u 0 2).1 (u 0 2).2 (p 1) (p' 1)
  · exact diff2 (ha 0) (hb 1) (ha 1) (hb 0) (u 0 1).1 (u 0 1).2 (u 1 0).1 (u 1 0).2 (p 2) (p' 2)

/-! ## matrices -/

/-- Scaling a matrix by `2^j` and a vector by `2^k` scales their product by exactly `2^(j+k)`. -/
theorem C96_mulV :
    (∀ (j k : ℤ) (m m' : M2 F32) (v v' : V2 F32), (∀ c r, ScaledBy j (entry m c r) (entry m' c r)) →
      (∀ i, ScaledBy k (coord v i) (coord v' i)) → (∀ i, (coord (m * v) i).IsFin = true) →
      (∀ i, (coord (m' * v') i).IsFin = true) →
      (∀ c r, NoUnderflow ((entry m c r).val * (coord v c).val) ∧ NoUnderflow ((entry m' c r).val * (coord v' c).val)) →
      ∀ i, ScaledBy (j + k) (coord (m * v) i) (coord (m' * v') i)) ∧
    (∀ (j k : ℤ) (m m' : M3 F32) (v v' : V3 F32), (∀ c r, ScaledBy j (entry m c r) (entry m' c r)) →
      (∀ i, ScaledBy k (coord v i) (coord v' i)) → (∀ i, (coord (m * v) i).IsFin = true) →
      (∀ i, (coord (m' * v') i).IsFin = true) →
      (∀ c r, NoUnderflow ((entry m c r).val * (coord v c).val) ∧ NoUnderflow ((entry m' c r).val * (coord v' c).val)) →
      ∀ i, ScaledBy (j + k) (coord (m * v) i) (coord (m' * v') i)) ∧
    (∀ (j k : ℤ) (m m' : M4 F32) (v v' : V4 F32), (∀ c r, ScaledBy j (entry m c r) (entry m' c r)) →
      (∀ i, ScaledBy k (coord v i) (coord v' i)) → (∀ i, (coord (m * v) i).IsFin = true) →
      (∀ i, (coord (m' * v') i).IsFin = true) →
      (∀ c r, NoUnderflow ((entry m c r).val * (coord v c).val) ∧ NoUnderflow ((entry m' c r).val * (coord v' c).val)) →
      ∀ i, ScaledBy (j + k) (coord (m * v) i) (coord (m' * v') i)) := by
  refine ⟨?_, ?_, ?_⟩
  · intro j k m m' v v' hm hv p p' u i
    fin_cases i
    · exact dot2 (hm 0 0) (hv 0) (hm 1 0) (hv 1) (u 0 0).1 (u 0 0).2 (u 1 0).1 (u 1 0).2 (p 0) (p' 0)
    · exact dot2 (hm 0 1) (hv 0) (hm 1 1) (hv 1) (u 0 1).1 (u 0 1).2 (u 1 1).1 (u 1 1).2 (p 1) (p' 1)
  · intro j k m m' v v' hm hv p p' u i
    fin_cases i
    · exact dot3 (hm 0 0) (hv 0) (hm 1 0) (hv 1) (hm 2 0) (hv 2) (u 0 0).1 (u 0 0).2 (u 1 0).1 (u 1 0).2
        (u 2 0).1 (u 2 0).2 (p 0) (p' 0)
    · exact dot3 (hm 0 1) (hv 0) (hm 1 1) (hv 1) (hm 2 1) (hv 2) (u 0 1).1 (u 0 1).2 (u 1 1).1 (u 1 1).2
        (u 2 1).1 (u 2 1).2 (p 1) (p' 1)
    · exact dot3 (hm 0 2) (hv 0) (hm 1 2) (hv 1) (hm 2 2) (hv 2) (u 0 2).1 (u 0 2).2 (u 1 2).1 (u 1 2).2
        (u 2 2).1 (u 2 2).2 (p 2) (p' 2)
  · intro j k m m' v v' hm hv p p' u i
    fin_cases i
    · exact dot22 (hm 0 0) (hv 0) (hm 1 0) (hv 1) (hm 2 0) (hv 2) (hm 3 0) (hv 3) (u 0 0).1 (u 0 0).2 (u 1 0).1
        (u 1 0).2 (u 2 0).1 (u 2 0).2 (u 3 0).1 (u 3 0).2 (p 0) (p' 0)
    · exact dot22 (hm 0 1) (hv 0) (hm 1 1) (hv 1) (hm 2 1) (hv 2) (hm 3 1) (hv 3) (u 0 1).1 (u 0 1).2 (u 1 1).1
        (u 1 1).2 (u 2 1).1 (u 2 1).2 (u 3 1).1 (u 3 1).2 (p 1) (p' 1)
    · exact dot22 (hm 0 2) (hv 0) (hm 1 2) (hv 1) (hm 2 2) (hv 2) (hm 3 2) (hv 3) (u 0 2).1 (u 0 2).2 (u 1 2).1
        (u 1 2).2 (u 2 2).1 (u 2 2).2 (u 3 2).1 (u 3 2).2 (p 2) (p' 2)
    · exact dot22 (hm 0 3) (hv 0) (hm 1 3) (hv 1) (hm 2 3) (hv 2) (hm 3 3) (hv 3) (u 0 3).1 (u 0 3).2 (u 1 3).1
        (u 1 3).2 (u 2 3).1 (u 2 3).2 (u 3 3).1 (u 3 3).2 (p 3) (p' 3)

/-- Scaling the factors of a matrix product by `2^j` and `2^k` scales the product by exactly `2^(j+k)`. -/
theorem C96_mul :
    (∀ (j k : ℤ) (a a' b b' : M2 F32), (∀ c r, ScaledBy j (entry a c r) (entry a' c r)) →
      (∀ c r, ScaledBy k (entry b c r) (entry b' c r)) → (∀ c r, (entry (a * b) c r).IsFin = true) →
      (∀ c r, (entry (a' * b') c r).IsFin = true) →
      (∀ i c r, NoUnderflow ((entry a i r).val * (entry b c i).val) ∧
        NoUnderflow ((entry a' i r).val * (entry b' c i).val)) →
      ∀ c r, ScaledBy (j + k) (entry (a * b) c r) (entry (a' * b') c r)) ∧
    (∀ (j k : ℤ) (a a' b b' : M3 F32), (∀ c r, ScaledBy j (entry a c r) (entry a' c r)) →
      (∀ c r, ScaledBy k (entry b c r) (entry b' c r)) → (∀ c r, (entry (a * b) c r).IsFin = true) →
      (∀ c r, (entry (a' * b') c r).IsFin = true) →
      (∀ i c r, NoUnderflow ((entry a i r).val * (entry b c i).val) ∧
        NoUnderflow ((entry a' i r).val * (entry b' c i).val)) →
      ∀ c r, ScaledBy (j + k) (entry (a * b) c r) (entry (a' * b') c r)) ∧
    (∀ (j k : ℤ) (a a' b b' : M4 F32), (∀ c r, ScaledBy j (entry a c r) (entry a' c r)) →
      (∀ c r, ScaledBy k (entry b c r) (entry b' c r)) → (∀ c r, (entry (a * b) c r).IsFin = true) →
      (∀ c r, (entry (a' * b') c r).IsFin = true) →
      (∀ i c r, NoUnderflow ((entry a i r).val * (entry b c i).val) ∧
        NoUnderflow ((entry a' i r).val * (entry b' c i).val)) →
      ∀ c r, ScaledBy (j + k) (entry (a * b) c r) (entry (a' * b') c r)) := by
  refine ⟨?_, ?_, ?_⟩
  · intro j k a a' b b' ha hb p p' u c r
    fin_cases c <;> fin_cases r
    · exact dot2 (ha 0 0) (hb 0 0) (ha 1 0) (hb 0 1)
        (u 0 0 0).1 (u 0 0 0).2 (u 1 0 0).1 (u 1 0 0).2 (p 0 0) (p' 0 0)
    · exact dot2 (ha 0 1) (hb 0 0) (ha 1 1) (hb 0 1)
        (u 0 0 1).1 (u 0 0 1).2 (u 1 0 1).1 (u 1 0 1).2 (p 0 1) (p' 0 1)
    · exact dot2 (ha 0 0) (hb 1 0) (ha 1 0) (hb 1 1)
        (u 0 1 0).1 (u 0 1 0).2 (u 1 1 0).1 (u 1 1 0).2 (p 1 0) (p' 1 0)
    · exact dot2 (ha 0 1) (hb 1 0) (ha 1 1) (hb 1 1)
        (u 0 1 1).1 (u 0 1 1).2 (u 1 1 1).1 (u 1 1 1).2 (p 1 1) (p' 1 1)
  · intro j k a a' b b' ha hb p p' u c r
    fin_cases c <;> fin_cases r
    · exact dot3 (ha 0 0) (hb 0 0) (ha 1 0) (hb 0 1) (ha 2 0) (hb 0 2)
        (u 0 0 0).1 (u 0 0 0).2 (u 1 0 0).1 (u 1 0 0).2 (u 2 0 0).1 (u 2 0 0).2 (p 0 0) (p' 0 0)
    · exact dot3 (ha 0 1) (hb 0 0) (ha 1 1) (hb 0 1) (ha 2 1) (hb 0 2)
        (u 0 0 1).1 (u 0 0 1).2 (u 1 0 1).1 (u 1 0 1).2 (u 2 0 1).1 (u 2 0 1).2 (p 0 1) (p' 0 1)
    · exact dot3 (ha 0 2) (hb 0 0) (ha 1 2) (hb 0 1) (ha 2 2) (hb 0 2)
        (u 0 0 2).1 (u 0 0 2).2 (u 1 0 2).1 (u 1 0 2).2 (u 2 0 2).1 (u 2 0 2).2 (p 0 2) (p' 0 2)
    · exact dot3 (ha 0 0) (hb 1 0) (ha 1 0) (hb 1 1) (ha 2 0) (hb 1 2)
        (u 0 1 0).1 (u 0 1 0).2 (u 1 1 0).1 (u 1 1 0).2 (u 2 1 0).1 (u 2 1 0).2 (p 1 0) (p' 1 0)
    · exact dot3 (ha 0 1) (hb 1 0) (ha 1 1) (hb 1 1) (ha 2 1) (hb 1 2)
        (u 0 1 1).1 (u 0 1 1).2 (u 1 1 1).1 (u 1 1 1).2 (u 2 1 1).1 (u 2 1 1).2 (p 1 1) (p' 1 1)
    · exact dot3 (ha 0 2) (hb 1 0) (ha 1 2) (hb 1 1) (ha 2 2) (hb 1 2)
        (u 0 1 2).1 (u 0 1 2).2 (u 1 1 2).1 (u 1 1 2).2 (u 2 1 2).1 (u 2 1 2).2 (p 1 2) (p' 1 2)
    · exact dot3 (ha 0 0) (hb 2 0) (ha 1 0) (hb 2 1) (ha 2 0) (hb 2 2)
        (u 0 2 0).1 (u 0 2 0).2 (u 1 2 0).1 (u 1 2 0).2 (u 2 2 0).1 (u 2 2 0).2 (p 2 0) (p' 2 0)
    · exact dot3 (ha 0 1) (hb 2 0) (ha 1 1) (hb 2 1) (ha 2 1) (hb 2 2)
        (u 0 2 1).1 (u 0 2 1).2 (u 1 2 1).1 (u 1 2 1).2 (u 2 2 1).1 (u 2 2 1).2 (p 2 1) (p' 2 1)
    · exact dot3 (ha 0 2) (hb 2 0) (ha 1 2) (hb 2 1) (ha 2 2) (hb 2 2)
        (u 0 2 2).1 (u 0 2 2).2 (u 1 2 2).1 (u 1 2 2).2 (u 2 2 2).1 (u 2 2 2).2 (p 2 2) (p' 2 2)
  · intro j k a a' b b' ha hb p p' u c r
    fin_cases c <;> fin_cases r
    · exact dot4 (ha 0 0) (hb 0 0) (ha 1 0) (hb 0 1) (ha 2 0) (hb 0 2) (ha 3 0) (hb 0 3)
        (u 0 0 0).1 (u 0 0 0).2 (u 1 0 0).1 (u 1 0 0).2 (u 2 0 0).1 (u 2 0 0).2 (u 3 0 0).1 (u 3 0 0).2 (p 0 0) (p' 0 0)
    · exact dot4 (ha 0 1) (hb 0 0) (ha 1 1) (hb 0 1) (ha 2 1) (hb 0 2) (ha 3 1) (hb 0 3)
        (u 0 0 1).1 (u 0 0 1).2 (u 1 0 1).1 (u 1 0 1).2 (u 2 0 1).1 (u 2 0 1).2 (u 3 0 1).1 (u 3 0 1).2 (p 0 1) (p' 0 1)
    · exact dot4 (ha 0 2) (hb 0 0) (ha 1 2) (hb 0 1) (ha 2 2) (hb 0 2) (ha 3 2) (hb 0 3)
        (u 0 0 2).1 (u 0 0 2).2 (u 1 0 2).1 (u 1 0 2).2 (u 2 0 2).1 (u 2 0 2).2 (u 3 0 2).1 (u 3 0 2).2 (p 0 2) (p' 0 2)
    · exact dot4 (ha 0 3) (hb 0 0) (ha 1 3) (hb 0 1) (ha 2 3) (hb 0 2) (ha 3 3) (hb 0 3)
        (u 0 0 3).1 (u 0 0 3).2 (u 1 0 3).1 (u 1 0 3).2 (u 2 0 3).1 (u 2 0 3).2 (u 3 0 3).1 (u 3 0 3).2 (p 0 3) (p' 0 3)
    · exact dot4 (ha 0 0) (hb 1 0) (ha 1 0) (hb 1 1) (ha 2 0) (hb 1 2) (ha 3 0) (hb 1 3)
        (u 0 1 0).1 (u 0 1 0).2 (u 1 1 0).1 (u 1 1 0).2 (u 2 1 0).1 (u 2 1 0).2 (u 3 1 0).1 (u 3 1 0).2 (p 1 0) (p' 1 0)
    · exact dot4 (ha 0 1) (hb 1 0) (ha 1 1) (hb 1 1) (ha 2 1) (hb 1 2) (ha 3 1) (hb 1 3)
        (u 0 1 1).1 (u 0 1 1).2 (u 1 1 1).1 (u 1 1 1).2 (u 2 1 1).1 (u 2 1 1).2 (u 3 1 1).1 (u 3 1 1).2 (p 1 1) (p' 1 1)
    · exact dot4 (ha 0 2) (hb 1 0) (ha 1 2) (hb 1 1) (ha 2 2) (hb 1 2) (ha 3 2) (hb 1 3)
        (u 0 1 2).1 (u 0 1 2).2 (u 1 1 2).1 (u 1 1 2).2 (u 2 1 2).1 (u 2 1 2).2 (u 3 1 2).1 (u 3 1 2).2 (p 1 2) (p' 1 2)
    · exact dot4 (ha 0 3) (hb 1 0) (ha 1 3) (hb 1 1) (ha 2 3) (hb 1 2) (ha 3 3) (hb 1 3)
        (u 0 1 3).1 (u 0 1 3).2 (u 1 1 3).1 (u 1 1 3).2 (u 2 1 3).1 (u 2 1 3).2 (u 3 1 3).1 (u 3 1 3).2 (p 1 3) (p' 1 3)
    · exact dot4 (ha 0 0) (hb 2 0) (ha 1 0) (hb 2 1) (ha 2 0) (hb 2 2) (ha 3 0) (hb 2 3)
        (u 0 2 0).1 (u 0 2 0).2 (u 1 2 0).1 (u 1 2 0).2 (u 2 2 0).1 (u 2 2 0).2 (u 3 2 0).1 (u 3 2 0).2 (p 2 0) (p' 2 0)
    · exact dot4 (ha 0 1) (hb 2 0) (ha 1 1) (hb 2 1) (ha 2 1) (hb 2 2) (ha 3 1) (hb 2 3)
        (u 0 2 1).1 (u 0 2 1).2 (u 1 2 1).1 (u 1 2 1).2 (u 2 2 1).1 (u 2 2 1).2 (u 3 2 1).1 (u 3 2 1).2 (p 2 1) (p' 2 1)
    · exact dot4 (ha 0 2) (hb 2 0) (ha 1 2) (hb 2 1) (ha 2 2) (hb 2 2) (ha 3 2) (hb 2 3)
        (u 0 2 2).1 (u 0 2 2).2 (u 1 2 2).1 (u 1 2 2).2 (u 2 2 2).1 (u 2 2 2).2 (u 3 2 2).1 (u 3 2 2).2 (p 2 2) (p' 2 2)
    · exact dot4 (ha 0 3) (hb 2 0) (ha 1 3) (hb 2 1) (ha 2 3) (hb 2 2) (ha 3 3) (hb 2 3)
        (u 0 2 3).1 (u 0 2 3).2 (u 1 2 3).1 (u 1 2 3).2 (u 2 2 3).1 (u 2 2 3).2 (u 3 2 3).1 (u 3 2 3).2 (p 2 3) (p' 2 3)
    · exact dot4 (ha 0 0) (hb 3 0) (ha 1 0) (hb 3 1) (ha 2 0) (hb 3 2) (ha 3 0) (hb 3 3)
        (u 0 3 0).1 (u 0 3 0).2 (u 1 3 0).1 (u 1 3 0).2 (u 2 3 0).1 (u 2 3 0).2 (u 3 3 0).1 (u 3 3 0).2 (p 3 0) (p' 3 0)
    · exact dot4 (ha 0 1) (hb 3 0) (ha 1 1) (hb 3 1) (ha 2 1) (hb 3 2) (ha 3 1) (hb 3 3)
        (u 0 3 1).1 (u 0 3 1).2 (u 1 3 1).1 (u 1 3 1).2 (u 2 3 1).1 (u 2 3 1).2 (u 3 3 1).1 (u 3 3 1).2 (p 3 1) (p' 3 1)
    · exact dot4 (ha 0 2) (hb 3 0) (ha 1 2) (hb 3 1) (ha 2 2) (hb 3 2) (ha 3 2) (hb 3 3)
        (u 0 3 2).1 (u 0 3 2).2 (u 1 3 2).1 (u 1 3 2).2 (u 2 3 2).1 (u 2 3 2).2 (u 3 3 2).1 (u 3 3 2).2 (p 3 2) (p' 3 2)
    · exact dot4 (ha 0 3) (hb 3 0) (ha 1 3) (hb 3 1) (ha 2 3) (hb 3 2) (ha 3 3) (hb 3 3)
        (u 0 3 3).1 (u 0 3 3).2 (u 1 3 3).1 (u 1 3 3).2 (u 2 3 3).1 (u 2 3 3).2 (u 3 3 3).1 (u 3 3 3).2 (p 3 3) (p' 3 3)

/-- The same for a row vector times a matrix. -/
theorem C96_vmul :
    (∀ (j k : ℤ) (m m' : M2 F32) (v v' : V2 F32), (∀ c r, ScaledBy j (entry m c r) (entry m' c r)) →
      (∀ i, ScaledBy k (coord v i) (coord v' i)) → (∀ i, (coord (v * m) i).IsFin = true) →
      (∀ i, (coord (v' * m') i).IsFin = true) →
      (∀ c r, NoUnderflow ((entry m c r).val * (coord v r).val) ∧ NoUnderflow ((entry m' c r).val * (coord v' r).val)) →
      ∀ i, ScaledBy (j + k) (coord (v * m) i) (coord (v' * m') i)) ∧
    (∀ (j k : ℤ) (m m' : M3 F32) (v v' : V3 F32), (∀ c r, ScaledBy j (entry m c r) (entry m' c r)) →
      (∀ i, ScaledBy k (coord v i) (coord v' i)) → (∀ i, (coord (v * m) i).IsFin = true) →
      (∀ i, (coord (v' * m') i).IsFin = true) →
      (∀ c r, NoUnderflow ((entry m c r).val * (coord v r).val) ∧ NoUnderflow ((entry m' c r).val * (coord v' r).val)) →
      ∀ i, ScaledBy (j + k) (coord (v * m) i) (coord (v' * m') i)) ∧
    (∀ (j k : ℤ) (m m' : M4 F32) (v v' : V4 F32), (∀ c r, ScaledBy j (entry m c r) (entry m' c r)) →
      (∀ i, ScaledBy k (coord v i) (coord v' i)) → (∀ i, (coord (v * m) i).IsFin = true) →
      (∀ i, (coord (v' * m') i).IsFin = true) →
      (∀ c r, NoUnderflow ((entry m c r).val * (coord v r).val) ∧ NoUnderflow ((entry m' c r).val * (coord v' r).val)) →
      ∀ i, ScaledBy (j + k) (coord (v * m) i) (coord (v' * m') i)) := by
  refine ⟨?_, ?_, ?_⟩
  · intro j k m m' v v' hm hv p p' u i
    rw [add_comm j k]
    have w : ∀ c r, NoUnderflow ((coord v r).val * (entry m c r).val) ∧
        NoUnderflow ((coord v' r).val * (entry m' c r).val) := by
      intro c r; rw [mul_comm, mul_comm (coord v' r).val]; exact u c r
    fin_cases i
    · exact dot2 (hv 0) (hm 0 0) (hv 1) (hm 0 1)
        (w 0 0).1 (w 0 0).2 (w 0 1).1 (w 0 1).2 (p 0) (p' 0)
    · exact dot2 (hv 0) (hm 1 0) (hv 1) (hm 1 1)
        (w 1 0).1 (w 1 0).2 (w 1 1).1 (w 1 1).2 (p 1) (p' 1)
  · intro j k m m' v v' hm hv p p' u i
    fin_cases i
    · exact dot3 (hm 0 0) (hv 0) (hm 0 1) (hv 1) (hm 0 2) (hv 2)
        (u 0 0).1 (u 0 0).2 (u 0 1).1 (u 0 1).2 (u 0 2).1 (u 0 2).2 (p 0) (p' 0)
    · exact dot3 (hm 1 0) (hv 0) (hm 1 1) (hv 1) (hm 1 2) (hv 2)
        (u 1 0).1 (u 1 0).2 (u 1 1).1 (u 1 1).2 (u 1 2).1 (u 1 2).2 (p 1) (p' 1)
    · exact dot3 (hm 2 0) (hv 0) (hm 2 1) (hv 1) (hm 2 2) (hv 2)
        (u 2 0).1 (u 2 0).2 (u 2 1).1 (u 2 1).2 (u 2 2).1 (u 2 2).2 (p 2) (p' 2)
  · intro j k m m' v v' hm hv p p' u i
    fin_cases i
    · exact dot4 (hm 0 0) (hv 0) (hm 0 1) (hv 1) (hm 0 2) (hv 2) (hm 0 3) (hv 3)
        (u 0 0).1 (u 0 0).2 (u 0 1).1 (u 0 1).2 (u 0 2).1 (u 0 2).2 (u 0 3).1 (u 0 3).2 (p 0) (p' 0)
    · exact dot4 (hm 1 0) (hv 0) (hm 1 1) (hv 1) (hm 1 2) (hv 2) (hm 1 3) (hv 3)
        (u 1 0).1 (u 1 0).2 (u 1 1).1 (u 1 1).2 (u 1 2).1 (u 1 2).2 (u 1 3).1 (u 1 3).2 (p 1) (p' 1)
    · exact dot4 (hm 2 0) (hv 0) (hm 2 1) (hv 1) (hm 2 2) (hv 2) (hm 2 3) (hv 3)
        (u 2 0).1 (u 2 0).2 (u 2 1).1 (u 2 1).2 (u 2 2).1 (u 2 2).2 (u 2 3).1 (u 2 3).2 (p 2) (p' 2)
    · exact dot4 (hm 3 0) (hv 0) (hm 3 1) (hv 1) (hm 3 2) (hv 2) (hm 3 3) (hv 3)
        (u 3 0).1 (u 3 0).2 (u 3 1).1 (u 3 1).2 (u 3 2).1 (u 3 2).2 (u 3 3).1 (u 3 3).2 (p 3) (p' 3)

/-! ## `length` and `normalize` -/

private theorem key_one : (F32.fin false 1 (by decide)).val = 1 / 2 ^ 149 := by decide +kernel

private theorem sq_pos {x : F32} (h : x.IsFin = true) (u : NoUnderflow (x.val * x.val)) (h0 : x.val ≠ 0) :
    0 < (x * x).val := by
  have : 0 < x.val * x.val := mul_self_pos.2 h0
  rcases u with u | u
  · exact absurd u this.ne'
  rw [abs_of_pos this] at u
  rw [mul_fin h h, ← key_pos]
  have := le_key_round (a := .fin false 1 (by decide)) rfl (x := x.val * x.val) (by
    rw [key_one]; refine le_trans (by norm_num) u) (x.sgn ^^ x.sgn)
  have e : (F32.fin false 1 (by decide)).key = 1 := by decide +kernel
  omega

private theorem sq_nn {x : F32} (h : x.IsFin = true) : 0 ≤ (x * x).val := by
  rw [mul_fin h h, ← key_nonneg]
  have := le_key_round (a := lit 0) isFin_lit_zero (x := x.val * x.val) (by
    rw [val_lit_zero]; exact mul_self_nonneg _) (x.sgn ^^ x.sgn)
  rwa [key_lit_zero] at this

private theorem add_ge {x y : F32} (h : (x + y).IsFin = true) (y0 : 0 ≤ y.val) : x.val ≤ (x + y).val := by
  obtain ⟨hx, hy⟩ := isFin_add h
  rw [add_fin hx hy, ← key_le_iff]
  exact le_key_round hx (by linarith) _

private theorem add_ge' {x y : F32} (h : (x + y).IsFin = true) (x0 : 0 ≤ x.val) : y.val ≤ (x + y).val := by
  obtain ⟨hx, hy⟩ := isFin_add h
  rw [add_fin hx hy, ← key_le_iff]
  exact le_key_round hy (by linarith) _

private theorem zero_same {k : ℤ} {x x' : F32} (h : ScaledBy k x x') (h0 : x.val = 0) : x' = x :=
  h.unique ⟨h.1, h.1, rfl, by rw [h0, zero_mul]⟩

private theorem isZ_sq {x : F32} (h : x.IsFin = true) (h0 : x.val = 0) : IsZ (x * x) := by
  rw [mul_fin h h, h0, mul_zero]; exact isZ_round _

private theorem sqrt_z (s : Bool) : IsZ (FloatOps.sqrt (F32.fin s 0 (by decide))) := by
  cases s <;> exact ⟨by decide +kernel, by decide +kernel⟩

private theorem scaled_sqrt_zero {k : ℤ} {x : F32} (h : IsZ x) :
    ScaledBy k (FloatOps.sqrt x) (FloatOps.sqrt x) := by
  have : IsZ (FloatOps.sqrt x) := by
    obtain ⟨h1, h2⟩ := h
    rcases x with _ | s | ⟨s, n, g⟩
    · cases h1
    · cases h1
    · have e := key_eq_zero.2 h2
      have : n = 0 := by
        cases s <;> simpa [key] using e
      subst this
      exact sqrt_z s
  exact ⟨this.1, this.1, rfl, by rw [this.2, zero_mul]⟩

/-- what the sums of squares of `v` and `2^k · v` have in common -/
private structure Sq (k : ℤ) (d d' : F32) (same : Prop) : Prop where
  or : (same ∧ IsZ d ∧ d' = d) ∨ (0 < d.val ∧ ScaledBy (2 * k) d d')

private theorem sq1 {k : ℤ} {x x' : F32} (h : ScaledBy k x x') (p : (x * x).IsFin = true)
    (p' : (x' * x').IsFin = true) (u : NoUnderflow (x.val * x.val) ∧ NoUnderflow (x'.val * x'.val)) :
    Sq k (x * x) (x' * x') (x' = x) := by
  by_cases h0 : x.val = 0
  · have := zero_same h h0
    exact ⟨.inl ⟨this, isZ_sq h.1 h0, by rw [this]⟩⟩
  · have := h.mul h p p' u.1 u.2
    rw [← two_mul] at this
    exact ⟨.inr ⟨sq_pos h.1 u.1 h0, this⟩⟩

private theorem Sq.add {k : ℤ} {c c' d d' : F32} {P Q : Prop} (hc : Sq k c c' P) (hd : Sq k d d' Q)
    (p : (c + d).IsFin = true) (p' : (c' + d').IsFin = true) : Sq k (c + d) (c' + d') (P ∧ Q) := by
  have z : ∀ {y y' : F32}, IsZ y → y' = y → ScaledBy (2 * k) y y' := by
    rintro y _ hy rfl
    exact ⟨hy.1, hy.1, rfl, by rw [hy.2, zero_mul]⟩
  rcases hc.or with ⟨c1, c2, c3⟩ | ⟨c1, c2⟩ <;> rcases hd.or with ⟨d1, d2, d3⟩ | ⟨d1, d2⟩
  · exact ⟨.inl ⟨⟨c1, d1⟩, c2.add d2, by rw [c3, d3]⟩⟩
  · exact ⟨.inr ⟨lt_of_lt_of_le d1 (add_ge' p c2.2.ge), (z c2 c3).add d2 p p'⟩⟩
  · exact ⟨.inr ⟨lt_of_lt_of_le c1 (add_ge p d2.2.ge), c2.add (z d2 d3) p p'⟩⟩
  · exact ⟨.inr ⟨lt_of_lt_of_le c1 (add_ge p d1.le), c2.add d2 p p'⟩⟩

private theorem Sq.length {k : ℤ} {c c' : F32} {P : Prop} (h : Sq k c c' P) :
    ScaledBy k (FloatOps.sqrt c) (FloatOps.sqrt c') := by
  rcases h.or with ⟨-, h1, h2⟩ | ⟨h1, h2⟩
  · rw [h2]; exact scaled_sqrt_zero h1
  · exact h2.sqrt h1

private theorem sq2 {k : ℤ} {a a' : V2 F32} (h : ∀ i, ScaledBy k (coord a i) (coord a' i))
    (p : (V2.dot a a).IsFin = true) (p' : (V2.dot a' a').IsFin = true)
    (u : ∀ i, NoUnderflow ((coord a i).val * (coord a i).val) ∧ NoUnderflow ((coord a' i).val * (coord a' i).val)) :
    Sq k (V2.dot a a) (V2.dot a' a') (a'.x = a.x ∧ a'.y = a.y) := by
  have q := isFin_add p
  have q' := isFin_add p'
  exact (sq1 (h 0) q.1 q'.1 (u 0)).add (sq1 (h 1) q.2 q'.2 (u 1)) p p'

private theorem sq3 {k : ℤ} {a a' : V3 F32} (h : ∀ i, ScaledBy k (coord a i) (coord a' i))
    (p : (V3.dot a a).IsFin = true) (p' : (V3.dot a' a').IsFin = true)
    (u : ∀ i, NoUnderflow ((coord a i).val * (coord a i).val) ∧ NoUnderflow ((coord a' i).val * (coord a' i).val)) :
    Sq k (V3.dot a a) (V3.dot a' a') ((a'.x = a.x ∧ a'.y = a.y) ∧ a'.z = a.z) := by
  have q := isFin_add p
  have q' := isFin_add p'
  have r := isFin_add q.1
  have r' := isFin_add q'.1
  exact ((sq1 (h 0) r.1 r'.1 (u 0)).add (sq1 (h 1) r.2 r'.2 (u 1)) q.1 q'.1).add (sq1 (h 2) q.2 q'.2 (u 2)) p p'

private theorem sq4 {k : ℤ} {a a' : V4 F32} (h : ∀ i, ScaledBy k (coord a i) (coord a' i))
    (p : (V4.dot a a).IsFin = true) (p' : (V4.dot a' a').IsFin = true)
    (u : ∀ i, NoUnderflow ((coord a i).val * (coord a i).val) ∧ NoUnderflow ((coord a' i).val * (coord a' i).val)) :
    Sq k (V4.dot a a) (V4.dot a' a') (((a'.x = a.x ∧ a'.y = a.y) ∧ a'.z = a.z) ∧ a'.w = a.w) := by
  have o := isFin_add p
  have o' := isFin_add p'
  have q := isFin_add o.1
  have q' := isFin_add o'.1
  have r := isFin_add q.1
  have r' := isFin_add q'.1
  exact (((sq1 (h 0) r.1 r'.1 (u 0)).add (sq1 (h 1) r.2 r'.2 (u 1)) q.1 q'.1).add (sq1 (h 2) q.2 q'.2 (u 2))
    o.1 o'.1).add (sq1 (h 3) o.2 o'.2 (u 3)) p p'

private theorem sqQ {k : ℤ} {a a' : Quat F32} (h : ∀ i, ScaledBy k (coord a i) (coord a' i))
    (p : (Quat.dot a a).IsFin = true) (p' : (Quat.dot a' a').IsFin = true)
    (u : ∀ i, NoUnderflow ((coord a i).val * (coord a i).val) ∧ NoUnderflow ((coord a' i).val * (coord a' i).val)) :
    Sq k (Quat.dot a a) (Quat.dot a' a') (((a'.x = a.x ∧ a'.y = a.y) ∧ a'.z = a.z) ∧ a'.w = a.w) := by
  have o := isFin_add p
  have o' := isFin_add p'
  have q := isFin_add o.1
  have q' := isFin_add o'.1
  have r := isFin_add q.1
  have r' := isFin_add q'.1
  exact (((sq1 (h 0) r.1 r'.1 (u 0)).add (sq1 (h 1) r.2 r'.2 (u 1)) q.1 q'.1).add (sq1 (h 2) q.2 q'.2 (u 2))
    o.1 o'.1).add (sq1 (h 3) o.2 o'.2 (u 3)) p p'

/-- The length of `2^k · v` is exactly `2^k` times the length computed for `v`, when no square overflows or
underflows (the sum of the squares is what `length2` returns). -/
theorem C96_length :
    (∀ (k : ℤ) (v v' : V2 F32), (∀ i, ScaledBy k (coord v i) (coord v' i)) →
      (V2.length2 v).IsFin = true → (V2.length2 v').IsFin = true →
      (∀ i, NoUnderflow ((coord v i).val * (coord v i).val) ∧ NoUnderflow ((coord v' i).val * (coord v' i).val)) →
      ScaledBy k (V2.length v) (V2.length v')) ∧
    (∀ (k : ℤ) (v v' : V3 F32), (∀ i, ScaledBy k (coord v i) (coord v' i)) →
      (V3.length2 v).IsFin = true → (V3.length2 v').IsFin = true →
      (∀ i, NoUnderflow ((coord v i).val * (coord v i).val) ∧ NoUnderflow ((coord v' i).val * (coord v' i).val)) →
      ScaledBy k (V3.length v) (V3.length v')) ∧
    (∀ (k : ℤ) (v v' : V4 F32), (∀ i, ScaledBy k (coord v i) (coord v' i)) →
      (V4.length2 v).IsFin = true → (V4.length2 v').IsFin = true →
      (∀ i, NoUnderflow ((coord v i).val * (coord v i).val) ∧ NoUnderflow ((coord v' i).val * (coord v' i).val)) →
      ScaledBy k (V4.length v) (V4.length v')) ∧
    (∀ (k : ℤ) (v v' : Quat F32), (∀ i, ScaledBy k (coord v i) (coord v' i)) →
      (Quat.length2 v).IsFin = true → (Quat.length2 v').IsFin = true →
      (∀ i, NoUnderflow ((coord v i).val * (coord v i).val) ∧ NoUnderflow ((coord v' i).val * (coord v' i).val)) →
      ScaledBy k (Quat.length v) (Quat.length v')) :=
  ⟨fun _ _ _ h p p' u => (sq2 h p p' u).length, fun _ _ _ h p p' u => (sq3 h p p' u).length,
    fun _ _ _ h p p' u => (sq4 h p p' u).length, fun _ _ _ h p p' u => (sqQ h p p' u).length⟩

/-- `normalize` does not see a factor `2^k` at all: the two results are the same floats, bit for bit. -/
theorem C96_normalize :
    (∀ (k : ℤ) (v v' : V2 F32), (∀ i, ScaledBy k (coord v i) (coord v' i)) →
      (V2.length2 v).IsFin = true → (V2.length2 v').IsFin = true →
      (∀ i, NoUnderflow ((coord v i).val * (coord v i).val) ∧ NoUnderflow ((coord v' i).val * (coord v' i).val)) →
      V2.normalize v' = V2.normalize v) ∧
    (∀ (k : ℤ) (v v' : V3 F32), (∀ i, ScaledBy k (coord v i) (coord v' i)) →
      (V3.length2 v).IsFin = true → (V3.length2 v').IsFin = true →
      (∀ i, NoUnderflow ((coord v i).val * (coord v i).val) ∧ NoUnderflow ((coord v' i).val * (coord v' i).val)) →
      V3.normalize v' = V3.normalize v) ∧
    (∀ (k : ℤ) (v v' : V4 F32), (∀ i, ScaledBy k (coord v i) (coord v' i)) →
      (V4.length2 v).IsFin = true → (V4.length2 v').IsFin = true →
      (∀ i, NoUnderflow ((coord v i).val * (coord v i).val) ∧ NoUnderflow ((coord v' i).val * (coord v' i).val)) →
      V4.normalize v' = V4.normalize v) ∧
    (∀ (k : ℤ) (v v' : Quat F32), (∀ i, ScaledBy k (coord v i) (coord v' i)) →
      (Quat.length2 v).IsFin = true → (Quat.length2 v').IsFin = true →
      (∀ i, NoUnderflow ((coord v i).val * (coord v i).val) ∧ NoUnderflow ((coord v' i).val * (coord v' i).val)) →
      Quat.normalize v' = Quat.normalize v) := by
  refine ⟨?_, ?_, ?_, ?_⟩
  · intro k v v' h p p' u
    rcases (sq2 h p p' u).or with ⟨⟨e1, e2⟩, -⟩ | ⟨h1, h2⟩
    · rw [show v' = v from V2.ext e1 e2]
    · have := h2.invsqrt h1
      exact V2.ext ((h 0).mul_cancel this) ((h 1).mul_cancel this)
  · intro k v v' h p p' u
    rcases (sq3 h p p' u).or with ⟨⟨⟨e1, e2⟩, e3⟩, -⟩ | ⟨h1, h2⟩
    · rw [show v' = v from V3.ext e1 e2 e3]
    · have := h2.invsqrt h1
      exact V3.ext ((h 0).mul_cancel this) ((h 1).mul_cancel this) ((h 2).mul_cancel this)
  · intro k v v' h p p' u
    rcases (sq4 h p p' u).or with ⟨⟨⟨⟨e1, e2⟩, e3⟩, e4⟩, -⟩ | ⟨h1, h2⟩
    · rw [show v' = v from V4.ext e1 e2 e3 e4]
    · have := h2.invsqrt h1
      exact V4.ext ((h 0).mul_cancel this) ((h 1).mul_cancel this) ((h 2).mul_cancel this) ((h 3).mul_cancel this)
  · intro k v v' h p p' u
    rcases (sqQ h p p' u).or with ⟨⟨⟨⟨e1, e2⟩, e3⟩, e4⟩, -⟩ | ⟨h1, h2⟩
    · rw [show v' = v from Quat.ext e1 e2 e3 e4]
    · have s := h2.sqrt h1
      have s0 : (FloatOps.sqrt (Quat.dot v v)).val ≠ 0 :=
        (lt_of_lt_of_le (by positivity) (sqrt_bounds h2.1 h1).1).ne'
      exact Quat.ext ((h 0).div_cancel s s0) ((h 1).div_cancel s s0) ((h 2).div_cancel s s0) ((h 3).div_cancel s s0)

/-- `distance` between two points of a scene scaled by `2^k` is exactly `2^k` times the distance computed before. -/
theorem C96_distance :
    (∀ (k : ℤ) (a a' b b' : V2 F32), (∀ i, ScaledBy k (coord a i) (coord a' i)) →
      (∀ i, ScaledBy k (coord b i) (coord b' i)) → (V2.length2 (a - b)).IsFin = true →
      (V2.length2 (a' - b')).IsFin = true →
      (∀ i, NoUnderflow ((coord (a - b) i).val * (coord (a - b) i).val) ∧
        NoUnderflow ((coord (a' - b') i).val * (coord (a' - b') i).val)) →
      ScaledBy k (V2.distance a b) (V2.distance a' b')) ∧
    (∀ (k : ℤ) (a a' b b' : V3 F32), (∀ i, ScaledBy k (coord a i) (coord a' i)) →
      (∀ i, ScaledBy k (coord b i) (coord b' i)) → (V3.length2 (a - b)).IsFin = true →
      (V3.length2 (a' - b')).IsFin = true →
      (∀ i, NoUnderflow ((coord (a - b) i).val * (coord (a - b) i).val) ∧
        NoUnderflow ((coord (a' - b') i).val * (coord (a' - b') i).val)) →
      ScaledBy k (V3.distance a b) (V3.distance a' b')) ∧
    (∀ (k : ℤ) (a a' b b' : V4 F32), (∀ i, ScaledBy k (coord a i) (coord a' i)) →
      (∀ i, ScaledBy k (coord b i) (coord b' i)) → (V4.length2 (a - b)).IsFin = true →
      (V4.length2 (a' - b')).IsFin = true →
      (∀ i, NoUnderflow ((coord (a - b) i).val * (coord (a - b) i).val) ∧
        NoUnderflow ((coord (a' - b') i).val * (coord (a' - b') i).val)) →
      ScaledBy k (V4.distance a b) (V4.distance a' b')) := by
  refine ⟨?_, ?_, ?_⟩
  · intro k a a' b b' ha hb p p' u
    have fin : ∀ c : V2 F32, (V2.length2 c).IsFin = true → ∀ i, (coord c i).IsFin = true := by
      intro c p
      obtain ⟨q0, q1⟩ := isFin_add p
      intro i
      fin_cases i
      · exact (isFin_mul q0).1
      · exact (isFin_mul q1).1
    have s : ∀ i, ScaledBy k (coord (a - b) i) (coord (a' - b') i) := by
      intro i
      have f := fin _ p i
      have f' := fin _ p' i
      fin_cases i
      · exact (ha 0).sub (hb 0) f f'
      · exact (ha 1).sub (hb 1) f f'
    exact (sq2 s p p' u).length
  · intro k a a' b b' ha hb p p' u
    have fin : ∀ c : V3 F32, (V3.length2 c).IsFin = true → ∀ i, (coord c i).IsFin = true := by
      intro c p
      obtain ⟨q, q2⟩ := isFin_add p
      obtain ⟨q0, q1⟩ := isFin_add q
      intro i
      fin_cases i
      · exact (isFin_mul q0).1
      · exact (isFin_mul q1).1
      · exact (isFin_mul q2).1
    have s : ∀ i, ScaledBy k (coord (a - b) i) (coord (a' - b') i) := by
      intro i
      have f := fin _ p i
      have f' := fin _ p' i
      fin_cases i
      · exact (ha 0).sub (hb 0) f f'
      · exact (ha 1).sub (hb 1) f f'
      · exact (ha 2).sub (hb 2) f f'
    exact (sq3 s p p' u).length
  · intro k a a' b b' ha hb p p' u
    have fin : ∀ c : V4 F32, (V4.length2 c).IsFin = true → ∀ i, (coord c i).IsFin = true := by
      intro c p
      obtain ⟨q', q3⟩ := isFin_add p
      obtain ⟨q, q2⟩ := isFin_add q'
      obtain ⟨q0, q1⟩ := isFin_add q
      intro i
      fin_cases i
      · exact (isFin_mul q0).1
      · exact (isFin_mul q1).1
      · exact (isFin_mul q2).1
      · exact (isFin_mul q3).1
    have s : ∀ i, ScaledBy k (coord (a - b) i) (coord (a' - b') i) := by
      intro i
      have f := fin _ p i
      have f' := fin _ p' i
      fin_cases i
      · exact (ha 0).sub (hb 0) f f'
      · exact (ha 1).sub (hb 1) f f'
      · exact (ha 2).sub (hb 2) f f'
      · exact (ha 3).sub (hb 3) f f'
    exact (sq4 s p p' u).length

/-- `mix` between two values scaled by `2^k` (the same parameter) is exactly `2^k` times the result computed before. -/
theorem C96_mix (k : ℤ) (x x' y y' t : F32) (hx : ScaledBy k x x') (hy : ScaledBy k y y')
    (p : (F.mix x y t).IsFin = true) (p' : (F.mix x' y' t).IsFin = true)
    (u : NoUnderflow (t.val * (y - x).val)) (u' : NoUnderflow (t.val * (y' - x').val)) :
    ScaledBy k (F.mix x y t) (F.mix x' y' t) := by
  obtain ⟨-, q⟩ := isFin_add p
  obtain ⟨-, q'⟩ := isFin_add p'
  have r := isFin_mul q
  have r' := isFin_mul q'
  have s := ScaledBy.mul (j := 0) ⟨r.1, r.1, rfl, by simp⟩ (hy.sub hx r.2 r'.2) q q' u u'
  rw [zero_add] at s
  exact hx.add s p p'

/-! ## the hypotheses are met by ordinary vectors -/

instance (k : ℤ) (x x' : F32) : Decidable (ScaledBy k x x') := by unfold ScaledBy; infer_instance
instance (r : ℚ) : Decidable (NoUnderflow r) := by unfold NoUnderflow; infer_instance

private def v0 : V3 F32 := ⟨lit 3, lit 0.1, lit (-7)⟩
private def v1 : V3 F32 := ⟨lit 3072, lit 0.1 * lit 1024, lit (-7168)⟩

example : (∀ i, ScaledBy 10 (coord v0 i) (coord v1 i)) ∧ (V3.length2 v0).IsFin = true ∧
    (V3.length2 v1).IsFin = true ∧
    (∀ i, NoUnderflow ((coord v0 i).val * (coord v0 i).val) ∧ NoUnderflow ((coord v1 i).val * (coord v1 i).val)) := by
  decide +kernel

private def m0 : M2 F32 := ⟨⟨lit 3, lit 0.1⟩, ⟨lit 0.3, lit (-7)⟩⟩
private def m1 : M2 F32 := ⟨⟨lit 12, lit 0.1 * lit 4⟩, ⟨lit 0.3 * lit 4, lit (-28)⟩⟩

/-- `C96_mul` and `C96_mulV` with `j = 2`, `k = 2`: the product really rounds, and the two results differ by 2⁴ -/
example : (∀ c r, ScaledBy 2 (entry m0 c r) (entry m1 c r)) ∧ (∀ c r, (entry (m0 * m0) c r).IsFin = true) ∧
    (∀ c r, (entry (m1 * m1) c r).IsFin = true) ∧
    (∀ i c r, NoUnderflow ((entry m0 i r).val * (entry m0 c i).val) ∧
      NoUnderflow ((entry m1 i r).val * (entry m1 c i).val)) ∧
    (entry (m0 * m0) 0 0).val ≠ (entry m0 0 0).val * (entry m0 0 0).val + (entry m0 1 0).val * (entry m0 0 1).val := by
  decide +kernel

/-- `C96_distance` and `C96_mix` -/
example : (V3.length2 (v0 - v1)).IsFin = true ∧
    (∀ i, NoUnderflow ((coord (v0 - v1) i).val * (coord (v0 - v1) i).val)) ∧
    ScaledBy 1 (lit 0.1 : F32) (lit 0.2) ∧ ScaledBy 1 (lit 3 : F32) (lit 6) ∧
    (F.mix (lit 0.1) (lit 3) (lit 0.7) : F32).IsFin = true ∧ (F.mix (lit 0.2) (lit 6) (lit 0.7) : F32).IsFin = true ∧
    NoUnderflow ((lit 0.7 : F32).val * (lit 3 - lit 0.1 : F32).val) ∧
    NoUnderflow ((lit 0.7 : F32).val * (lit 6 - lit 0.2 : F32).val) := by
  decide +kernel

/-- The condition on underflow cannot be dropped: the square of `2⁻⁸⁰` is lost, and `normalize` returns an infinity instead
of the direction it returns for 1. -/
example : ScaledBy (-80) (lit 1 : F32) (lit 1 / lit (2 ^ 80)) ∧
    (V2.normalize (⟨lit 1, lit 0⟩ : V2 F32)).x = lit 1 ∧
    (V2.normalize (⟨lit 1 / lit (2 ^ 80), lit 0⟩ : V2 F32)).x = lit 1 / lit 0 := by decide +kernel

end Zcm
