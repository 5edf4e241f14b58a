import Verif.Lemmas.F32Decompose
import Verif.Lemmas.F32Diag

/-!
# Translation times rotation times scaling in binary32
-/

set_option exponentiation.threshold 300

namespace Zcm

open Quaternion F32

/-- a four-term sum three terms of which are zeros -/
theorem F32.sum4_same (f : Fin 4 → F32) (k : Fin 4) (h : ∀ j, j ≠ k → IsZ (f j)) : SameNumber (f 0 + f 1 + f 2 + f 3) (f k) := by
  fin_cases k
  · exact (SameNumber.addZ (h 3 (by decide))).trans ((SameNumber.addZ (h 2 (by decide))).trans (.addZ (h 1 (by decide))))
  · exact (SameNumber.addZ (h 3 (by decide))).trans ((SameNumber.addZ (h 2 (by decide))).trans (.zAdd (h 0 (by decide))))
  · exact (SameNumber.addZ (h 3 (by decide))).trans (.zAdd ((h 0 (by decide)).add (h 1 (by decide))))
  · exact .zAdd (((h 0 (by decide)).add (h 1 (by decide))).add (h 2 (by decide)))

theorem entry_mul4 (A B : M4 F32) (c r : Fin 4) : entry (A * B) c r = entry A 0 r * entry B c 0 + entry A 1 r * entry B c 1 +
    entry A 2 r * entry B c 2 + entry A 3 r * entry B c 3 := by
  fin_cases c <;> fin_cases r <;> rfl

theorem entry_mul_same (A B : M4 F32) (c r k : Fin 4) (h : ∀ j, j ≠ k → IsZ (entry A j r * entry B c j)) :
    SameNumber (entry (A * B) c r) (entry A k r * entry B c k) := by
  rw [entry_mul4]
  exact sum4_same (fun j => entry A j r * entry B c j) k h

theorem F32.IsZ.same {x y : F32} (h : SameNumber x y) (hy : IsZ y) : IsZ x := by
  rcases h with rfl | ⟨a, -, b, -⟩
  · exact hy
  · exact ⟨a, b⟩

theorem F32.SameNumber.mulR {x y a : F32} (h : SameNumber x y) (ha : a.IsFin = true) : SameNumber (x * a) (y * a) := by
  rcases h with rfl | ⟨fx, fy, zx, zy⟩
  · exact .rfl
  · have p : IsZ (x * a) := IsZ.mulL ⟨fx, zx⟩ ha
    have q : IsZ (y * a) := IsZ.mulL ⟨fy, zy⟩ ha
    exact .inr ⟨p.1, q.1, p.2, q.2⟩

theorem mat4_entries (R : M3 F32) (c r : Fin 4) :
    entry (M4.ofMat3 R) c r = if h : c < 3 ∧ r < 3 then entry R ⟨c, h.1⟩ ⟨r, h.2⟩ else if c = r then lit 1 else lit 0 := by
  fin_cases c <;> fin_cases r <;> rfl

theorem translate_entries {t : V3 F32} (ht : ∀ i, (coord t i).IsFin = true) :
    (∀ c r : Fin 4, c ≠ 3 → c ≠ r → IsZ (entry (M4.translate M4.default t) c r)) ∧
    (∀ c : Fin 4, c ≠ 3 → entry (M4.translate M4.default t) c c = lit 1) ∧
    (∀ r : Fin 3, SameNumber (entry (M4.translate M4.default t) 3 r.castSucc) (coord t r)) ∧
    SameNumber (entry (M4.translate M4.default t) 3 3) (lit 1) := by
  have z : ∀ i, IsZ (lit 0 * coord t i) := fun i => isZ_lit.mulL (ht i)
  refine ⟨fun c r h1 h2 => ?_, fun c h => ?_, fun r => ?_, ?_⟩
  · fin_cases c <;> fin_cases r <;> first | exact isZ_lit | exact absurd rfl h1 | exact absurd rfl h2
  · fin_cases c <;> first | rfl | exact absurd rfl h
  · fin_cases r
    · have := sum4_same ![lit 1 * t.x, lit 0 * t.y, lit 0 * t.z, lit 0] 0 (fun j hj => by
        fin_cases j <;> first | exact absurd rfl hj | exact z 1 | exact z 2 | exact isZ_lit)
      exact this.trans (.inl (one_mul' t.x))
    · have := sum4_same ![lit 0 * t.x, lit 1 * t.y, lit 0 * t.z, lit 0] 1 (fun j hj => by
        fin_cases j <;> first | exact absurd rfl hj | exact z 0 | exact z 2 | exact isZ_lit)
      exact this.trans (.inl (one_mul' t.y))
    · have := sum4_same ![lit 0 * t.x, lit 0 * t.y, lit 1 * t.z, lit 0] 2 (fun j hj => by
        fin_cases j <;> first | exact absurd rfl hj | exact z 0 | exact z 1 | exact isZ_lit)
      exact this.trans (.inl (one_mul' t.z))
  · exact sum4_same ![lit 0 * t.x, lit 0 * t.y, lit 0 * t.z, lit 1] 3 (fun j hj => by
        fin_cases j <;> first | exact absurd rfl hj | exact z 0 | exact z 1 | exact z 2)

/-- `translate(mat4(), t) * mat4(R) * scale(mat4(), s)`, entry by entry -/
theorem compose32 {t s : V3 F32} {R : M3 F32} (ht : ∀ i, (coord t i).IsFin = true) (hs : ∀ i, (coord s i).IsFin = true)
    (hR : ∀ c r, (entry R c r).IsFin = true) :
    (∀ c r : Fin 3, SameNumber (entry (M4.translate M4.default t * M4.ofMat3 R * M4.scale M4.default s) c.castSucc r.castSucc)
      (entry R c r * coord s c)) ∧
    (∀ r : Fin 3, SameNumber (entry (M4.translate M4.default t * M4.ofMat3 R * M4.scale M4.default s) 3 r.castSucc) (coord t r)) ∧
    (∀ c, SameNumber (entry (M4.translate M4.default t * M4.ofMat3 R * M4.scale M4.default s) c 3) (if c = 3 then lit 1 else lit 0)) := by
  obtain ⟨tz, t1, t3, tw⟩ := translate_entries ht
  have re := mat4_entries R
  generalize M4.translate M4.default t = T at *
  generalize M4.ofMat3 R = R4 at *
  have one := isFin_lit_one
  have tf : ∀ c r, (entry T c r).IsFin = true := by
    intro c r
    by_cases hc : c = 3
    · subst hc
      by_cases hr : r = 3
      · subst hr; exact finite_of_same tw one
      · obtain ⟨r', rfl⟩ := Fin.exists_castSucc_eq.2 hr
        exact finite_of_same (t3 r') (ht r')
    · by_cases hr : c = r
      · subst hr; rw [t1 c hc]; exact one
      · exact (tz c r hc hr).1
  have rf : ∀ c r, (entry R4 c r).IsFin = true := by
    intro c r
    rw [re]
    split_ifs
    · exact hR _ _
    · exact one
    · exact isFin_lit_zero
  have r0 : ∀ c r : Fin 4, (c = 3 ∨ r = 3) → c ≠ r → IsZ (entry R4 c r) := by
    intro c r h hn
    rw [re, dif_neg (by rintro ⟨a, b⟩; rcases h with rfl | rfl <;> exact absurd ‹(3 : Fin 4) < 3› (lt_irrefl _)), if_neg hn]
    exact isZ_lit
  have r1 : entry R4 3 3 = lit 1 := by rw [re]; rfl
  have rr : ∀ c r : Fin 3, entry R4 c.castSucc r.castSucc = entry R c r := by
    intro c r
    rw [re, dif_pos ⟨Fin.castSucc_lt_last c, Fin.castSucc_lt_last r⟩]
    rfl
  have ne3 : ∀ c : Fin 3, c.castSucc ≠ 3 := fun c => (Fin.castSucc_lt_last c).ne
  -- T * R
  have A0 : ∀ c r : Fin 3, SameNumber (entry (T * R4) c.castSucc r.castSucc) (entry R c r) := by
    intro c r
    have := entry_mul_same T R4 c.castSucc r.castSucc r.castSucc (fun j hj => by
      by_cases h : j = 3
      · subst h; exact (r0 _ 3 (Or.inr rfl) (ne3 c)).mulR (tf _ _)
      · exact (tz j _ h hj).mulL (rf _ _))
    rwa [t1 _ (ne3 r), one_mul', rr] at this
  have A1 : ∀ c : Fin 3, IsZ (entry (T * R4) c.castSucc 3) := by
    intro c
    refine IsZ.same (entry_mul_same T R4 c.castSucc 3 3 (fun j hj => (tz j 3 hj hj).mulL (rf _ _))) ?_
    exact (r0 _ 3 (Or.inr rfl) (ne3 c)).mulR (tf _ _)
  have A2 : ∀ r, SameNumber (entry (T * R4) 3 r) (entry T 3 r) := by
    intro r
    have := entry_mul_same T R4 3 r 3 (fun j hj => (r0 3 j (Or.inl rfl) (Ne.symm hj)).mulR (tf _ _))
    rwa [r1, mul_one'] at this
  have Af : ∀ c r, (entry (T * R4) c r).IsFin = true := by
    intro c r
    by_cases hc : c = 3
    · subst hc; exact finite_of_same (A2 r) (tf _ _)
    · obtain ⟨c', rfl⟩ := Fin.exists_castSucc_eq.2 hc
      by_cases hr : r = 3
      · subst hr; exact (A1 c').1
      · obtain ⟨r', rfl⟩ := Fin.exists_castSucc_eq.2 hr
        exact finite_of_same (A0 c' r') (hR _ _)
  generalize T * R4 = A at *
  -- the scaling
  have S0 : ∀ (c : Fin 3) (r : Fin 4), r ≠ c.castSucc → IsZ (entry (M4.scale (M4.default : M4 F32) s) c.castSucc r) := by
    intro c r h
    have z := fun i => isZ_lit.mulL (hs i)
    fin_cases c <;> fin_cases r <;> first | exact absurd rfl h | exact z 0 | exact z 1 | exact z 2
  have S1 : ∀ c : Fin 3, entry (M4.scale (M4.default : M4 F32) s) c.castSucc c.castSucc = coord s c := by
    intro c
    fin_cases c <;> exact one_mul' _
  have S2 : ∀ r : Fin 4, r ≠ 3 → IsZ (entry (M4.scale (M4.default : M4 F32) s) 3 r) := by
    intro r h
    fin_cases r <;> first | exact absurd rfl h | exact isZ_lit
  have S3 : entry (M4.scale (M4.default : M4 F32) s) 3 3 = lit 1 := rfl
  generalize M4.scale (M4.default : M4 F32) s = S at *
  have P3 : ∀ r, SameNumber (entry (A * S) 3 r) (entry A 3 r) := by
    intro r
    have := entry_mul_same A S 3 r 3 (fun j hj => (S2 j hj).mulR (Af _ _))
    rwa [S3, mul_one'] at this
  have P0 : ∀ (c : Fin 3) (r : Fin 4), SameNumber (entry (A * S) c.castSucc r) (entry A c.castSucc r * coord s c) := by
    intro c r
    have := entry_mul_same A S c.castSucc r c.castSucc (fun j hj => (S0 c j hj).mulR (Af _ _))
    rwa [S1] at this
  refine ⟨fun c r => (P0 c _).trans ((A0 c r).mulR (hs c)), fun r => (P3 _).trans ((A2 _).trans (t3 r)), fun c => ?_⟩
  by_cases hc : c = 3
  · subst hc
    rw [if_pos rfl]
    exact (P3 3).trans ((A2 3).trans tw)
  · rw [if_neg hc]
    obtain ⟨c', rfl⟩ := Fin.exists_castSucc_eq.2 hc
    have := IsZ.same (P0 c' 3) ((A1 c').mulL (hs c'))
    exact .inr ⟨this.1, isFin_lit_zero, this.2, val_lit_zero⟩

end Zcm
