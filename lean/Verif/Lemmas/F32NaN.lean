import Verif.Lemmas.F32Mono
import Verif.Lemmas.Linear
import Verif.Spec.NaN

/-!
# NaN and infinities through the operations; entries of products
-/

namespace Zcm

namespace F32

@[simp] theorem sqrt_nan : FloatOps.sqrt (.nan : F32) = .nan := rfl
@[simp] theorem fabs_nan : FloatOps.fabs (.nan : F32) = .nan := rfl

theorem eq_zero_of_val {x : F32} (hf : x.IsFin = true) (h : x.val = 0) : ∃ s, x = .fin s 0 rep_zero := by
  obtain ⟨s, k, hk, rfl⟩ := exists_fin hf
  have hk0 : k = 0 := by
    have h2 : (F32.fin s k hk).key = 0 := by
      unfold val at h
      have : ((F32.fin s k hk).key : ℚ) = 0 := by
        rcases div_eq_zero_iff.mp h with h | h
        · exact h
        · norm_num at h
      exact_mod_cast this
    unfold key at h2
    cases s <;> simpa using h2
  subst hk0
  exact ⟨s, rfl⟩

theorem eq_zero_of_beq {x : F32} (h : (x == lit 0) = true) : ∃ s, x = .fin s 0 rep_zero := by
  rw [beq_iff] at h
  rcases x with _ | s | ⟨s, k, hk⟩
  · exact absurd rfl h.1
  · exfalso
    have := h.2.2
    rw [key_lit_zero] at this
    cases s
    · rw [key_inf_false] at this; norm_num at this
    · rw [key_inf_true] at this; norm_num at this
  · have h2 := h.2.2
    rw [key_lit_zero] at h2
    have hk0 : k = 0 := by
      unfold key at h2
      cases s <;> simpa using h2
    subst hk0
    exact ⟨s, rfl⟩

/-- the reciprocal of a zero is infinite -/
theorem one_div_zero' (s : Bool) : (lit 1 : F32) / .fin s 0 rep_zero = .inf s := by
  cases s <;> decide +kernel

theorem mul_inf_not_fin (x : F32) (s : Bool) : (x * .inf s).IsFin = false := by
  rcases x with _ | t | ⟨t, k, hk⟩
  · rfl
  · rfl
  · show (if k = 0 then F32.nan else .inf (t ^^ s)).IsFin = false
    split_ifs <;> rfl

theorem mul_recip_zero {D : F32} (hf : D.IsFin = true) (h : D.val = 0) (x : F32) : (x * (lit 1 / D)).IsFin = false := by
  obtain ⟨s, rfl⟩ := eq_zero_of_val hf h
  rw [one_div_zero']; exact mul_inf_not_fin _ _

/-- a finite number times a zero is a zero -/
theorem mul_zero_beq {x : F32} (h : x.IsFin = true) (s : Bool) : (x * .fin s 0 rep_zero == lit 0) = true := by
  obtain ⟨t, k, hk, rfl⟩ := exists_fin h
  have h0 : val (.fin s 0 rep_zero) = 0 := by cases s <;> simp [val, key]
  have e : (F32.fin t k hk) * .fin s 0 rep_zero = round (t ^^ s) 0 := by
    show round (t ^^ s) (val (.fin t k hk) * val (.fin s 0 rep_zero)) = _
    rw [h0, mul_zero]
  rw [e]
  cases t <;> cases s <;> decide +kernel

/-- `1 / sqrt(x)` for a zero and for infinity -/
theorem inversesqrt_zero (s : Bool) : (lit 1 : F32) / FloatOps.sqrt (.fin s 0 rep_zero) = .inf s := by
  cases s <;> decide +kernel
theorem inversesqrt_inf : (lit 1 : F32) / FloatOps.sqrt (.inf false) = .fin false 0 rep_zero := by decide +kernel

theorem sq_nn {a : F32} (h : a ≠ .nan) : lit 0 ≤ a * a :=
  (NnLe.sq (le_refl' (by rcases a with _ | _ | _ <;> simp_all [FloatOps.fabs, fabs]))).nonneg

theorem nn_add {a b : F32} (ha : lit 0 ≤ a) (hb : lit 0 ≤ b) : lit 0 ≤ a + b :=
  (NnLe.add ⟨ha, le_refl' ha.2.1⟩ ⟨hb, le_refl' hb.2.1⟩).nonneg

end F32

section
variable {α : Type} [Add α] [Mul α]

theorem M2.coord_mulV' (m : M2 α) (v : V2 α) (r : Fin 2) : coord (m * v) r = Entries.entry m 0 r * coord v 0 + Entries.entry m 1 r * coord v 1 := by
  fin_cases r <;> rfl
theorem M2.coord_vMul' (m : M2 α) (v : V2 α) (c : Fin 2) : coord (v * m) c = coord v 0 * Entries.entry m c 0 + coord v 1 * Entries.entry m c 1 := by
  fin_cases c <;> rfl
theorem M2.entry_mul' (a b : M2 α) (c r : Fin 2) : Entries.entry (a * b) c r = Entries.entry a 0 r * Entries.entry b c 0 + Entries.entry a 1 r * Entries.entry b c 1 := by
  fin_cases c <;> fin_cases r <;> rfl

theorem M3.coord_mulV' (m : M3 α) (v : V3 α) (r : Fin 3) : coord (m * v) r = Entries.entry m 0 r * coord v 0 + Entries.entry m 1 r * coord v 1 + Entries.entry m 2 r * coord v 2 := by
  fin_cases r <;> rfl
theorem M3.coord_vMul' (m : M3 α) (v : V3 α) (c : Fin 3) : coord (v * m) c = Entries.entry m c 0 * coord v 0 + Entries.entry m c 1 * coord v 1 + Entries.entry m c 2 * coord v 2 := by
  fin_cases c <;> rfl
theorem M3.entry_mul' (a b : M3 α) (c r : Fin 3) : Entries.entry (a * b) c r = Entries.entry a 0 r * Entries.entry b c 0 + Entries.entry a 1 r * Entries.entry b c 1 + Entries.entry a 2 r * Entries.entry b c 2 := by
  fin_cases c <;> fin_cases r <;> rfl

theorem M4.coord_mulV' (m : M4 α) (v : V4 α) (r : Fin 4) : coord (m * v) r = (Entries.entry m 0 r * coord v 0 + Entries.entry m 1 r * coord v 1) + (Entries.entry m 2 r * coord v 2 + Entries.entry m 3 r * coord v 3) := by
  fin_cases r <;> rfl
theorem M4.coord_vMul' (m : M4 α) (v : V4 α) (c : Fin 4) : coord (v * m) c = Entries.entry m c 0 * coord v 0 + Entries.entry m c 1 * coord v 1 + Entries.entry m c 2 * coord v 2 + Entries.entry m c 3 * coord v 3 := by
  fin_cases c <;> rfl
theorem M4.entry_mul' (a b : M4 α) (c r : Fin 4) : Entries.entry (a * b) c r = Entries.entry a 0 r * Entries.entry b c 0 + Entries.entry a 1 r * Entries.entry b c 1 + Entries.entry a 2 r * Entries.entry b c 2 + Entries.entry a 3 r * Entries.entry b c 3 := by
  fin_cases c <;> fin_cases r <;> rfl

theorem Quat.mul_def' [Sub α] [FloatOps α] (p q : Quat α) : p * q =
    (let ww := (p.z + p.x) * (q.x + q.y)
     let yy := (p.w - p.y) * (q.w + q.z)
     let zz := (p.w + p.y) * (q.w - q.z)
     let xx := ww + yy + zz
     let qq := lit 0.5 * (xx + (p.z - p.x) * (q.x - q.y))
     Quat.ofFloats
       (qq - ww + (p.z - p.y) * (q.y - q.z))
       (qq - xx + (p.x + p.w) * (q.x + q.w))
       (qq - yy + (p.w - p.x) * (q.y + q.z))
       (qq - zz + (p.z + p.y) * (q.w - q.x))) := rfl

end

end Zcm
