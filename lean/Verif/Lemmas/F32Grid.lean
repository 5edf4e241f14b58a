import Verif.Spec.Grid
import Verif.Lemmas.F32Mod
import Verif.Lemmas.F32Scale
import Verif.Lemmas.F32Mono

/-!
# One coordinate of a grid cell in binary32
-/

set_option exponentiation.threshold 300

namespace Zcm.F32

theorem cell_size_pos {s : F32} (h : lit 0 < s) : 0 < s.val := by
  have := h.2.2
  rw [key_lit_zero] at this
  exact key_pos.1 this

theorem cell_le {s a b : F32} (fs : s.IsFin = true) (h0 : lit 0 < s) (fa : a.IsFin = true) (fb : b.IsFin = true) (h : a ≤ b) :
    F.floor (a / s) ≤ F.floor (b / s) :=
  integral_le Int.floor_mono (div_le' h fa fb fs h0)

theorem cell_index {s x : F32} (fs : s.IsFin = true) (h0 : lit 0 < s) (fx : x.IsFin = true) (hx : |x.val| ≤ 2 ^ 24 * s.val) :
    ∃ n : ℤ, IsInt (F.floor (x / s)) n ∧ n * s.val - (|x.val| / 2 ^ 24 + s.val / 2 ^ 150) ≤ x.val ∧ x.val < (n + 1) * s.val := by
  have p := cell_size_pos h0
  obtain ⟨n, i, h⟩ := floor_quotient fx fs p.ne' (by rwa [abs_of_pos p])
  refine ⟨n, i, ?_⟩
  have l := (le_div_iff₀ p).1 (Int.floor_le (x.val / s.val))
  have u := (div_lt_iff₀ p).1 (Int.lt_floor_add_one (x.val / s.val))
  have q : 0 ≤ |x.val| / 2 ^ 24 := by positivity
  have q' : 0 ≤ s.val / 2 ^ 150 := by positivity
  rcases h with rfl | ⟨rfl, e⟩
  · exact ⟨by linarith, u⟩
  · rw [abs_of_pos p] at e
    have := _root_.abs_le.1 e
    push_cast at *
    exact ⟨by linarith, by nlinarith⟩

theorem cell_exact {s x : F32} {k : ℤ} (fs : s.IsFin = true) (hs : s.val = 2 ^ k) (fx : x.IsFin = true)
    (hx : |x.val| ≤ 2 ^ 127 * s.val) (hu : x.val = 0 ∨ s.val / 2 ^ 126 ≤ |x.val|) :
    (F.floor (x / s)).IsFin = true ∧ (F.floor (x / s)).val = ⌊x.val / s.val⌋ := by
  have p : 0 < s.val := by rw [hs]; positivity
  have e : x.val / s.val = x.val * 2 ^ (-k) := by rw [hs, zpow_neg, div_eq_mul_inv]
  have b : |x.val / s.val| ≤ 2 ^ 127 := by rwa [abs_div, abs_of_pos p, div_le_iff₀ p]
  have f : ∀ t, (round t (x.val / s.val)).IsFin = true := fun t => isFin_round (b.trans (by norm_num))
  rw [div_fin fx fs p.ne']
  generalize (x.sgn ^^ s.sgn) = t
  have k1 : (round t x.val).val = x.val := by
    have := key_round_val fx t
    change ((round t x.val).key : ℚ) / 2 ^ 149 = _
    rw [this]; rfl
  have fr : (round t x.val).IsFin = true := isFin_round_of_between fx fx le_rfl le_rfl t
  have r1 : Regular x.val := .inr ⟨x.key, (key_eq_val x).symm⟩
  have r2 : Regular (x.val * 2 ^ (-k)) := by
    rw [← e]
    left
    rcases hu with h | h
    · left; rw [h, zero_div]
    · right
      rw [abs_div, abs_of_pos p, le_div_iff₀ p]
      linarith
  have sc := round_scaleZ (s := t) r1 r2 fr (by rw [← e]; exact f t)
  rw [← e, ScaledBy, k1] at sc
  refine ⟨isFin_floor (f t), ?_⟩
  rw [val_floor (f t), sc.2.2.2, ← e]

end Zcm.F32
