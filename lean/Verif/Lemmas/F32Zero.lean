import Verif.Lemmas.F32Correct
import Verif.Lemmas.SignedZero

/-!
# Adding zeros
-/

namespace Zcm

open F32

/-- `z` is a zero -/
def F32.IsZ (z : F32) : Prop := z.IsFin = true ∧ z.val = 0

theorem F32.isZ_lit : IsZ (lit 0 : F32) := ⟨isFin_lit_zero, val_lit_zero⟩

theorem F32.isZ_round (s : Bool) : IsZ (round s 0) := by cases s <;> exact ⟨by decide +kernel, by decide +kernel⟩

theorem F32.IsZ.mulR {a z : F32} (hz : IsZ z) (ha : a.IsFin = true) : IsZ (a * z) := by
  rw [mul_fin ha hz.1, hz.2, mul_zero]; exact isZ_round _

theorem F32.IsZ.mulL {a z : F32} (hz : IsZ z) (ha : a.IsFin = true) : IsZ (z * a) := by
  rw [mul_comm']; exact hz.mulR ha

theorem F32.IsZ.add {a b : F32} (ha : IsZ a) (hb : IsZ b) : IsZ (a + b) := by
  rw [add_fin ha.1 hb.1, ha.2, hb.2, add_zero]; exact isZ_round _

theorem F32.SameNumber.addZ {a z : F32} (hz : IsZ z) : SameNumber (a + z) a := by
  rcases a with _ | s | ⟨s, k, h⟩
  · exact .inl (Eq.refl _)
  · obtain ⟨_, _, _, rfl⟩ := exists_fin hz.1
    exact .inl (Eq.refl _)
  · have hf : (F32.fin s k h).IsFin = true := Eq.refl _
    rw [add_fin hf hz.1, hz.2, add_zero]
    have := round_same ((F32.fin s k h).sgn && z.sgn) (F32.fin s k h).sgn (F32.fin s k h).val
    rwa [round_val hf] at this

theorem F32.SameNumber.zAdd {a z : F32} (hz : IsZ z) : SameNumber (z + a) a := by
  rw [add_comm']; exact .addZ hz

theorem F32.SameNumber.correct {x y : F32} {r : ℝ} (h : SameNumber x y) (hy : CorrectlyRounded y r) : CorrectlyRounded x r := by
  rcases h with rfl | ⟨a, b, c, d⟩
  · exact hy
  · have hb : x.bits.toNat % 2 = 0 := by
      rw [← round_val a, c]
      generalize x.sgn = s
      revert s
      decide +kernel
    obtain ⟨h1, h2, h3⟩ := hy
    refine ⟨fun hr => ⟨⟨a, ?_⟩, fun _ _ _ _ => hb⟩, fun hr => ?_, fun hr => ?_⟩
    · rw [c, ← d]; exact (h1 hr).1.2
    · rw [h2 hr] at b; exact absurd b (by decide)
    · rw [h3 hr] at b; exact absurd b (by decide)

/-- the four-term sum of a row of `mat4 * vec4` when three terms are zeros -/
theorem F32.same4_0 {a b c d : F32} (hb : IsZ b) (hc : IsZ c) (hd : IsZ d) : SameNumber ((a + b) + (c + d)) a :=
  (SameNumber.addZ (hc.add hd)).trans (.addZ hb)
theorem F32.same4_1 {a b c d : F32} (ha : IsZ a) (hc : IsZ c) (hd : IsZ d) : SameNumber ((a + b) + (c + d)) b :=
  (SameNumber.addZ (hc.add hd)).trans (.zAdd ha)
theorem F32.same4_2 {a b c d : F32} (ha : IsZ a) (hb : IsZ b) (hd : IsZ d) : SameNumber ((a + b) + (c + d)) c :=
  (SameNumber.zAdd (ha.add hb)).trans (.addZ hd)
theorem F32.same4_03 {a b c d : F32} (hb : IsZ b) (hc : IsZ c) : SameNumber ((a + b) + (c + d)) (a + d) :=
  .add (.addZ hb) (.zAdd hc)
theorem F32.same4_13 {a b c d : F32} (ha : IsZ a) (hc : IsZ c) : SameNumber ((a + b) + (c + d)) (b + d) :=
  .add (.zAdd ha) (.zAdd hc)
theorem F32.same4_23 {a b c d : F32} (ha : IsZ a) (hb : IsZ b) : SameNumber ((a + b) + (c + d)) (c + d) :=
  .zAdd (ha.add hb)

end Zcm
