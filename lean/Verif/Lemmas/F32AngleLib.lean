import Verif.Spec.Angles
import Verif.Spec.Turn
import Verif.Lemmas.F32Persp

/-!
# A C library with good trigonometric and inverse trigonometric functions exists
-/

set_option exponentiation.threshold 300

namespace Zcm

open F32

/-- a C library with good `sinf`, `cosf`, `asinf`, `acosf` and `atan2f` (and nothing else) -/
@[instance_reducible]
noncomputable def angleLibm : Libm F32 where
  expf := id
  logf := id
  log2f := id
  powf x _ := x
  cbrtf := id
  sinf x := closeFloat (Real.sin x.val)
  cosf x := closeFloat (Real.cos x.val)
  tanf := id
  asinf x := closeFloat (Real.arcsin x.val)
  acosf x := open Classical in if 1 < (x.val : ℝ) then .nan else closeFloat (Real.arccos x.val)
  atanf := id
  atan2f y x := closeFloat (Complex.arg ⟨x.val, y.val⟩)
  sinhf := id
  coshf := id
  tanhf := id
  asinhf := id
  acoshf := id
  atanhf := id

theorem closeFloat_near {y b e : ℝ} (h : |y| ≤ b) (hb : b ≤ 4) (he : b / 2 ^ 24 + 1 / 2 ^ 140 ≤ e) :
    Near (closeFloat y) y e := by
  obtain ⟨f, d⟩ := closeFloat_close (y := y) (h.trans (hb.trans (by norm_num)))
  refine ⟨f, d.trans (le_trans ?_ he)⟩
  gcongr

theorem angleLibm_trig : @GoodTrig angleLibm := fun _ _ =>
  ⟨closeFloat_near (Real.abs_sin_le_one _) (by norm_num) (by norm_num),
    closeFloat_near (Real.abs_cos_le_one _) (by norm_num) (by norm_num)⟩

theorem angleLibm_acos : @GoodAcos angleLibm := fun x _ h => by
  have a0 := Real.arccos_nonneg (x.val : ℝ)
  have a1 := Real.arccos_le_pi (x.val : ℝ)
  have e : (@Libm.acosf _ angleLibm x) = closeFloat (Real.arccos x.val) := if_neg (not_lt.2 (_root_.abs_le.1 h).2)
  rw [e]
  exact closeFloat_near (b := 4) (by rw [abs_of_nonneg a0]; linarith [Real.pi_le_four]) le_rfl (by norm_num)

theorem angleLibm_domain : @AcosDomain angleLibm := fun _ _ h => if_pos h

theorem angleLibm_asin : @GoodAsin angleLibm := fun x _ _ => by
  refine closeFloat_near (b := 2) ?_ (by norm_num) (by norm_num)
  have a0 := Real.neg_pi_div_two_le_arcsin (x.val : ℝ)
  have a1 := Real.arcsin_le_pi_div_two (x.val : ℝ)
  have := Real.pi_le_four
  rw [_root_.abs_le]
  constructor <;> linarith

theorem angleLibm_atan2 : @GoodAtan2 angleLibm := fun y x _ _ => by
  refine ⟨Complex.arg ⟨x.val, y.val⟩, Complex.abs_arg_le_pi _, ?_, ?_,
    closeFloat_near (b := 4) ((Complex.abs_arg_le_pi _).trans Real.pi_le_four) le_rfl (by norm_num)⟩
  · have := Complex.norm_mul_cos_arg (⟨x.val, y.val⟩ : ℂ)
    rwa [Complex.norm_def, Complex.normSq_mk, ← sq, ← sq] at this
  · have := Complex.norm_mul_sin_arg (⟨x.val, y.val⟩ : ℂ)
    rwa [Complex.norm_def, Complex.normSq_mk, ← sq, ← sq] at this

end Zcm
