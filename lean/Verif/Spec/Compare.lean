import Verif.Model.F32
import Mathlib.Data.EReal.Basic

/-!
# Specification: comparing floats
-/

namespace Zcm

/-- The place of a float on the extended number line: its exact value, or `±∞`. (A NaN has no place; it gets 0 here and is treated
separately.) -/
noncomputable def onLine : F32 → EReal
  | .nan => 0
  | .inf s => if s then ⊥ else ⊤
  | .fin s k h => (((F32.fin s k h).val : ℝ) : EReal)

end Zcm
