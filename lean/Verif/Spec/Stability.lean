import Verif.Spec.RockLin
import Mathlib.Data.Real.Basic

/-!
# Amplification factor of a formula

The result of one step of length 1 for the scalar equation `y' = z y` started at 1.
-/

namespace Odes.Spec

/-- amplification factor of the formula `R` at the real number `z`. -/
def amp (R : Gen.Formula ℝ) (z : ℝ) : ℝ :=
  Gen.step R (fun (v : Fin 1 → ℝ) i => z * v i) 1 (fun _ => 1) 0

end Odes.Spec
