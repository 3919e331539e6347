import Verif.Props.SympFloat
import Mathlib.Analysis.SpecialFunctions.Sqrt

/-!
# Right hand side of Kepler2.hpp in floating point arithmetic

Every operation is rounded to nearest; the sign change is exact.  `pow` of the mathematical library is a parameter: a function
to floating point numbers.
-/

namespace Odes.Symp.Test

open Odes.Symp

variable {F : FP}

/-- `pow(q1*q1 + q2*q2,3)` then `sqrt`, Kepler2.hpp 16-17. -/
noncomputable def keplerRoot (pow3 : F.T → F.T) (x : Fin 4 → F.T) : F.T :=
  ⟨F.rnd (Real.sqrt (pow3 (x 0 * x 0 + x 1 * x 1)).1), F.rn.flt _⟩

/-- `operator()`, Kepler2.hpp 10-20. -/
noncomputable def keplerFl (pow3 : F.T → F.T) (x : Fin 4 → F.T) : Fin 4 → F.T :=
  ![⟨-(x 2).1, (x 2).2.neg⟩, ⟨-(x 3).1, (x 3).2.neg⟩, ⟨F.rnd ((x 0).1 / (keplerRoot pow3 x).1), F.rn.flt _⟩,
    ⟨F.rnd ((x 1).1 / (keplerRoot pow3 x).1), F.rn.flt _⟩]

end Odes.Symp.Test
