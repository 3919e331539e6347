import Verif.Model.SympKepler

/-!
# `H` of Kepler2.hpp in floating point
-/

namespace Odes.Symp.Test

variable {F : FP}

/-- `H`, Kepler2.hpp 21-29, every operation rounded; `sqrt` is correctly rounded (IEEE 754). -/
noncomputable def keplerHFl (x : Fin 4 → F.T) : F.T :=
  ⟨F.rnd (F.rnd (0.5 * (x 2 * x 2 + x 3 * x 3 : F.T).1) - F.rnd (1 / F.rnd (Real.sqrt (x 0 * x 0 + x 1 * x 1 : F.T).1))),
    F.rn.flt _⟩

end Odes.Symp.Test
