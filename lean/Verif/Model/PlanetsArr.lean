import Verif.Model.PlanetsLoop

/-!
# Evaluations of an iteration with the arrays as declared, every operation rounded
-/

namespace Odes.Symp.Test

open Odes.Mem Odes.Symp

variable {F : FP} {N : ℕ}

/-- the evaluations of one iteration, SymplecticRK.hpp 80-88, `Y` and `Y1` (line 21) being arrays of their own; the copy of the stage
to `v` is not shown. -/
noncomputable def evalsArr (c : PlanetsFl F N) (s : ℕ) (Y Y1 : Buf F.T) : Option (Buf F.T) :=
  forUp 0 (s - 1) (fun i Z => rhsL c ⟨6 * N, fun k => Y.cell (i * (6 * N) + k)⟩ (i * (6 * N)) Z) Y1

end Odes.Symp.Test
