import Verif.Model.SympTest

/-!
# Planetary problems of SymplecticRK/test: initial values

Outer.hpp, OuterNeptune.hpp, OuterUranus.hpp (constructors: Model/SympTest).  The decimal literals are real numbers (rounding to `double` is not modelled).
-/

namespace Odes.Symp.Test

open Odes.Mem

noncomputable section

/-- the three statements `a[k]=..; a[k+1]=..; a[k+2]=..;`. -/
def put3 (k : ℤ) (v : Fin 3 → ℝ) (U : Buf ℝ) : Option (Buf ℝ) :=
  (U.wr k (v 0)).bind fun U => (U.wr (k + 1) (v 1)).bind fun U => U.wr (k + 2) (v 2)

/-- the statements of `init` for the planets number `k`, `k+1`, ...: positions, then what is written to `p`
(Outer.hpp 126-140). -/
def bodies (nb : ℤ) : List ((Fin 3 → ℝ) × (Fin 3 → ℝ)) → ℤ → Buf ℝ → Option (Buf ℝ)
  | [], _, U => some U
  | r :: l, k, U => (put3 (3 * k) r.1 U).bind fun U => (put3 (3 * nb + 3 * k) r.2 U).bind (bodies nb l (k + 1))

/-- the Sun: `for(int i=0;i<3;i++) {q[3*nb1+i]=0.0; p[3*nb1+i]=0.0;}` (Outer.hpp 144-145, `nb1=nb-1`). -/
def sun (nb : ℤ) (U : Buf ℝ) : Option (Buf ℝ) :=
  forUp 0 2 (fun i U => (U.wr (3 * (nb - 1) + i) 0).bind fun U => U.wr (3 * nb + (3 * (nb - 1) + i)) 0) U

/-- `p[3*i+j]*=masses[i]` (Outer.hpp 147-149). -/
def momenta (P : Planets) (U : Buf ℝ) : Option (Buf ℝ) :=
  forUp 0 (P.nb - 1) (fun i U => forUp 0 2 (fun j U => (U.rd (3 * P.nb + (3 * i + j))).bind fun p =>
    (P.masses.rd i).bind fun m => U.wr (3 * P.nb + (3 * i + j)) (p * m)) U) U

/-- `init`, Outer.hpp 123-150, OuterNeptune.hpp 107-129, OuterUranus.hpp 99-118. -/
def init (P : Planets) (l : List ((Fin 3 → ℝ) × (Fin 3 → ℝ))) (U : Buf ℝ) : Option (Buf ℝ) :=
  (bodies P.nb l 0 U).bind fun U => (sun P.nb U).bind (momenta P)

/-- Jupiter, Saturn, Uranus; Neptune; Pluto (Outer.hpp 126-140). -/
def rows3 : List ((Fin 3 → ℝ) × (Fin 3 → ℝ)) :=
  [(![-3.5023653, -3.8169847, -1.5507963], ![0.00565429, -0.00412490, -0.00190589]),
   (![9.0755314, -3.0458353, -1.6483708], ![0.00168318, 0.00483525, 0.00192462]),
   (![8.3101420, -16.2901086, -7.2521278], ![0.00354178, 0.00137102, 0.00055029])]

def rowNeptune : (Fin 3 → ℝ) × (Fin 3 → ℝ) := (![11.4707666, -25.7294829, -10.8169456], ![0.00288930, 0.00114527, 0.00039677])

def rowPluto : (Fin 3 → ℝ) × (Fin 3 → ℝ) := (![-15.5387357, -25.2225594, -3.1902382], ![0.00276725, -0.00170702, -0.00136504])

/-- the initial values of the three classes. -/
def outerRows : List ((Fin 3 → ℝ) × (Fin 3 → ℝ)) := rows3 ++ [rowNeptune, rowPluto]
def neptuneRows : List ((Fin 3 → ℝ) × (Fin 3 → ℝ)) := rows3 ++ [rowNeptune]
def uranusRows : List ((Fin 3 → ℝ) × (Fin 3 → ℝ)) := rows3

end

end Odes.Symp.Test
