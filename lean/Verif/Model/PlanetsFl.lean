import Verif.Props.SympFloat
import Mathlib.Analysis.SpecialFunctions.Sqrt

/-!
# Right hand side of Outer.hpp (OuterNeptune.hpp, OuterUranus.hpp) in floating point arithmetic

Every operation is rounded to nearest; the sign change is exact.  `pow(.,2)` and `pow(.,3)` of the mathematical library are
parameters.  The loops are written for one component of the result at a time, with its operations in the order of the loops;
the writes of `dpdt` beyond its array (`Model/SympTest.lean`) are not part of this model; the loops on arrays, with them, are in
`Model/PlanetsLoop.lean`.  What is computed from a division by
zero (infinities, NaN) is represented by an arbitrary number `bad`.
-/

namespace Odes.Symp.Test

open Odes.Symp

variable {F : FP} {N : ℕ}

/-- the numbers of the class: `masses`, `G`, and the functions of the library. -/
structure PlanetsFl (F : FP) (N : ℕ) where
  masses : Fin N → F.T
  G : F.T
  pow2 : F.T → F.T
  pow3 : F.T → F.T
  bad : F.T

/-- `q[3*i+s]`. -/
def posF (y : Fin (6 * N) → F.T) (i : Fin N) (s : Fin 3) : F.T := y ⟨3 * i + s, by have := i.2; have := s.2; omega⟩

/-- `p[3*i+s]`, `p = X+3*N`. -/
def momF (y : Fin (6 * N) → F.T) (i : Fin N) (s : Fin 3) : F.T := y ⟨3 * N + (3 * i + s), by have := i.2; have := s.2; omega⟩

variable (c : PlanetsFl F N)

/-- `-G`. -/
def negG : F.T := ⟨-c.G.1, c.G.2.neg⟩

/-- `diff2(q,q,k,l)`, Outer.hpp 13-20. -/
noncomputable def diff2Fl (y : Fin (6 * N) → F.T) (k l : Fin N) : F.T :=
  (List.finRange 3).foldl (fun ret s => ret + c.pow2 (posF y k s - posF y l s)) 0

/-- `pow(sqrt(diff2(q,q,k,l)),3)`, Outer.hpp 67 and 77. -/
noncomputable def cubeFl (y : Fin (6 * N) → F.T) (k l : Fin N) : F.T :=
  c.pow3 ⟨F.rnd (Real.sqrt (diff2Fl c y k l).1), F.rn.flt _⟩

/-- `G*masses[l]*masses[j]/pow(sqrt(diff2(q,q,l,j)),3)`, Outer.hpp 67. -/
noncomputable def coef1 (y : Fin (6 * N) → F.T) (l j : Fin N) : F.T :=
  ⟨F.rnd ((c.G * c.masses l * c.masses j).1 / (cubeFl c y l j).1), F.rn.flt _⟩

/-- `-G*masses[j]*masses[l]/pow(sqrt(diff2(q,q,j,l)),3)`, Outer.hpp 77. -/
noncomputable def coef2 (y : Fin (6 * N) → F.T) (l j : Fin N) : F.T :=
  ⟨F.rnd ((negG c * c.masses j * c.masses l).1 / (cubeFl c y j l).1), F.rn.flt _⟩

/-- `c*(q[3*l+s]-q[3*j+s])`, Outer.hpp 70. -/
noncomputable def term1Fl (y : Fin (6 * N) → F.T) (l j : Fin N) (s : Fin 3) : F.T :=
  if (cubeFl c y l j).1 = 0 then c.bad else coef1 c y l j * (posF y l s - posF y j s)

/-- `c*(q[3*j+s]-q[3*l+s])`, Outer.hpp 80. -/
noncomputable def term2Fl (y : Fin (6 * N) → F.T) (l j : Fin N) (s : Fin 3) : F.T :=
  if (cubeFl c y j l).1 = 0 then c.bad else coef2 c y l j * (posF y j s - posF y l s)

/-- `dp[3*l+s]` after `dpdt`, Outer.hpp 57-82: zero, the bodies before `l` (63-71), then the bodies after `l` (73-81). -/
noncomputable def dpdtFl (y : Fin (6 * N) → F.T) (l : Fin N) (s : Fin 3) : F.T :=
  ((List.finRange N).filter (fun j => l < j)).foldl (fun dp j => dp + term2Fl c y l j s)
    (((List.finRange N).filter (fun j => j < l)).foldl (fun dp j => dp + term1Fl c y l j s) 0)

/-- `dq[3*i+j]` after `dqdt`, Outer.hpp 47-56. -/
noncomputable def dqdtFl (y : Fin (6 * N) → F.T) (i : Fin N) (j : Fin 3) : F.T :=
  if (c.masses i).1 = 0 then c.bad else ⟨F.rnd (-(momF y i j).1 / (c.masses i).1), F.rn.flt _⟩

/-- `operator()`, Outer.hpp 86-97. -/
noncomputable def planetsFl (y : Fin (6 * N) → F.T) (k : Fin (6 * N)) : F.T :=
  if h : (k : ℕ) < 3 * N then dqdtFl c y ⟨k / 3, by omega⟩ ⟨k % 3, by omega⟩
  else dpdtFl c y ⟨(k - 3 * N) / 3, by have := k.2; omega⟩ ⟨(k - 3 * N) % 3, by omega⟩

end Odes.Symp.Test
