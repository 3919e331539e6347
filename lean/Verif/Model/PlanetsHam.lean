import Verif.Model.PlanetsFl

/-!
# `H` of Outer.hpp (OuterNeptune.hpp, OuterUranus.hpp) in floating point arithmetic
-/

namespace Odes.Symp.Test

open Odes.Symp

variable {F : FP} {N : ℕ} (c : PlanetsFl F N)

/-- `dot(p,p,i,i)`, Outer.hpp 6-12. -/
noncomputable def dotFl (y : Fin (6 * N) → F.T) (i : Fin N) : F.T :=
  (List.finRange 3).foldl (fun ret s => ret + momF y i s * momF y i s) 0

/-- `dot(p,p,i,i)/masses[i]`, Outer.hpp 108; `bad` for a division by zero. -/
noncomputable def kinFl (y : Fin (6 * N) → F.T) (i : Fin N) : F.T :=
  if (c.masses i).1 = 0 then c.bad else ⟨F.rnd ((dotFl y i).1 / (c.masses i).1), F.rn.flt _⟩

/-- `norme_diff(q,q,i,j)`, Outer.hpp 21-24. -/
noncomputable def normFl (y : Fin (6 * N) → F.T) (i j : Fin N) : F.T := ⟨F.rnd (Real.sqrt (diff2Fl c y i j).1), F.rn.flt _⟩

/-- `mai*masses[j]/norme_diff(q,q,i,j)`, Outer.hpp 116 (`Double` is `double`). -/
noncomputable def potFl (y : Fin (6 * N) → F.T) (i j : Fin N) : F.T :=
  if (normFl c y i j).1 = 0 then c.bad else ⟨F.rnd ((c.masses i * c.masses j : F.T).1 / (normFl c y i j).1), F.rn.flt _⟩

/-- the sum `s`, Outer.hpp 110-117: `j<i-1` leaves out the neighbour `j=i-1`; nothing is added for `i=0`. -/
noncomputable def potSumFl (y : Fin (6 * N) → F.T) : F.T :=
  (List.finRange N).foldl (fun s (i : Fin N) => ((List.finRange N).filter (fun j : Fin N => (j : ℕ) + 1 < (i : ℕ))).foldl
    (fun s j => s + potFl c y i j) s) 0

/-- `H(X)`, Outer.hpp 100-120. -/
noncomputable def hamilFl (y : Fin (6 * N) → F.T) : F.T :=
  ⟨F.rnd (F.rnd (((List.finRange N).foldl (fun ret i => ret + kinFl c y i) 0 : F.T).1 / 2) - (c.G * potSumFl c y : F.T).1), F.rn.flt _⟩

end Odes.Symp.Test
