import Verif.Model.Rock4L
import Mathlib.Analysis.SpecialFunctions.Trigonometric.Basic

/-!
# Rock4-L: the example operator `test/F.hpp`

The four overloads of the class `F` (one-dimensional Laplacian with homogeneous Neumann
conditions) and its `rho()`.  `Size >= 2` is assumed (`Size = m + 2`): for `Size = 1` the mesh
size is `1./0.` and `in[1]` is out of bounds.  The loops write every entry of `out` once; they
are given as functions of the index.
-/

namespace Odes.Rock4L.Test

variable {K : Type} [Field K] {m : ℕ}

/-- index of the left neighbour. -/
def lft (i : Fin (m + 2)) : Fin (m + 2) := ⟨i.1 - 1, by omega⟩
/-- index of the right neighbour (of an interior point). -/
def rgt (i : Fin (m + 2)) : Fin (m + 2) := ⟨min (i.1 + 1) (m + 1), by omega⟩

/-- `h` of the constructor, test/F.hpp 26. -/
def mesh (K : Type) [Field K] (m : ℕ) : K := 1 / (((m + 2 : ℕ) : K) - 1)

/-- the class `F`, test/F.hpp 36-106. -/
def oper (m : ℕ) : Rock4L.Oper K (m + 2) where
  -- 37-51
  op5 v s a b := fun i =>
    let h1 := mesh K m * mesh K m
    let ah1 := a / h1
    if i.1 = 0 then (-2 * v 0 + 2 * v 1) * ah1 + b * s 0
    else if i.1 = m + 1 then
      (2 * v ⟨m, by omega⟩ - 2 * v ⟨m + 1, by omega⟩) * ah1 + b * s ⟨m + 1, by omega⟩
    else (v (lft i) - 2 * v i + v (rgt i)) * ah1 + b * s i
  -- 53-67
  op6 v s a b g := fun i =>
    let h1 := mesh K m * mesh K m
    if i.1 = 0 then a * ((-2 * v 0 + 2 * v 1) / h1 + g 0) + b * s 0
    else if i.1 = m + 1 then
      a * ((2 * v ⟨m, by omega⟩ - 2 * v ⟨m + 1, by omega⟩) / h1 + g ⟨m + 1, by omega⟩)
        + b * s ⟨m + 1, by omega⟩
    else a * ((v (lft i) - 2 * v i + v (rgt i)) / h1 + g i) + b * s i
  -- 69-89
  op7 v s a b c := fun i =>
    let h1 := mesh K m * mesh K m
    let ah1 := a / h1
    (if i.1 = 0 then (-2 * v 0 + 2 * v 1) * ah1
     else if i.1 = m + 1 then (2 * v ⟨m, by omega⟩ - 2 * v ⟨m + 1, by omega⟩) * ah1
     else (v (lft i) - 2 * v i + v (rgt i)) * ah1) + b * v i + c * s i
  -- 91-106
  op8 v s a b c g := fun i =>
    let h1 := mesh K m * mesh K m
    if i.1 = 0 then a * ((-2 * v 0 + 2 * v 1) / h1 + g 0) + b * v 0 + c * s 0
    else if i.1 = m + 1 then
      a * ((2 * v ⟨m, by omega⟩ - 2 * v ⟨m + 1, by omega⟩) / h1 + g ⟨m + 1, by omega⟩)
        + b * v ⟨m + 1, by omega⟩ + c * s ⟨m + 1, by omega⟩
    else a * ((v (lft i) - 2 * v i + v (rgt i)) / h1 + g i) + b * v i + c * s i

/-- `rho()`, test/F.hpp 12-20, over the reals: the loop over `i < Size`. -/
noncomputable def rho (m : ℕ) : ℝ :=
  (List.range (m + 2)).foldl (fun (R : ℝ) (i : ℕ) =>
    max |2 / (mesh ℝ m * mesh ℝ m) * (Real.cos ((i : ℝ) * 3.14159265359 / (m + 2 : ℕ)) - 1)| R) 0

end Odes.Rock4L.Test
