import Mathlib.Algebra.Field.Basic
import Mathlib.Data.Prod.Lex
import Mathlib.Data.Int.Order.Basic

/-!
# The matrix of SDIRKL/test/Lapl

Model of `PrematLineWise` (Premat.hpp, PrematOrder.hpp), `BuildMat` (BuildMatt1d.hpp) and of the part
of `SuperLu::init` (SuperLu.cpp) that fills the arrays handed to the SuperLU library.  The library
(`dgssv`, `dgstrs`) is not modelled.  A `std::map` is the list of its entries in the order of its
iterators; scalars are elements of a field.
-/

namespace Odes.Lapl

variable {α : Type}

/-- `cppos<LineWise>`, PrematOrder.hpp 16-26. -/
def before (p q : ℤ × ℤ) : Bool := p.2 < q.2 || (p.2 == q.2 && p.1 < q.1)

/-- an entry of the map. -/
abbrev Entry (α : Type) := (ℤ × ℤ) × α

/-- the map after `M[k]=v`: positions are equivalent when neither is before the other. -/
def put (k : ℤ × ℤ) (v : α) : List (Entry α) → List (Entry α)
  | [] => [(k, v)]
  | e :: l => if before k e.1 then (k, v) :: e :: l
      else if before e.1 k then e :: put k v l else (e.1, v) :: l

/-- `PrematLineWise`, Premat.hpp 28-30 and 67-81. -/
structure Premat (α : Type) where
  M : List (Entry α)
  maxLig : ℤ
  maxCol : ℤ

/-- constructor, Premat.hpp 80-81. -/
def Premat.new : Premat α := ⟨[], -1, -1⟩

/-- `P(i,j)=v`, Premat.hpp 42-47. -/
def Premat.set (P : Premat α) (i j : ℤ) (v : α) : Premat α :=
  ⟨put (i, j) v P.M, max P.maxLig i, max P.maxCol j⟩

/-- `clear`, Premat.hpp 83-86: the maximal indices are kept. -/
def Premat.clear (P : Premat α) : Premat α := { P with M := [] }

/-- `BuildMat(n,P,gamma)`, BuildMatt1d.hpp 1-22; `n` is an `int`, division by zero (`n=1`) is a
value of the field. -/
def buildMat [Field α] (n : ℕ) (P : Premat α) (gamma : α) : Premat α :=
  let P := P.clear
  let h1 : α := 1 / (n - 1 : α)
  let h2 := h1 * h1
  let uh2 := gamma / h2
  let duh2 := 2 * uh2
  let P := (List.range' 2 (n - 2)).foldl (fun (P : Premat α) (i : ℕ) =>
    ((P.set i (i + 1) (-uh2)).set i (i - 1) (-uh2)).set i i (duh2 + 1)) P
  let P := P.set 1 1 (duh2 + 1)
  let P := P.set 1 2 (-duh2)
  let P := P.set n n (duh2 + 1)
  P.set n (n - 1) (-duh2)

/-- the arrays under construction in `SuperLu::init`: `rowind`, `a` up to the current
position, `colptr` (`none`: never written), `colc`. -/
structure Csc (α : Type) where
  rowind : List ℤ
  a : List α
  colptr : ℕ → Option ℤ
  colc : ℤ

/-- body of the loop, SuperLu.cpp 28-35.  `none`: `colptr` is written outside its `n+1`
elements. -/
def cscStep (n : ℕ) (s : Csc α) (e : Entry α) : Option (Csc α) :=
  if e.1.2 - 1 ≠ s.colc then
    let c := s.colc + 1
    if 0 ≤ c ∧ c ≤ n then
      some ⟨s.rowind ++ [e.1.1 - 1], s.a ++ [e.2],
        fun k => if k = c.toNat then some (s.a.length : ℤ) else s.colptr k, c⟩
    else none
  else some { s with rowind := s.rowind ++ [e.1.1 - 1], a := s.a ++ [e.2] }

/-- `SuperLu::init`, SuperLu.cpp 12-35: order of the matrix and arrays.  A negative
`max_indice_lig()` (no entry was ever made) is not modelled: `n` is a natural number. -/
def cscInit (P : Premat α) : Option (ℕ × Csc α) :=
  let n := P.maxLig.toNat
  let s0 : Csc α := ⟨[], [], fun k => if k = n then some (P.M.length : ℤ) else none, -1⟩
  (P.M.foldlM (cscStep n) s0).map fun s => (n, s)

end Odes.Lapl
