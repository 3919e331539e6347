import Verif.Model.Lapl1d

/-!
# `CSRLineWise` of SDIRKL/test/Lapl

Model of `CSRLineWise::init` (csr.cpp 6-38) and of the printing loop (csr.cpp 44-54).  The class is compiled with the
library of the example; nothing in the repository calls it.
-/

namespace Odes.Lapl

variable {α : Type}

/-- the arrays under construction: `ia` (`none`: never written), `ja` and `a` up to the current position `pja`
(the length of `a`), `curia`. -/
structure Csr (α : Type) where
  ia : ℕ → Option ℤ
  ja : List ℤ
  a : List α
  curia : ℤ

/-- outcome of `init`; `throws`: `throw "not 1"`. -/
inductive CsrOut (α : Type) where
  | ub
  | throws
  | ret (order : ℤ) (s : Csr α)

/-- `ia[k]=v`; `none`: outside the `order+1` elements. -/
def wr (order : ℤ) (ia : ℕ → Option ℤ) (k v : ℤ) : Option (ℕ → Option ℤ) :=
  if 0 ≤ k ∧ k ≤ order then some fun m => if m = k.toNat then some v else ia m else none

/-- `for(int l=curia+1;l<=cc;l++) ia[l-1]=v;`, csr.cpp 29-30. -/
def fill (order : ℤ) (ia : ℕ → Option ℤ) (curia cc v : ℤ) : Option (ℕ → Option ℤ) :=
  (List.range (cc - curia).toNat).foldlM (fun ia (t : ℕ) => wr order ia (curia + 1 + t - 1) v) ia

/-- body of the loop, csr.cpp 25-35.  `P.first(i)` is the second component of the key (PrematOrder.hpp 33-38). -/
def csrStep (order : ℤ) (s : Csr α) (e : Entry α) : Option (Csr α) :=
  let cc := e.1.2
  let pja : ℤ := s.a.length
  if cc ≠ s.curia then
    (fill order s.ia s.curia cc (pja + 1)).map fun ia => ⟨ia, s.ja ++ [e.1.1], s.a ++ [e.2], cc⟩
  else some { s with ja := s.ja ++ [e.1.1], a := s.a ++ [e.2] }

/-- `CSRLineWise::init`, csr.cpp 6-38.  For an empty map the first iterator is the end and is
dereferenced (line 15). -/
def csrInit (P : Premat α) : CsrOut α :=
  match P.M with
  | [] => .ub
  | e :: l =>
    if e.1.2 ≠ 1 then .throws else
    match wr P.maxLig (fun _ => none) 0 1 with
    | none => .ub
    | some ia =>
      match (e :: l).foldlM (csrStep P.maxLig) ⟨ia, [], [], 1⟩ with
      | none => .ub
      | some s =>
        match wr P.maxLig s.ia s.curia (s.a.length + 1) with
        | none => .ub
        | some ia => .ret P.maxLig { s with ia := ia }

/-- the line `i` of `print`, csr.cpp 49-52: the pairs `(ja[j-1], a[j-1])` for `j` from `ia[i-1]` to `ia[i]-1`.
`none`: an element which was never written or lies outside the arrays is read. -/
def csrLine (s : Csr α) (i : ℕ) : Option (List (ℤ × α)) :=
  match s.ia (i - 1), s.ia i with
  | some p, some q => (List.range (q - p).toNat).mapM fun t : ℕ =>
      if 1 ≤ p + t then
        match s.ja[(p + t - 1).toNat]?, s.a[(p + t - 1).toNat]? with
        | some j, some v => some (j, v)
        | _, _ => none
      else none
  | _, _ => none

/-- `print`, csr.cpp 44-54: the lines 1 to `order`. -/
def csrPrint (order : ℕ) (s : Csr α) : Option (List (List (ℤ × α))) :=
  (List.range order).mapM fun t => csrLine s (t + 1)

end Odes.Lapl
