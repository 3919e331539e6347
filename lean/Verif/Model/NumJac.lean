import Verif.Model.Storage

/-!
# Numerical Jacobian: `Jacobian(t,y,Fy)` of Radau5cc.hpp 81-97 and Rodascc.hpp 161-176

Both loops are the same text (Radau5 then adds `n` to its counter).  `y` is passed as a
`fortranVector` copied by value: the copy shares the memory of the caller's array, so the buffer `y`
of the model is the caller's.  The scalar type is arbitrary; `delt` is a parameter
(`sqrt(uround*MAX(1.e-5,ABS(ysafe)))`).  The user's function is a parameter: it reads the vector (as a
one-based function) and overwrites all of `R`.
-/

namespace Odes.NumJac

open Odes.Mem

variable {α : Type} [Add α] [Sub α] [Mul α] [Div α] [One α]

/-- what the loop modifies: the vector, the Jacobian and (ghost) the number of evaluations. -/
structure St (α : Type) where
  y : Buf α
  jac : Buf α
  calls : ℕ

/-- a block of memory seen as a one-based vector. -/
def vec (b : Buf α) : ℤ → α := fun i => b.cell (i - 1)

/-- body of the loop on `i`: `Jac(i,j)=(R(i)-Fy(i))*udelt`, Radau5cc.hpp 91-92, Rodascc.hpp 172-173. -/
def column (set : Buf α → ℤ → ℤ → α → Option (Buf α)) (R Fy : Buf α) (udelt : α) (j i : ℤ)
    (jac : Buf α) : Option (Buf α) :=
  (R.rd (i - 1)).bind fun r => (Fy.rd (i - 1)).bind fun f => set jac i j ((r - f) * udelt)

/-- body of the loop on `j`, Radau5cc.hpp 86-93, Rodascc.hpp 166-174.  `ib`, `ie` are `Ibegin` and
`Iend`, `set` is the assignment `Jac(i,j)=v`. -/
def body (n : ℤ) (ib ie : ℤ → ℤ) (set : Buf α → ℤ → ℤ → α → Option (Buf α)) (delt : α → α)
    (F : (ℤ → α) → ℤ → α) (Fy : Buf α) (j : ℤ) (s : St α) : Option (St α) :=
  (s.y.rd (j - 1)).bind fun ysafe =>
    (s.y.wr (j - 1) (ysafe + delt ysafe)).bind fun y =>
      let R : Buf α := ⟨n, fun k => F (vec y) (k + 1)⟩
      (forUp (ib j) (ie j) (column set R Fy (1 / delt ysafe) j) s.jac).bind fun jac =>
        (y.wr (j - 1) ysafe).map fun y => { y := y, jac := jac, calls := s.calls + 1 }

/-- the whole function. -/
def jacobian (n : ℤ) (ib ie : ℤ → ℤ) (set : Buf α → ℤ → ℤ → α → Option (Buf α)) (delt : α → α)
    (F : (ℤ → α) → ℤ → α) (Fy : Buf α) (s : St α) : Option (St α) :=
  forUp 1 n (body n ib ie set delt F Fy) s

/-- full and Hessenberg storage: `Ibegin`, `Iend` Matrices.hpp 115-117, 307-308, 331-332. -/
def jacobianFull (n : ℤ) (delt : α → α) (F : (ℤ → α) → ℤ → α) (Fy : Buf α) (s : St α) :
    Option (St α) :=
  jacobian n (fun _ => 1) (fun _ => n) (Storage.faSet n) delt F Fy s

/-- banded storage: `Ibegin`, `Iend` Matrices.hpp 207-209. -/
def jacobianBand (n kl ku : ℤ) (delt : α → α) (F : (ℤ → α) → ℤ → α) (Fy : Buf α) (s : St α) :
    Option (St α) :=
  jacobian n (Storage.Ibegin ku) (Storage.Iend n kl) (Storage.frSet kl ku) delt F Fy s

end Odes.NumJac
