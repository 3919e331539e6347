import Verif.Model.Mem
import Verif.Model.Machine

/-!
# Matrix storage and assembly

`fortranArray.hpp`, `fortranComplexArray.hpp`, `fortranRectangularArray.hpp`,
`fortranRectangularComplexArray.hpp`, and the assembly parts of `Matrices.hpp`.
Sizes and indices are unbounded integers (no `int` overflow: `2*ldab*n` must fit in `int` in the real
code).  Scalars are an arbitrary additive group.
-/

namespace Odes.Storage

open Odes.Mem

variable {α : Type}

/-! ### fortranArray<n> -/

/-- offset of `A(i,j)`, fortranArray.hpp 49 and 62. -/
def faIdx (n i j : ℤ) : ℤ := (j - 1) * n + i - 1

/-- constructor, fortranArray.hpp 22-25: `n*n` cells with arbitrary contents. -/
def faNew (n : ℤ) (junk : ℤ → α) : Buf α := ⟨n * n, junk⟩

/-- `A(i,j)` as a value, fortranArray.hpp 43-50 (without `DEBUG`). -/
def faGet (n : ℤ) (b : Buf α) (i j : ℤ) : Option α := b.rd (faIdx n i j)

/-- `A(i,j)=v`, fortranArray.hpp 56-63 (without `DEBUG`). -/
def faSet (n : ℤ) (b : Buf α) (i j : ℤ) (v : α) : Option (Buf α) := b.wr (faIdx n i j) v

/-- `equal_minus`, fortranArray.hpp 66-72. -/
def faEqualMinus [Neg α] (n : ℤ) (x X : Buf α) : Option (Buf α) :=
  forUp 0 (n * n - 1) (fun i b => (X.rd i).bind fun v => b.wr i (-v)) x

/-- `addDiag`, fortranArray.hpp 75-80. -/
def faAddDiag [Add α] (n : ℤ) (v : α) (x : Buf α) : Option (Buf α) :=
  forUp 0 (n - 1) (fun i b => (b.rd (i * (n + 1))).bind fun w => b.wr (i * (n + 1)) (w + v)) x

/-! ### fortranComplexArray<n> -/

/-- offset of `Re(i,j)`, fortranComplexArray.hpp 54. -/
def fcRe (n i j : ℤ) : ℤ := (j - 1) * (2 * n) + 2 * (i - 1)
/-- offset of `Im(i,j)`, fortranComplexArray.hpp 62. -/
def fcIm (n i j : ℤ) : ℤ := (j - 1) * (2 * n) + 2 * i - 1
/-- constructor, fortranComplexArray.hpp 23-33. -/
def fcNew (n : ℤ) (junk : ℤ → α) : Buf α := ⟨2 * n * n, junk⟩
/-- `set(i,j,re,im)`, fortranComplexArray.hpp 43-47. -/
def fcSet (n : ℤ) (b : Buf α) (i j : ℤ) (re im : α) : Option (Buf α) :=
  let k := (j - 1) * (2 * n) + 2 * (i - 1)
  (b.wr k re).bind fun b => b.wr (k + 1) im

/-! ### fortranRectangularArray<n,kl,ku> -/

/-- leading dimension, fortranRectangularArray.hpp 21. -/
def ldab (kl ku : ℤ) : ℤ := 2 * kl + ku + 1
/-- `cc=klku-ldab`, fortranRectangularArray.hpp 22-25. -/
def cc (kl ku : ℤ) : ℤ := (kl + ku) - ldab kl ku
/-- offset of `A(i,j)`, fortranRectangularArray.hpp 63 and 80: `j*l1+i+cc`. -/
def frIdx (kl ku i j : ℤ) : ℤ := j * (ldab kl ku - 1) + i + cc kl ku
/-- constructor, fortranRectangularArray.hpp 34-40. -/
def frNew (n kl ku : ℤ) (junk : ℤ → α) : Buf α := ⟨ldab kl ku * n, junk⟩
/-- `A(i,j)`. -/
def frGet (kl ku : ℤ) (b : Buf α) (i j : ℤ) : Option α := b.rd (frIdx kl ku i j)
/-- `A(i,j)=v`. -/
def frSet (kl ku : ℤ) (b : Buf α) (i j : ℤ) (v : α) : Option (Buf α) := b.wr (frIdx kl ku i j) v
/-- `equal_minus`, fortranRectangularArray.hpp 84-89. -/
def frEqualMinus [Neg α] (n kl ku : ℤ) (x X : Buf α) : Option (Buf α) :=
  forUp 0 (ldab kl ku * n - 1) (fun i b => (X.rd i).bind fun v => b.wr i (-v)) x
/-- `addDiag`, fortranRectangularArray.hpp 92-98. -/
def frAddDiag [Add α] (n kl ku : ℤ) (v : α) (x : Buf α) : Option (Buf α) :=
  forUp 1 n (fun i b => (b.rd (i * ldab kl ku + cc kl ku)).bind fun w =>
    b.wr (i * ldab kl ku + cc kl ku) (w + v)) x

/-! ### fortranRectangularComplexArray<n,kl,ku> -/

/-- constructor, fortranRectangularComplexArray.hpp 22-41. -/
def frcNew (n kl ku : ℤ) (junk : ℤ → α) : Buf α := ⟨2 * ldab kl ku * n, junk⟩
/-- offset of `Re(i,j)`, fortranRectangularComplexArray.hpp 79. -/
def frcRe (kl ku i j : ℤ) : ℤ := 2 * (j * (ldab kl ku - 1) + i + cc kl ku)
/-- offset of `Im(i,j)`, fortranRectangularComplexArray.hpp 95. -/
def frcIm (kl ku i j : ℤ) : ℤ := 2 * (j * (ldab kl ku - 1) + i + cc kl ku) + 1
/-- `set`, fortranRectangularComplexArray.hpp 51-64. -/
def frcSet (kl ku : ℤ) (b : Buf α) (i j : ℤ) (re im : α) : Option (Buf α) :=
  let k := 2 * (j * (ldab kl ku - 1) + i + cc kl ku)
  (b.wr k re).bind fun b => b.wr (k + 1) im

/-! ### assembly, Matrices.hpp -/

/-- full matrices, `decomr` up to the call of `dgetrf_`, Matrices.hpp 49-50. -/
def asmRealFull [Neg α] [Add α] (n : ℤ) (fac1 : α) (E1 Jac : Buf α) : Option (Buf α) :=
  (faEqualMinus n E1 Jac).bind (faAddDiag n fac1)

/-- second loop of `decomc`: `Re(i,i)+=alpha; Im(i,i)=beta`. -/
def addShift [Add α] (re im : ℤ → ℤ) (n : ℤ) (alpha beta : α) (E : Buf α) : Option (Buf α) :=
  forUp 1 n (fun i b => (b.rd (re i)).bind fun w => (b.wr (re i) (w + alpha)).bind fun b =>
    b.wr (im i) beta) E

/-- full matrices, `decomc` up to the call of `zgetrf_`, Matrices.hpp 63-72. -/
def asmComplexFull [Neg α] [Add α] [Zero α] (n : ℤ) (alpha beta : α) (E2R Jac : Buf α) :
    Option (Buf α) :=
  (forUp 1 n (fun j b => forUp 1 n (fun i b => (faGet n Jac i j).bind fun v =>
    fcSet n b i j (-v) 0) b) E2R).bind
  (addShift (fun i => fcRe n i i) (fun i => fcIm n i i) n alpha beta)

/-- banded matrices, `decomr` up to the call of `dgbtrf_`, Matrices.hpp 149-150. -/
def asmRealBand [Neg α] [Add α] (n kl ku : ℤ) (fac1 : α) (E1 Jac : Buf α) : Option (Buf α) :=
  (frEqualMinus n kl ku E1 Jac).bind (frAddDiag n kl ku fac1)

/-- banded matrices, `decomc` up to the call of `zgbtrf_`, Matrices.hpp 159-168. -/
def asmComplexBand [Neg α] [Add α] [Zero α] (n kl ku : ℤ) (alpha beta : α) (E2R Jac : Buf α) :
    Option (Buf α) :=
  (forUp 1 n (fun j b => forUp (max 1 (j - ku)) (min n (j + kl)) (fun i b =>
    (frGet kl ku Jac i j).bind fun v => frcSet kl ku b i j (-v) 0) b) E2R).bind
  (addShift (fun i => frcRe kl ku i i) (fun i => frcIm kl ku i i) n alpha beta)

/-- Hessenberg, `decomc` up to the call of `dechc`, Matrices.hpp 281-295: two real matrices. -/
def asmComplexHess [Neg α] [Add α] [Zero α] (n : ℤ) (alpha beta : α) (E2R E2I Jac : Buf α) :
    Option (Buf α × Buf α) :=
  (forUp 1 (n - 1) (fun j (p : Buf α × Buf α) =>
    (faGet n Jac (j + 1) j).bind fun v => (faSet n p.1 (j + 1) j (-v)).bind fun r =>
    (faSet n p.2 (j + 1) j 0).bind fun m => some (r, m)) (E2R, E2I)).bind fun p =>
  forUp 1 n (fun j (p : Buf α × Buf α) =>
    (forUp 1 j (fun i (p : Buf α × Buf α) =>
      (faSet n p.2 i j 0).bind fun m => (faGet n Jac i j).bind fun v =>
      (faSet n p.1 i j (-v)).bind fun r => some (r, m)) p).bind fun p =>
    (faGet n p.1 j j).bind fun w => (faSet n p.1 j j (w + alpha)).bind fun r =>
    (faSet n p.2 j j beta).bind fun m => some (r, m)) p

/-- first loop of `solvecomplex` (full 98-102, banded 189-193): `Z2N(2*i-1)=Zr(i);
Z2N(2*i)=Zi(i)`; `V(k)` is `x[k-1]` (fortranVector.hpp 68-86). -/
def interleave (n : ℤ) (Zr Zi Z2N : Buf α) : Option (Buf α) :=
  forDown n 1 (fun i b => (Zr.rd (i - 1)).bind fun r => (b.wr (2 * i - 1 - 1) r).bind fun b =>
    (Zi.rd (i - 1)).bind fun m => b.wr (2 * i - 1) m) Z2N

/-- last loop of `solvecomplex` (full 108-112, banded 200-204). -/
def deinterleave (n : ℤ) (Z2N Zr Zi : Buf α) : Option (Buf α × Buf α) :=
  forUp 1 n (fun i (p : Buf α × Buf α) => (Z2N.rd (2 * i - 1)).bind fun m =>
    (p.2.wr (i - 1) m).bind fun b2 => (Z2N.rd (2 * i - 1 - 1)).bind fun r =>
    (p.1.wr (i - 1) r).bind fun b1 => some (b1, b2)) (Zr, Zi)

/-- `solvecomplex` for full (94-113) and banded (185-205) storage; `lap` stands for `zgetrs_` or
`zgbtrs_` applied to the factorised matrix: `none` = `ier!=0`, an exception. -/
def solveComplex (n : ℤ) (lap : Buf α → Option (Buf α)) (Z2N Zr Zi : Buf α) :
    Option (Except Exn (Buf α × Buf α)) :=
  (interleave n Zr Zi Z2N).bind fun z =>
  match lap z with
  | none => some (.error .factorisation)
  | some z' => (deinterleave n z' Zr Zi).map .ok

/-- constructor of the banded class, Matrices.hpp 140-145: exception iff the test holds. -/
def bandedCtorThrows (n nsub nsup : ℤ) : Bool := decide (nsub ≥ n) && decide (nsup ≥ n)

/-- `Ibegin`, Matrices.hpp 207 -/
def Ibegin (nsup i : ℤ) : ℤ := max 1 (i - nsup)
/-- `Iend`, Matrices.hpp 209 -/
def Iend (n nsub i : ℤ) : ℤ := min n (i + nsub)

end Odes.Storage
