import Verif.Model.Mem
import Mathlib.Data.Complex.Basic
import Mathlib.Data.Int.Interval
import Mathlib.Algebra.BigOperators.Intervals

/-!
# LAPACK storage conventions (specification)

Zero-based offsets in the Fortran array passed to LAPACK; matrix indices are one-based.
-/

namespace Odes.Lapack

/-- element `(r,c)` of a Fortran array with leading dimension `ld`: column major. -/
def cm (ld r c : ℤ) : ℤ := (c - 1) * ld + (r - 1)

/-- `dgetrf`: `A(i,j)` with `LDA = n`. -/
def ge (n i j : ℤ) : ℤ := cm n i j

/-- `dgbtrf`: "the j-th column of A is stored in the j-th column of the array AB as
`AB(KL+KU+1+i-j,j) = A(i,j)` for `max(1,j-KU)<=i<=min(m,j+KL)`", `LDAB = 2*KL+KU+1`. -/
def gb (kl ku i j : ℤ) : ℤ := cm (2 * kl + ku + 1) (kl + ku + 1 + i - j) j

/-- COMPLEX*16 element number `k` of an array of doubles: real part. -/
def re (k : ℤ) : ℤ := 2 * k
/-- COMPLEX*16 element number `k`: imaginary part. -/
def im (k : ℤ) : ℤ := 2 * k + 1

/-- `(i,j)` is in the band of an `n × n` matrix. -/
def InBand (n kl ku i j : ℤ) : Prop :=
  1 ≤ i ∧ i ≤ n ∧ 1 ≤ j ∧ j ≤ n ∧ i - j ≤ kl ∧ j - i ≤ ku

open Odes.Mem in
/-- complex entry `(i,j)` of a full `n × n` COMPLEX*16 matrix stored in `E`. -/
noncomputable def geC (n : ℤ) (E : Buf ℝ) (i j : ℤ) : ℂ :=
  ⟨E.cell (re (ge n i j)), E.cell (im (ge n i j))⟩

open Classical Odes.Mem in
/-- complex entry `(i,j)` of a banded COMPLEX*16 matrix stored in `E`. -/
noncomputable def gbC (n kl ku : ℤ) (E : Buf ℝ) (i j : ℤ) : ℂ :=
  if InBand n kl ku i j then ⟨E.cell (re (gb kl ku i j)), E.cell (im (gb kl ku i j))⟩ else 0

open Odes.Mem in
/-- component `i` of a COMPLEX*16 vector. -/
noncomputable def vecC (z : Buf ℝ) (i : ℤ) : ℂ := ⟨z.cell (re (i - 1)), z.cell (im (i - 1))⟩

open Odes.Mem in
/-- contract of a LAPACK factor+solve pair: `lap E z`, when it succeeds, replaces the vector `z` by
the solution of the system whose matrix has the entries `ent E`. -/
def SolvesC (n : ℤ) (ent : Buf ℝ → ℤ → ℤ → ℂ) (lap : Buf ℝ → Buf ℝ → Option (Buf ℝ)) : Prop :=
  ∀ E z z', lap E z = some z' → z.size = 2 * n → z'.size = 2 * n ∧
    ∀ i, 1 ≤ i → i ≤ n → ∑ j ∈ Finset.Icc 1 n, ent E i j * vecC z' j = vecC z i

end Odes.Lapack
