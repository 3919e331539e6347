import Mathlib.LinearAlgebra.Matrix.NonsingularInverse
import Mathlib.LinearAlgebra.Matrix.ToLinearEquiv

/-!
# Specification: linear algebra in Mathlib's terms

One-based arrays are read as Mathlib matrices and vectors.
-/

namespace Odes.Hess.Spec

variable {K : Type}

/-- the `n × n` matrix held in a one-based array. -/
def mat (n : ℕ) (A : ℤ → ℤ → K) : Matrix (Fin n) (Fin n) K := fun i j => A (i + 1) (j + 1)

/-- the vector held in a one-based array. -/
def vec (n : ℕ) (b : ℤ → K) : Fin n → K := fun i => b (i + 1)

/-- upper Hessenberg part. -/
def hess [Zero K] {n : ℕ} (M : Matrix (Fin n) (Fin n) K) : Matrix (Fin n) (Fin n) K :=
  fun i j => if (i : ℕ) ≤ j + 1 then M i j else 0

variable [CommRing K]

/-- elementary reflector `I - t v vᵀ`. -/
def reflector {n : ℕ} (t : K) (v : Fin n → K) : Matrix (Fin n) (Fin n) K := 1 - t • Matrix.vecMulVec v v

/-- LAPACK's dgehrd, "`v(1:i) = 0`, `v(i+1) = 1`, `v(i+2:n)` is stored in `A(i+2:n,i)`" for
reflector number `i = j+1`. -/
def hv (n : ℕ) (A : ℤ → ℤ → K) (j : ℕ) : Fin n → K := fun i =>
  if (i : ℕ) = j + 1 then 1 else if j + 1 < (i : ℕ) then A (i + 1) (j + 1) else 0

/-- "`Q = H(1) H(2) ... H(n-1)`", `H(i) = I - tau v vᵀ`. -/
def Q (n : ℕ) (A : ℤ → ℤ → K) (tau : ℤ → K) : Matrix (Fin n) (Fin n) K :=
  ((List.range (n - 1)).map fun j : ℕ => reflector (tau j) (hv n A j)).prod

/-- contract of dgehrd (`ilo=1`, `ihi=n`): `J = Q H Qᵀ` with `H` the Hessenberg part of the output,
each `H(i)` is a reflection or the identity, the last one is the identity (a reflector of a vector
of length 1). -/
structure IsGehrd (n : ℕ) (J A : ℤ → ℤ → K) (tau : ℤ → K) : Prop where
  eq : mat n J = Q n A tau * hess (mat n A) * (Q n A tau).transpose
  orth : ∀ j : ℕ, j + 1 < n → tau j = 0 ∨ tau j * dotProduct (hv n A j) (hv n A j) = 2
  last : 2 ≤ n → tau (n - 2) = 0

end Odes.Hess.Spec
