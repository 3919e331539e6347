import Mathlib.Algebra.BigOperators.Intervals
import Mathlib.Algebra.Field.Basic
import Mathlib.LinearAlgebra.Matrix.Notation

/-!
# Compressed columns, and the one-dimensional Laplacian
-/

namespace Odes.Spec

variable {α : Type}

/-- `colptr`, `rowind`, `a` are compressed columns of the matrix `M`: column `c` occupies the
positions from `colptr c` on, below `colptr (c+1)`, its row numbers increase, and an element that
is not stored is zero. -/
def IsCsc [AddCommMonoid α] {n : ℕ} (rowind : List ℤ) (a : List α) (colptr : ℕ → Option ℤ)
    (M : Matrix (Fin n) (Fin n) α) : Prop :=
  ∃ ptr : ℕ → ℕ, (∀ c ≤ n, colptr c = some (ptr c : ℤ)) ∧ ptr 0 = 0 ∧ ptr n = a.length ∧
    rowind.length = a.length ∧ (∀ c < n, ptr c ≤ ptr (c + 1)) ∧
    (∀ r ∈ rowind, 0 ≤ r ∧ r < n) ∧
    (∀ c < n, ∀ i j, ptr c ≤ i → i < j → j < ptr (c + 1) → rowind.getD i 0 < rowind.getD j 0) ∧
    ∀ r c : Fin n, M r c = ∑ l ∈ Finset.Ico (ptr c) (ptr (c + 1)),
      if rowind.getD l 0 = (r : ℤ) then a.getD l 0 else 0

/-- the index of the neighbour, with reflection at both ends of `0 .. n-1`. -/
def mirror (n : ℕ) (k : ℤ) : ℤ := if k < 0 then -k else if n ≤ k then 2 * (n - 1) - k else k

/-- the second difference quotient with step `1/(n-1)`, values outside reflected (Neumann
condition). -/
def lap1 [Field α] (n : ℕ) : Matrix (Fin n) (Fin n) α := fun i j =>
  (n - 1 : α) ^ 2 * ((if (j : ℤ) = mirror n (i - 1) then 1 else 0)
    + (if (j : ℤ) = mirror n (i + 1) then 1 else 0) - (if j = i then 2 else 0))

end Odes.Spec
