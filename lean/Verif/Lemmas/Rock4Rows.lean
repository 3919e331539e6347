import Mathlib.Data.Int.Notation
import Mathlib.Data.Nat.Notation

/-!
# Rows of the tables
-/

namespace Odes.Rock4Check

/-- entry `j` (one-based) of the formula `k` (zero-based) in a table given by columns. -/
def colRow (t : List (List ℤ)) (k j : ℕ) : ℤ := (t.getD (j - 1) []).getD k 0

/-- entry `j` (one-based) of the formula `k` (zero-based) in a table given by rows. -/
def rowRow (t : List (List ℤ)) (k j : ℕ) : ℤ := (t.getD k []).getD (j - 1) 0

/-- the degrees (`MS` in both files coeffs-rock4). -/
def degs : List ℕ :=
  [1, 2, 3, 4, 5, 6, 7, 8, 9, 10, 11, 12, 13, 14, 15, 16, 17, 18, 19, 20,
   22, 24, 26, 28, 30, 32, 34, 36, 38, 41, 44, 47, 50, 53, 56, 59, 63, 67, 71,
   76, 81, 86, 92, 98, 105, 112, 120, 129, 138, 148]

end Odes.Rock4Check
