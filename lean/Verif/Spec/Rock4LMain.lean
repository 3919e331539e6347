import Mathlib.Data.Real.Sqrt
import Mathlib.Algebra.BigOperators.Group.Finset.Basic

/-!
# Rock4-L/test/main.cpp: what it should print
-/

namespace Odes.Spec.Rock4LMain

/-- the Euclidean norm of a difference. -/
noncomputable def norm2 (n : ℕ) (x y : ℕ → ℝ) : ℝ := √(∑ i ∈ Finset.range n, (x i - y i) ^ 2)

/-- weights of the scalar product for which the Neumann Laplacian is symmetric: 1/2 at both ends. -/
noncomputable def wt (m : ℕ) (i : Fin (m + 2)) : ℝ := if i.1 = 0 ∨ i.1 = m + 1 then 1 / 2 else 1

/-- number of steps and number of stages printed in the 30 passes. -/
def printed : List (ℕ × ℤ) :=
  [(3, 152), (4, 142), (4, 124), (5, 109), (7, 96), (8, 90), (10, 80), (12, 71),
   (15, 63), (19, 57), (24, 51), (30, 45), (37, 40), (46, 36), (57, 32), (72, 30),
   (89, 26), (112, 23), (139, 21), (174, 19), (217, 17), (272, 15), (339, 14), (424, 12),
   (530, 11), (662, 10), (828, 9), (1034, 8), (1293, 8), (1616, 7)]

/-- bound for the growth of the norm: 1 except in the first pass and in the eighth. -/
noncomputable def growth (l : ℕ) : ℝ := if l = 0 then 1.0201 else if l = 7 then 1.15 else 1

end Odes.Spec.Rock4LMain
