import Verif.Model.Rock4L
import Verif.Tables.Rock4
import Verif.Tables.Rock4L

/-!
# The shipped coefficient tables as arrays

The arrays of the two files coeffs-rock4 with the index computations of the two files
Rock4Coeffs.hpp.  A literal is the decimal number written in the source (its conversion to
`double`, with a relative error of at most 2^-53, is not modelled).
-/

namespace Odes

noncomputable section

/-- `a[i]`, for an array stored as a list of pieces. -/
def flatAt (t : List (List ℤ)) (i : ℕ) : ℤ := t.flatten.getD i 0

/-- value of a table entry. -/
def lit (z : ℤ) : ℝ := z / (10000000000000000000 : ℕ)

namespace Rock4

/-- Rock4-NG/include/coeffs-rock4 through Rock4-NG/include/Rock4Coeffs.hpp 14-22. -/
def realTab : Rock4L.Tab ℝ where
  recf i := lit (flatAt Tables.Rock4.recf (i - 1))
  fpa i j := lit (flatAt Tables.Rock4.fpa ((j - 1) * 50 + (i - 1)))
  fpb i j := lit (flatAt Tables.Rock4.fpb ((j - 1) * 50 + (i - 1)))

/-- `fpbe(i,j)`, Rock4Coeffs.hpp 23-26. -/
def realFpbe (i j : ℕ) : ℝ := lit (flatAt Tables.Rock4.fpbe ((j - 1) * 50 + (i - 1)))

/-- the tables of the adaptive solver. -/
def shipped : Tables where
  recf i := X.fin (realTab.recf i)
  fpa i j := X.fin (realTab.fpa i j)
  fpb i j := X.fin (realTab.fpb i j)
  fpbe i j := X.fin (realFpbe i j)

end Rock4

namespace Rock4L

/-- Rock4-L/include/coeffs-rock4 through Rock4-L/include/Rock4Coeffs.hpp 14-22. -/
def shipped : Tab ℝ where
  recf i := lit (flatAt Tables.Rock4L.recf (i - 1))
  fpa i j := lit (flatAt Tables.Rock4L.fpa ((i - 1) * 6 + (j - 1)))
  fpb i j := lit (flatAt Tables.Rock4L.fpb ((i - 1) * 4 + (j - 1)))

/-- `fpbe(i,j)`, Rock4-L/include/Rock4Coeffs.hpp 23-26 (not used by the linear solver). -/
def shippedFpbe (i j : ℕ) : ℝ := lit (flatAt Tables.Rock4L.fpbe ((i - 1) * 5 + (j - 1)))

end Rock4L

end

end Odes
