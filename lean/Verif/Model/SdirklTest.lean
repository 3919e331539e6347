import Verif.Model.Sdirkl
import Mathlib.Analysis.SpecialFunctions.Trigonometric.Arctan
import Mathlib.Analysis.SpecialFunctions.Exp

/-!
# SDIRKL/test/main.cpp

Model of the class `exact`, of `normdiff` and of the loop over the time steps.  Real arithmetic;
`cos`, `exp`, `atan` are the mathematical functions.  Not modelled: the output file.
-/

namespace Odes.SdirklTest

open Sdirkl

/-- `l`, main.cpp 16. -/
def l : ℕ := 25

/-- `pi`, main.cpp 22. -/
noncomputable def pi : ℝ := 4 * Real.arctan 1

/-- `h`, main.cpp 22. -/
noncomputable def h (n : ℕ) : ℝ := 1 / ((n : ℝ) - 1)

/-- `cinit`, main.cpp 26-32. -/
noncomputable def cinit (n : ℕ) : Fin n → ℝ := fun i => Real.cos (pi * l / ((n : ℝ) - 1) * i)

/-- `eigenvalue`, main.cpp 46. -/
noncomputable def eigenvalue (n : ℕ) : ℝ := -2 * (1 - Real.cos (pi * l / ((n : ℝ) - 1))) / (h n * h n)

/-- `exactsolAtt`, main.cpp 37-45. -/
noncomputable def exactsolAtt (n : ℕ) (t beta : ℝ) : Fin n → ℝ :=
  let elambda := Real.exp (eigenvalue n * t)
  let lambda := eigenvalue n
  let c := elambda * (1 + beta / lambda) - beta / lambda
  fun i => cinit n i * c

/-- `normdiff`, main.cpp 48-54. -/
noncomputable def normdiff {n : ℕ} (x y : Fin n → ℝ) : ℝ :=
  (List.finRange n).foldl (fun ret i => ret + |x i - y i|) 0

/-- the inner loop of `main`, lines 94-95. -/
noncomputable def loop {n : ℕ} (o : Obj ℝ n) (x force : ℕ) : ℕ → St ℝ n → Option (St ℝ n)
  | 0, s => some s
  | k + 1, s => (step2 o s x force).bind (loop o x force k)

/-- one turn of the loop of `main`, lines 87-97: the number written with the step `dt`.  `np` is
`pow(2,l)`.  The object is built with `dt` and `true`; `app` is its operator's `apply` after
`init(n,dt*diag)`.  `s` gives the contents of memory: the new arrays of the object are not
initialised. -/
noncomputable def turn {n : ℕ} (rk : Meth ℝ) (app : (Fin n → ℝ) → Fin n → ℝ) (Tinteg beta : ℝ)
    (np : ℕ) (x force : ℕ) (s : St ℝ n) : Option ℝ :=
  let sol := exactsolAtt n Tinteg beta
  let hp := upd (upd s.hp x (cinit n)) force (fun i => cinit n i * beta)
  let dt := Tinteg / np
  (loop ⟨rk, dt, true, app⟩ x force np { s with hp := hp }).map fun s' => normdiff (s'.hp x) sol

end Odes.SdirklTest
