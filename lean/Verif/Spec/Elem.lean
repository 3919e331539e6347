import Mathlib.Algebra.MvPolynomial.PDeriv
import Mathlib.Analysis.Normed.Group.Constructions
import Mathlib.Analysis.Normed.Ring.Lemmas
import Mathlib.Analysis.Real.Sqrt

/-!
# Elementary differentials of a polynomial field, up to order four

The Taylor expansion of a solution of `y' = f(y)` is a combination of the vectors `f`, `f'f`,
`f''(f,f)`, `f'f'f`, `f'''(f,f,f)`, `f''(f,f'f)`, `f'f''(f,f)`, `f'f'f'f`; they measure what a small
error in the coefficients of a method can do.
-/

namespace Odes.Spec

noncomputable section

open MvPolynomial

variable {n : ℕ}

/-- the first derivative of `p` applied to `u`. -/
def der1 (p : MvPolynomial (Fin n) ℝ) (u : Fin n → MvPolynomial (Fin n) ℝ) : MvPolynomial (Fin n) ℝ :=
  ∑ j, pderiv j p * u j

/-- the second derivative of `p` applied to `u`, `v`. -/
def der2 (p : MvPolynomial (Fin n) ℝ) (u v : Fin n → MvPolynomial (Fin n) ℝ) : MvPolynomial (Fin n) ℝ :=
  ∑ k, der1 (pderiv k p) u * v k

/-- the third derivative of `p` applied to `u`, `v`, `w`. -/
def der3 (p : MvPolynomial (Fin n) ℝ) (u v w : Fin n → MvPolynomial (Fin n) ℝ) :
    MvPolynomial (Fin n) ℝ := ∑ k, der2 (pderiv k p) u v * w k

/-- the eight elementary differentials. -/
def elem (P : Fin n → MvPolynomial (Fin n) ℝ) : Fin 8 → Fin n → MvPolynomial (Fin n) ℝ :=
  let f2 := fun i => der1 (P i) P
  let f3 := fun i => der2 (P i) P P
  let f4 := fun i => der1 (P i) f2
  ![P, f2, f3, f4, fun i => der3 (P i) P P P, fun i => der2 (P i) P f2, fun i => der1 (P i) f3,
    fun i => der1 (P i) f4]

/-- along `y` all of them are at most `D`. -/
def ElemLe (P : Fin n → MvPolynomial (Fin n) ℝ) (y : ℝ → Fin n → ℝ) (t0 te D : ℝ) : Prop :=
  ∀ t ∈ Set.Icc t0 te, ∀ k i, |aeval (y t) (elem P k i)| ≤ D

end

end Odes.Spec
