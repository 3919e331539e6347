import Mathlib.Algebra.MvPolynomial.Eval
import Mathlib.Analysis.Calculus.Deriv.Basic

/-!
# Polynomial differential equations
-/

namespace Odes

variable {n : ℕ}

/-- the polynomial field `P` over any commutative real algebra. -/
noncomputable def polyField (P : Fin n → MvPolynomial (Fin n) ℝ) {J : Type} [CommRing J] [Algebra ℝ J]
    (v : Fin n → J) : Fin n → J := fun i => MvPolynomial.aeval v (P i)

/-- `y` is a solution of `y' = F(y)` on the interval `[t0, te]`. -/
def SolOn (F : (Fin n → ℝ) → Fin n → ℝ) (y : ℝ → Fin n → ℝ) (t0 te : ℝ) : Prop :=
  ∀ t ∈ Set.Icc t0 te, HasDerivWithinAt y (F (y t)) (Set.Icc t0 te) t

end Odes
