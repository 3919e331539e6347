import Mathlib.Algebra.BigOperators.Fin
import Mathlib.Data.Real.Basic

/-!
# Specification: the Gauss methods

Nothing here refers to the program.
-/

namespace Odes.Spec

/-- nodes, matrix and weights of the Gauss method with `s` stages: collocation at distinct nodes, quadrature exact for the
polynomials of degree less than `2s`.  The nodes are the roots of the Legendre polynomial, in some order; the nodes fix the
matrix and the weights. -/
structure GaussMethod {s : ℕ} (c : Fin s → ℝ) (A : Fin s → Fin s → ℝ) (b : Fin s → ℝ) : Prop where
  inj : Function.Injective c
  colloc : ∀ i, ∀ k < s, ∑ j, A i j * c j ^ k = c i ^ (k + 1) / (k + 1)
  quad : ∀ k < 2 * s, ∑ j, b j * c j ^ k = 1 / (k + 1)

end Odes.Spec
