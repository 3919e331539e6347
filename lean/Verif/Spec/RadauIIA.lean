import Mathlib.LinearAlgebra.Matrix.Charpoly.Basic
import Mathlib.LinearAlgebra.Matrix.NonsingularInverse
import Mathlib.LinearAlgebra.Matrix.Notation
import Mathlib.Algebra.Polynomial.Derivative
import Mathlib.Data.Real.Basic

/-! The three stage Radau IIA method, from its definition (Hairer, Wanner: Solving ordinary
differential equations II, IV.5): collocation at the zeros of `d²/dx² (x²(x-1)³)`. -/

namespace Odes.Spec

open Polynomial

/-- nodes of the three stage Radau IIA method: the zeros of the polynomial, in increasing order. -/
structure RadauNodes (c : Fin 3 → ℝ) : Prop where
  root : ∀ i, (derivative^[2] ((X : ℝ[X]) ^ 2 * (X - 1) ^ 3)).eval (c i) = 0
  lt : c 0 < c 1 ∧ c 1 < c 2

/-- `A` is the Runge-Kutta matrix of the collocation method with nodes `c`: it integrates the
polynomials of degree at most two exactly on the intervals `[0, c i]`. -/
def Collocation (c : Fin 3 → ℝ) (A : Matrix (Fin 3) (Fin 3) ℝ) : Prop :=
  ∀ i : Fin 3, ∀ k : Fin 3, ∑ j, A i j * c j ^ (k : ℕ) = c i ^ ((k : ℕ) + 1) / ((k : ℕ) + 1)

end Odes.Spec
