import Mathlib.Analysis.Calculus.Deriv.Basic
import Mathlib.Analysis.Normed.Module.Basic
import Mathlib.Data.Nat.Factorial.Basic

/-!
# Specification: error of Runge-Kutta methods on smooth solutions

Nothing here refers to the program.
-/

namespace Odes.Spec

open Finset

variable {E : Type*} [NormedAddCommGroup E] [NormedSpace ℝ E]

/-- `y 0` is `m` times differentiable on `[a,b]`, its derivatives are `y 1`, ..., `y m` and their norms
are at most `M 0`, ..., `M m`. -/
structure Smooth (y : ℕ → ℝ → E) (a b : ℝ) (m : ℕ) (M : ℕ → ℝ) : Prop where
  deriv : ∀ j, j < m → ∀ t, a ≤ t → t ≤ b → HasDerivAt (y j) (y (j + 1) t) t
  bound : ∀ j, j ≤ m → ∀ t, a ≤ t → t ≤ b → ‖y j t‖ ≤ M j

/-- `y 0` is a solution of `y' = f(y)` on `[a,b]`; at distance at most `ρ` of the solution the function
`f` differs from its value on the solution by at most `L` times the distance. -/
structure Tube (f : E → E) (y : ℕ → ℝ → E) (a b ρ L : ℝ) : Prop where
  ode : ∀ t, a ≤ t → t ≤ b → y 1 t = f (y 0 t)
  lip : ∀ t, a ≤ t → t ≤ b → ∀ x, ‖x - y 0 t‖ ≤ ρ → ‖f x - f (y 0 t)‖ ≤ L * ‖x - y 0 t‖

/-- bound of the truncation error of a quadrature formula with step `h`, exact up to `δ` for the
polynomials of degree less than `q`; `S` is the sum of the absolute values of the weights. -/
noncomputable def trunc (δ S : ℝ) (q : ℕ) (M : ℕ → ℝ) (h : ℝ) : ℝ :=
  δ * ∑ k ∈ range q, h ^ (k + 1) / k.factorial * M (k + 1) + (1 + S) * M (q + 1) * h ^ (q + 1) / q.factorial

end Odes.Spec
