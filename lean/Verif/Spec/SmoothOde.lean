import Mathlib.Analysis.Calculus.ContDiff.Basic
import Mathlib.Analysis.Calculus.Deriv.Basic

/-!
# Specification: smooth differential equations

Nothing here refers to the program.
-/

namespace Odes

variable {n : ℕ}

/-- `y` is a solution of `y' = F(t, y)` on the interval `[t0, te]`. -/
def SolT (F : ℝ → (Fin n → ℝ) → Fin n → ℝ) (y : ℝ → Fin n → ℝ) (t0 te : ℝ) : Prop :=
  ∀ t ∈ Set.Icc t0 te, HasDerivWithinAt y (F t (y t)) (Set.Icc t0 te) t

/-- `F` is `N` times continuously differentiable near the points at distance at most `ρ` of the graph of `y`. -/
def SmoothT (F : ℝ → (Fin n → ℝ) → Fin n → ℝ) (y : ℝ → Fin n → ℝ) (t0 te ρ : ℝ) (N : ℕ) : Prop :=
  ∀ t ∈ Set.Icc t0 te, ∀ z x, |z - t| ≤ ρ → ‖x - y t‖ ≤ ρ → ContDiffAt ℝ N (fun q : ℝ × (Fin n → ℝ) => F q.1 q.2) (z, x)

/-- at times of the interval and at points at distance at most `ρ` of the graph of `y`, `F` is Lipschitz with the constant
`Λ`. -/
def LipT (F : ℝ → (Fin n → ℝ) → Fin n → ℝ) (y : ℝ → Fin n → ℝ) (t0 te ρ Λ : ℝ) : Prop :=
  ∀ t ∈ Set.Icc t0 te, ∀ z ∈ Set.Icc t0 te, |z - t| ≤ ρ → ∀ u v, ‖u - y t‖ ≤ ρ → ‖v - y t‖ ≤ ρ →
    ‖F z u - F z v‖ ≤ Λ * ‖u - v‖

end Odes
