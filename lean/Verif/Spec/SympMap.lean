import Verif.Spec.Symplectic
import Mathlib.Analysis.Calculus.FDeriv.Basic
import Mathlib.Analysis.Normed.Operator.Bilinear

/-!
# Specification: symplectic and reversible maps

Nothing here refers to the program.
-/

namespace Odes.Spec

variable {E : Type} [NormedAddCommGroup E] [NormedSpace ℝ E] {s : ℕ}

/-- stages after `m` sweeps of the fixed point iteration started with all stages equal to `u`. -/
def picard (A : Fin s → Fin s → ℝ) (h : ℝ) (f : E → E) (u : E) : ℕ → Fin s → E
  | 0 => fun _ => u
  | m + 1 => fun i => u + h • ∑ j, A i j • f (picard A h f u m j)

/-- result of a Runge-Kutta step with the slopes at the stages after `m` sweeps, as a function of the
initial value. -/
def rkMap (A : Fin s → Fin s → ℝ) (b : Fin s → ℝ) (h : ℝ) (f : E → E) (m : ℕ) (u : E) : E :=
  u + h • ∑ i, b i • f (picard A h f u m i)

/-- `y'=f(y)` is the Hamiltonian system of `H` for the form `w`: `w (f y) η = dH(y) η`. -/
structure Hamiltonian (w : E →L[ℝ] E →L[ℝ] ℝ) (H : E → ℝ) (f : E → E) : Prop where
  skew : ∀ x y, w x y = - w y x
  grad : ∀ y, HasFDerivAt H (w (f y)) y


/-- defect of the condition for symmetric methods: `a_{σi,σj} + a_{ij} = b_j`, `b_{σj} = b_j` where `σ`
exchanges the nodes `c` and `1-c`. -/
def symDefect (σ : Fin s → Fin s) (A : Fin s → Fin s → ℝ) (b : Fin s → ℝ) (i j : Fin s) : ℝ :=
  A (σ i) (σ j) + A i j - b j

end Odes.Spec
