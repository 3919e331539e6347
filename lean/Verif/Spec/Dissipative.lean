import Mathlib.LinearAlgebra.SesquilinearForm.Basic
import Mathlib.LinearAlgebra.Matrix.ToLin
import Mathlib.Analysis.SpecialFunctions.Sqrt

/-!
# Dissipative linear systems (specification)

`y' = A (y - ye)`: if `A` is dissipative for an inner product `B`, i.e. `B(A x, x) <= 0`, then the exact
solutions satisfy `d/dt B(y - ye, y - ye) <= 0`.
-/

namespace Odes.Spec

variable {n : ℕ}

/-- `B` is an inner product and `A` is dissipative for it. -/
structure Dissipative (B : LinearMap.BilinForm ℝ (Fin n → ℝ)) (A : Matrix (Fin n) (Fin n) ℝ) : Prop where
  symm : ∀ x y, B x y = B y x
  pos : ∀ x, x ≠ 0 → 0 < B x x
  diss : ∀ x, B (A.mulVec x) x ≤ 0

/-- the length of `x`. -/
noncomputable def len (B : LinearMap.BilinForm ℝ (Fin n → ℝ)) (x : Fin n → ℝ) : ℝ := Real.sqrt (B x x)

/-- every component of the system decays or rotates with a rate of at least `m`. -/
def Stiff (B : LinearMap.BilinForm ℝ (Fin n → ℝ)) (A : Matrix (Fin n) (Fin n) ℝ) (m : ℝ) : Prop :=
  ∀ x, m * len B x ≤ len B (A.mulVec x)

end Odes.Spec
