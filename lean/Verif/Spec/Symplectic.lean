import Mathlib.Data.Real.Basic
import Mathlib.Algebra.BigOperators.Fin
import Mathlib.Algebra.Module.LinearMap.Defs
import Mathlib.Algebra.Module.Pi

/-!
# Specification: implicit Runge-Kutta steps solved by fixed point iterations

Nothing here refers to the program: sums are written from left to right because the scalar type is any
type with an addition (floating point numbers for instance).
-/

namespace Odes.Spec

section Iteration

variable {α : Type} [Add α] [Sub α] [Mul α] [Zero α] {n : ℕ}

/-- `init + g 0 + g 1 + ... + g (k-1)`, from left to right. -/
def sumL (g : ℕ → α) (init : α) : ℕ → α
  | 0 => init
  | k + 1 => sumL g init k + g k

/-- new value of stage `i` from the slopes `K`. -/
def stageVal (A : ℕ → ℕ → α) (s : ℕ) (u : Fin n → α) (K : ℕ → Fin n → α) (i : ℕ) : Fin n → α :=
  fun l => sumL (fun j => A i j * K j l) (u l) s

/-- one pass of the sum of squares on the components. -/
def sqSum (x y : Fin n → α) (t : α) : α :=
  (List.finRange n).foldl (fun t l => t + (x l - y l) * (x l - y l)) t

/-- `Test` after an iteration: `Z` new and `Y` old stages. -/
def resid (Z Y : ℕ → Fin n → α) : ℕ → α
  | 0 => 0
  | k + 1 => sqSum (Z k) (Y k) (resid Z Y k)

/-- one sweep of the fixed point iteration: all stages from the slopes at the old stages. -/
def sweep (A : ℕ → ℕ → α) (s : ℕ) (f : (Fin n → α) → Fin n → α) (u : Fin n → α)
    (Y : ℕ → Fin n → α) : ℕ → Fin n → α := stageVal A s u fun j => f (Y j)

/-- the iterates of the fixed point iteration. -/
def iter (A : ℕ → ℕ → α) (s : ℕ) (f : (Fin n → α) → Fin n → α) (u : Fin n → α)
    (Y : ℕ → Fin n → α) : ℕ → ℕ → Fin n → α
  | 0 => Y
  | m + 1 => sweep A s f u (iter A s f u Y m)

/-- sum of the squares of the differences of iterates `m+1` and `m`. -/
def rho (A : ℕ → ℕ → α) (s : ℕ) (f : (Fin n → α) → Fin n → α) (u : Fin n → α)
    (Y : ℕ → Fin n → α) (m : ℕ) : α :=
  resid (iter A s f u Y (m + 1)) (iter A s f u Y m) s

/-- value compared with `rho m`: the preceding one, `t0` for the first iteration. -/
def prev (A : ℕ → ℕ → α) (s : ℕ) (f : (Fin n → α) → Fin n → α) (u : Fin n → α)
    (Y : ℕ → Fin n → α) (t0 : α) : ℕ → α
  | 0 => t0
  | m + 1 => rho A s f u Y m

end Iteration

/-- `Z i = u + h Σ_j a_ij f(Y_j)` and `u' = u + h Σ_i b_i f(Y_i)`: a Runge-Kutta step when `Z = Y`. -/
structure RkSweep {s n : ℕ} (A : Fin s → Fin s → ℝ) (b : Fin s → ℝ) (h : ℝ)
    (f : (Fin n → ℝ) → Fin n → ℝ) (u : Fin n → ℝ) (Y Z : Fin s → Fin n → ℝ) (u' : Fin n → ℝ) :
    Prop where
  stage : ∀ i, Z i = u + h • ∑ j, A i j • f (Y j)
  result : u' = u + h • ∑ i, b i • f (Y i)

/-- the quadratic form `y ↦ B y y` is constant along the solutions of `y'=f(y)` (see `Quad.const`). -/
structure Quad {n : ℕ} (B : (Fin n → ℝ) →ₗ[ℝ] (Fin n → ℝ) →ₗ[ℝ] ℝ) (f : (Fin n → ℝ) → Fin n → ℝ) :
    Prop where
  symm : ∀ x y, B x y = B y x
  zero : ∀ y, B y (f y) = 0

/-- defect of the condition for symplectic methods. -/
def defect {s : ℕ} (A : Fin s → Fin s → ℝ) (b : Fin s → ℝ) (i j : Fin s) : ℝ :=
  b i * A i j + b j * A j i - b i * b j

end Odes.Spec
