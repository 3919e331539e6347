import Mathlib.Data.Matrix.Mul
import Mathlib.Data.Matrix.Basic
import Mathlib.Data.Real.Sqrt

/-! Runs of a Radau IIA code with simplified Newton iteration (specification).

A step of size `h` from `(x,y)` has the unknowns `Z` (three lines: the stage increments).  With
`Z = T W` and `T⁻¹ A⁻¹ T = Lam` the simplified Newton iteration with the matrix `J` is
`(1/h Lam ⊗ I - I ⊗ J) D = (T⁻¹ ⊗ I) F(Z) - 1/h Lam W`, `W := W + D` (Hairer, Wanner: Solving
ordinary differential equations II, IV.8). -/

namespace Odes.Spec

variable {n : ℕ}

/-- constants of the iteration. -/
structure NewtonMethod where
  T : Matrix (Fin 3) (Fin 3) ℝ
  TI : Matrix (Fin 3) (Fin 3) ℝ
  Lam : Matrix (Fin 3) (Fin 3) ℝ
  c : Fin 3 → ℝ

/-- the right hand side at the stages. -/
def stageValues (M : NewtonMethod) (F : ℝ → (Fin n → ℝ) → Fin n → ℝ) (x h : ℝ) (y : Fin n → ℝ)
    (Z : Matrix (Fin 3) (Fin n) ℝ) : Matrix (Fin 3) (Fin n) ℝ :=
  Matrix.of fun i => F (x + M.c i * h) (fun k => y k + Z i k)

/-- `Z`, `W` are the iterates number `k` of the simplified Newton iteration started with `Z0`. -/
inductive Iterate (M : NewtonMethod) (F : ℝ → (Fin n → ℝ) → Fin n → ℝ)
    (J : Matrix (Fin n) (Fin n) ℝ) (x h : ℝ) (y : Fin n → ℝ) (Z0 : Matrix (Fin 3) (Fin n) ℝ) :
    ℕ → Matrix (Fin 3) (Fin n) ℝ → Matrix (Fin 3) (Fin n) ℝ → Prop
  | zero : Iterate M F J x h y Z0 0 Z0 (M.TI * Z0)
  | succ {k : ℕ} {Z W D : Matrix (Fin 3) (Fin n) ℝ} : Iterate M F J x h y Z0 k Z W →
      (1 / h) • (M.Lam * D) - D * J.transpose
        = M.TI * stageValues M F x h y Z - (1 / h) • (M.Lam * W) →
      Iterate M F J x h y Z0 (k + 1) (M.T * (W + D)) (W + D)

/-- `e` is the error estimate for the increments `Z`: `(w/h I - J) e = f + (d0 Z0 + d1 Z1 + d2 Z2)/h`. -/
def Estimate (w : ℝ) (d : Fin 3 → ℝ) (J : Matrix (Fin n) (Fin n) ℝ) (h : ℝ) (f : Fin n → ℝ)
    (Z : Matrix (Fin 3) (Fin n) ℝ) (e : Fin n → ℝ) : Prop :=
  ((w / h) • (1 : Matrix (Fin n) (Fin n) ℝ) - J).mulVec e
    = fun i => f i + (d 0 * Z 0 i + d 1 * Z 1 i + d 2 * Z 2 i) / h

/-- root mean square of `e`, relative to `a + r |y|`. -/
noncomputable def scaled (a r y e : Fin n → ℝ) : ℝ :=
  Real.sqrt ((∑ i, (e i / (a i + r i * |y i|)) ^ 2) / n)

/-- the error test: the estimate is below 1, or the estimate made with `f(x,y+e)` in place of
`f(x,y)` is. -/
def Passes (w : ℝ) (d : Fin 3 → ℝ) (a r : Fin n → ℝ) (F : ℝ → (Fin n → ℝ) → Fin n → ℝ)
    (J : Matrix (Fin n) (Fin n) ℝ) (x h : ℝ) (y : Fin n → ℝ) (Z : Matrix (Fin 3) (Fin n) ℝ) : Prop :=
  ∃ e, Estimate w d J h (F x y) Z e ∧ (scaled a r y e < 1 ∨
    ∃ e', Estimate w d J h (F x fun i => e i + y i) Z e' ∧ scaled a r y e' < 1)

/-- the integration has arrived at `(x,y)` from `(x0,y0)`; `prev` are the stage increments of the last
step and the step size used for extrapolating them (`none` before the first step).  Every step makes
between 1 and `N` iterations, with the matrix `jac x' y'` at a point the integration went through;
starting values are 0 for the first step, then `ext h hold Z`.  The step is accepted by the test `ok`,
with the matrix at a point the integration went through. -/
inductive RadauPath (M : NewtonMethod) (F : ℝ → (Fin n → ℝ) → Fin n → ℝ)
    (jac : ℝ → (Fin n → ℝ) → Matrix (Fin n) (Fin n) ℝ) (N : ℕ)
    (ext : ℝ → ℝ → Matrix (Fin 3) (Fin n) ℝ → Matrix (Fin 3) (Fin n) ℝ)
    (ok : Matrix (Fin n) (Fin n) ℝ → ℝ → ℝ → (Fin n → ℝ) → Matrix (Fin 3) (Fin n) ℝ → Prop)
    (x0 : ℝ) (y0 : Fin n → ℝ) : ℝ → (Fin n → ℝ) → Option (ℝ × Matrix (Fin 3) (Fin n) ℝ) → Prop
  | refl : RadauPath M F jac N ext ok x0 y0 x0 y0 none
  | step {x x' x'' h hold : ℝ} {y y' y'' : Fin n → ℝ} {p p' p'' : Option (ℝ × Matrix (Fin 3) (Fin n) ℝ)}
      {Z W : Matrix (Fin 3) (Fin n) ℝ} {k : ℕ} : RadauPath M F jac N ext ok x0 y0 x y p →
      RadauPath M F jac N ext ok x0 y0 x' y' p' → x' ≤ x → 0 < h → (hold = h ∨ hold = h / 2) →
      1 ≤ k → k ≤ N →
      Iterate M F (jac x' y') x h y (p.elim 0 fun q => ext h q.1 q.2) k Z W →
      RadauPath M F jac N ext ok x0 y0 x'' y'' p'' → x'' ≤ x → ok (jac x'' y'') x hold y Z →
      RadauPath M F jac N ext ok x0 y0 (x + h) (fun i => y i + Z 2 i) (some (hold, Z))

end Odes.Spec
