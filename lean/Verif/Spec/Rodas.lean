import Mathlib.Data.Matrix.Mul
import Mathlib.Algebra.BigOperators.Fin
import Mathlib.Tactic.Ring
import Mathlib.Analysis.SpecialFunctions.Sqrt
import Mathlib.Algebra.Order.Ring.Rat
import Mathlib.Algebra.Order.Group.Abs

/-!
# Rosenbrock methods (specification)

Hairer & Wanner, *Solving ODEs II*, IV.7, formula (7.25): the implementation form (with the
transformed stages `u_i`), for a system `y' = F(x,y)`.
-/

namespace Odes.Spec

variable {K : Type} [Field K] {n : ℕ}

/-- coefficients of an `s`-stage Rosenbrock method in the implementation form. -/
structure Rosenbrock (K : Type) (s : ℕ) where
  gamma : K
  alpha : Fin s → K
  d : Fin s → K
  a : Fin s → Fin s → K
  c : Fin s → Fin s → K
  m : Fin s → K

/-- `k` are the stages and `ynew` the result of one step of size `h` from `(x,y)` with Jacobian `J`
and time derivative `ft`:
`(1/(h γ) I - J) k_i = F(x+α_i h, y + Σ_{j<i} a_ij k_j) + Σ_{j<i} (c_ij/h) k_j + h d_i F_x`,
`ynew = y + Σ m_i k_i`. -/
def Rosenbrock.Step {s : ℕ} (R : Rosenbrock K s) (F : K → (Fin n → K) → Fin n → K)
    (J : Matrix (Fin n) (Fin n) K) (ft : Fin n → K) (x h : K) (y : Fin n → K)
    (k : Fin s → Fin n → K) (ynew : Fin n → K) : Prop :=
  (∀ i, (((1 / (h * R.gamma)) • (1 : Matrix (Fin n) (Fin n) K)) - J).mulVec (k i)
    = F (x + R.alpha i * h) (y + ∑ j, if j < i then R.a i j • k j else 0)
      + (∑ j, if j < i then (R.c i j / h) • k j else 0) + (h * R.d i) • ft)
  ∧ ynew = y + ∑ i, R.m i • k i

/-- `(x,y)` is obtained from `(x0,y0)` by finitely many steps of positive sizes, each of them
allowed by `Ok x h y ynew`. -/
inductive StepPath {n : ℕ} (Ok : ℝ → ℝ → (Fin n → ℝ) → (Fin n → ℝ) → Prop) (x0 : ℝ)
    (y0 : Fin n → ℝ) : ℝ → (Fin n → ℝ) → Prop
  | refl : StepPath Ok x0 y0 x0 y0
  | step {x h : ℝ} {y ynew : Fin n → ℝ} : StepPath Ok x0 y0 x y → 0 < h → Ok x h y ynew →
      StepPath Ok x0 y0 (x + h) ynew

/-- the same, with the list of the step sizes, last first. -/
inductive StepList {n : ℕ} (Ok : ℝ → ℝ → (Fin n → ℝ) → (Fin n → ℝ) → Prop) (x0 : ℝ)
    (y0 : Fin n → ℝ) : List ℝ → ℝ → (Fin n → ℝ) → Prop
  | nil : StepList Ok x0 y0 [] x0 y0
  | cons {l : List ℝ} {x h : ℝ} {y ynew : Fin n → ℝ} : StepList Ok x0 y0 l x y → 0 < h →
      Ok x h y ynew → StepList Ok x0 y0 (h :: l) (x + h) ynew

theorem StepList.path {n : ℕ} {Ok : ℝ → ℝ → (Fin n → ℝ) → (Fin n → ℝ) → Prop} {x0 : ℝ}
    {y0 : Fin n → ℝ} {l : List ℝ} {x : ℝ} {y : Fin n → ℝ} (h : StepList Ok x0 y0 l x y) :
    StepPath Ok x0 y0 x y := by
  induction h with
  | nil => exact .refl
  | cons _ h0 hk ih => exact ih.step h0 hk

/-- the weighted root mean square norm of an error estimate. -/
noncomputable def wrms {n : ℕ} (atol rtol y ynew e : Fin n → ℝ) : ℝ :=
  Real.sqrt ((∑ i, (e i / (atol i + rtol i * max |y i| |ynew i|)) ^ 2) / n)

/-! ### Classical form and order conditions -/

/-- coefficients in the classical form, H&W IV.7 (7.4): `alpha` strictly lower triangular,
`gam` lower triangular. -/
structure Classic (K : Type) (s : ℕ) where
  alpha : Fin s → Fin s → K
  gam : Fin s → Fin s → K
  b : Fin s → K

/-- `β_ij = α_ij + γ_ij` -/
def Classic.beta {s : ℕ} (M : Classic K s) (i j : Fin s) : K := M.alpha i j + M.gam i j

/-- `k` are the stages and `ynew` the result of one step, H&W IV.7 (7.4'):
`k_i = h F(x + α_i h, y + Σ α_ij k_j) + h J Σ γ_ij k_j + γ_i h² F_x`, `ynew = y + Σ b_i k_i`;
`ai`, `gi` are the nodes `α_i`, `γ_i`. -/
def Classic.Step {s : ℕ} (M : Classic K s) (ai gi : Fin s → K) (F : K → (Fin n → K) → Fin n → K)
    (J : Matrix (Fin n) (Fin n) K) (ft : Fin n → K) (x h : K) (y : Fin n → K)
    (k : Fin s → Fin n → K) (ynew : Fin n → K) : Prop :=
  (∀ i, k i = h • F (x + ai i * h) (y + ∑ j, M.alpha i j • k j)
      + h • J.mulVec (∑ j, M.gam i j • k j) + (h ^ 2 * gi i) • ft)
  ∧ ynew = y + ∑ i, M.b i • k i

/-- the implementation form `R` and the classical form `M` have the coefficients of the same
method, H&W IV.7 (7.24): `Γ = (diag(1/γ) - C)⁻¹`, `(a_ij) = (α_ij) Γ⁻¹`, `m = b Γ⁻¹`. -/
structure Rosenbrock.SameAs {s : ℕ} (R : Rosenbrock K s) (M : Classic K s) : Prop where
  gam : ∀ i j, ∑ k, M.gam i k * ((if k = j then 1 / R.gamma else 0) - R.c k j)
    = if i = j then 1 else 0
  alpha : ∀ i j, M.alpha i j = ∑ k, R.a i k * M.gam k j
  b : ∀ j, M.b j = ∑ k, R.m k * M.gam k j

/-- `|a - b| < e` -/
def Near (e a b : ℚ) : Prop := |a - b| < e

instance (e a b : ℚ) : Decidable (Near e a b) := inferInstanceAs (Decidable (_ < _))

/-- the order conditions up to order 3, H&W IV.7 table 7.1, up to `e`. -/
def Classic.Order3 {s : ℕ} (M : Classic ℚ s) (b : Fin s → ℚ) (e : ℚ) : Prop :=
  Near e (∑ i, b i) 1 ∧
  Near e (∑ i, ∑ j, b i * M.beta i j) (1 / 2) ∧
  Near e (∑ i, b i * (∑ j, M.alpha i j) ^ 2) (1 / 3) ∧
  Near e (∑ i, b i * ∑ j, M.beta i j * ∑ k, M.beta j k) (1 / 6)

/-- the additional conditions for order 4, up to `e`. -/
def Classic.Order4 {s : ℕ} (M : Classic ℚ s) (b : Fin s → ℚ) (e : ℚ) : Prop :=
  M.Order3 b e ∧
  Near e (∑ i, b i * (∑ j, M.alpha i j) ^ 3) (1 / 4) ∧
  Near e (∑ i, b i * (∑ j, M.alpha i j) * ∑ j, M.alpha i j * ∑ k, M.beta j k) (1 / 8) ∧
  Near e (∑ i, b i * ∑ j, M.beta i j * (∑ k, M.alpha j k) ^ 2) (1 / 12) ∧
  Near e (∑ i, b i * ∑ j, M.beta i j * ∑ k, M.beta j k * ∑ l, M.beta k l) (1 / 24)

instance {s : ℕ} (M : Classic ℚ s) (b : Fin s → ℚ) (e : ℚ) : Decidable (M.Order3 b e) :=
  inferInstanceAs (Decidable (_ ∧ _))

instance {s : ℕ} (M : Classic ℚ s) (b : Fin s → ℚ) (e : ℚ) : Decidable (M.Order4 b e) :=
  inferInstanceAs (Decidable (_ ∧ _))

/-- the nodes of `R` are the row sums of the classical form, up to `e`. -/
def Classic.Nodes {s : ℕ} (M : Classic ℚ s) (R : Rosenbrock ℚ s) (e : ℚ) : Prop :=
  ∀ i, Near e (∑ j, M.alpha i j) (R.alpha i) ∧ Near e (∑ j, M.gam i j) (R.d i)

instance {s : ℕ} (M : Classic ℚ s) (R : Rosenbrock ℚ s) (e : ℚ) : Decidable (M.Nodes R e) :=
  inferInstanceAs (Decidable (∀ _, _))

end Odes.Spec
