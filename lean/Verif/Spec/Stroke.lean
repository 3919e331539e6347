import Mathlib.Analysis.Calculus.Deriv.Basic

/-!
# Specification: balance laws of a tissue with two kinds of cells

Concentrations of 5 ions in the cells of the first kind (`x 0 .. x 4`), of the second kind (`x 5 .. x 9`)
and outside (`x 10 .. x 14`), potentials (`x 15`, `x 16`), volume fractions of the cells (`x 17`,
`x 18`).  The order of the ions is K, Na, Ca, Cl, glutamate.
-/

namespace Spec.Stroke

/-- amount of the ion `i` in a unit of volume. -/
def amount (i : Fin 5) (x : Fin 21 → ℝ) : ℝ :=
  x 17 * x ⟨i, by omega⟩ + x 18 * x ⟨5 + i, by omega⟩ + (1 - x 17 - x 18) * x ⟨10 + i, by omega⟩

/-- charge in the cells whose concentrations start at `b` and have the fraction `v`. -/
def charge (v K Na Ca Cl glu : ℝ) : ℝ := v * (K + Na + 2 * Ca - Cl - glu)

/-- `y` solves `y' = f(t,y)` on the interval `I`; `f` need not be defined everywhere. -/
def Solves {n : ℕ} (f : ℝ → (Fin n → ℝ) → Option (Fin n → ℝ)) (I : Set ℝ) (y : ℝ → Fin n → ℝ) : Prop :=
  ∀ t ∈ I, ∃ z, f t (y t) = some z ∧ ∀ i, HasDerivAt (fun s => y s i) (z i) t

/-- `G` is constant along solutions. -/
def Invariant {n : ℕ} (f : ℝ → (Fin n → ℝ) → Option (Fin n → ℝ)) (G : (Fin n → ℝ) → ℝ) : Prop :=
  ∀ a b y, Solves f (Set.Icc a b) y → ∀ t ∈ Set.Icc a b, G (y t) = G (y a)

end Spec.Stroke
