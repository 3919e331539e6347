import Mathlib.Analysis.SpecialFunctions.Sqrt
import Mathlib.Analysis.Calculus.Deriv.Inv
import Mathlib.Algebra.BigOperators.Fin
import Mathlib.Algebra.Order.BigOperators.Group.Finset

/-!
# Gravitational problem of `N` bodies

Independent of the code: Newton's equations, their energy, linear and angular momentum.
-/

namespace Odes.Spec.NBody

variable {N : ℕ}

/-- square of the distance -/
def dist2 (x y : Fin 3 → ℝ) : ℝ := ∑ s, (x s - y s) ^ 2

/-- the force on body `i` with masses `m`, positions `q`:
`- Σ_j G m_i m_j (q_i - q_j) / |q_i - q_j|³` (the term `j=i` is zero). -/
noncomputable def force (G : ℝ) (m : Fin N → ℝ) (q : Fin N → Fin 3 → ℝ) (i : Fin N) (s : Fin 3) : ℝ :=
  -∑ j, G * m i * m j / √(dist2 (q i) (q j)) ^ 3 * (q i s - q j s)

/-- kinetic plus potential energy -/
noncomputable def energy (G : ℝ) (m : Fin N → ℝ) (q p : Fin N → Fin 3 → ℝ) : ℝ :=
  ∑ i, (∑ s, p i s ^ 2) / (2 * m i) -
    G * ∑ i, ∑ j, if j < i then m i * m j / √(dist2 (q i) (q j)) else 0

/-- component `(a,b)` of the angular momentum -/
def angular (a b : Fin 3) (q p : Fin N → Fin 3 → ℝ) : ℝ := ∑ i, (q i a * p i b - q i b * p i a)

/-- positions and momenta stored in one vector: first the positions of all bodies, then the momenta -/
def posOf (y : Fin (6 * N) → ℝ) (i : Fin N) (s : Fin 3) : ℝ :=
  y ⟨3 * i + s, by have := i.2; have := s.2; omega⟩

def momOf (y : Fin (6 * N) → ℝ) (i : Fin N) (s : Fin 3) : ℝ :=
  y ⟨3 * N + (3 * i + s), by have := i.2; have := s.2; omega⟩

/-- Newton's equations `y' = newton y`: velocities, then forces -/
noncomputable def newton (G : ℝ) (m : Fin N → ℝ) (y : Fin (6 * N) → ℝ) (k : Fin (6 * N)) : ℝ :=
  if h : (k : ℕ) < 3 * N then
    momOf y ⟨k / 3, by omega⟩ ⟨k % 3, by omega⟩ / m ⟨k / 3, by omega⟩
  else force G m (posOf y) ⟨(k - 3 * N) / 3, by have := k.2; omega⟩ ⟨(k - 3 * N) % 3, by omega⟩

/-- no collision -/
def Apart (q : Fin N → Fin 3 → ℝ) : Prop := ∀ i j, i ≠ j → q i ≠ q j

end Odes.Spec.NBody
