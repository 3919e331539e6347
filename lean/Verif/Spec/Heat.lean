import Mathlib.Analysis.Calculus.Deriv.Basic
import Mathlib.Analysis.Calculus.Deriv.Add
import Mathlib.Analysis.Calculus.Deriv.Mul

/-!
# One-dimensional diffusion with homogeneous Neumann conditions, partial derivatives

Written without reference to the model.
-/

namespace Spec.Heat

/-- neighbour `k` of a point of the grid `0, …, n-1` after reflection at the end points. -/
def mirror (n k : ℤ) : ℤ := if k < 0 then -k else if n - 1 < k then 2 * (n - 1) - k else k

/-- neighbour `k` after reflection at the ends of the end cells, half a step outside. -/
def cellMirror (n k : ℤ) : ℤ := if k < 0 then -1 - k else if n - 1 < k then 2 * n - 1 - k else k

/-- `D` times the second difference at point `i`, ghost values by the reflection `m`, plus a reaction. -/
def diffuse (m : ℤ → ℤ) (D : ℝ) (f : ℤ → ℝ → ℝ) (y : ℤ → ℝ) (i : ℤ) : ℝ :=
  D * (y (m (i - 1)) - 2 * y i + y (m (i + 1))) + f i (y i)

/-- `d` is the derivative of component `i` of `F` with respect to variable `j` at `y`. -/
def IsPartial {ι : Type} [DecidableEq ι] (F : (ι → ℝ) → ι → ℝ) (y : ι → ℝ) (i j : ι) (d : ℝ) : Prop :=
  HasDerivAt (fun s => F (Function.update y j s) i) d (y j)

theorem IsPartial.unique {ι : Type} [DecidableEq ι] {F : (ι → ℝ) → ι → ℝ} {y : ι → ℝ} {i j : ι} {d e : ℝ}
    (h : IsPartial F y i j d) (h' : IsPartial F y i j e) : d = e :=
  HasDerivAt.unique h h'

theorem hasDerivAt_coord {ι : Type} [DecidableEq ι] (y : ι → ℝ) (j k : ι) :
    HasDerivAt (fun s => Function.update y j s k) (if k = j then 1 else 0) (y j) := by
  by_cases h : k = j
  · subst h
    simpa using hasDerivAt_id' (y k)
  · simp only [Function.update_of_ne h, if_neg h]
    exact hasDerivAt_const _ _

/-- the entries of the Jacobian of `diffuse`. -/
theorem diffuse_partial {m : ℤ → ℤ} {D : ℝ} {f f' : ℤ → ℝ → ℝ} {y : ℤ → ℝ} (i j : ℤ)
    (hf : HasDerivAt (f i) (f' i (y i)) (y i)) :
    IsPartial (diffuse m D f) y i j
      (D * ((if m (i - 1) = j then 1 else 0) - 2 * (if i = j then 1 else 0) +
        (if m (i + 1) = j then 1 else 0)) + (if i = j then f' i (y i) else 0)) := by
  unfold IsPartial diffuse
  refine HasDerivAt.add (HasDerivAt.const_mul D (((hasDerivAt_coord y j _).sub
    ((hasDerivAt_coord y j i).const_mul 2)).add (hasDerivAt_coord y j _))) ?_
  by_cases h : i = j
  · subst h
    simpa using hf
  · simp only [Function.update_of_ne h, if_neg h]
    exact hasDerivAt_const _ _

end Spec.Heat
