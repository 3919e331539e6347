import Mathlib.Analysis.Calculus.FDeriv.Basic
import Mathlib.Analysis.Normed.Group.Constructions
import Mathlib.Analysis.Normed.Module.Basic
import Mathlib.Data.Fin.VecNotation
import Mathlib.Data.Real.Basic
import Mathlib.Analysis.Real.Sqrt

/-!
# Elementary differentials of a smooth field

The eight elementary differentials of order at most four of `y' = f(y)`, from the partial derivatives of `f`.
-/

namespace Odes.Spec

noncomputable section

variable {n : ℕ}

/-- the linear map with matrix `c`. -/
def L1 {A : Type} [CommRing A] (c : Fin n → Fin n → A) (u : Fin n → A) : Fin n → A := fun i => ∑ j, c i j * u j

/-- the bilinear map with coefficients `c`. -/
def L2 {A : Type} [CommRing A] (c : Fin n → Fin n → Fin n → A) (u v : Fin n → A) : Fin n → A :=
  fun i => ∑ k, (∑ j, c i k j * u j) * v k

/-- the trilinear map with coefficients `c`. -/
def L3 {A : Type} [CommRing A] (c : Fin n → Fin n → Fin n → Fin n → A) (u v w : Fin n → A) : Fin n → A :=
  fun i => ∑ l, (∑ k, (∑ j, c i l k j * u j) * v k) * w l

/-- `f, f'f, f''(f,f), f'f'f, f'''(f,f,f), f''(f,f'f), f'f''(f,f), f'f'f'f`. -/
def elemC {A : Type} [CommRing A] (c0 : Fin n → A) (c1 : Fin n → Fin n → A) (c2 : Fin n → Fin n → Fin n → A)
    (c3 : Fin n → Fin n → Fin n → Fin n → A) : Fin 8 → Fin n → A :=
  ![c0, L1 c1 c0, L2 c2 c0 c0, L1 c1 (L1 c1 c0), L3 c3 c0 c0 c0, L2 c2 c0 (L1 c1 c0), L1 c1 (L2 c2 c0 c0),
    L1 c1 (L1 c1 (L1 c1 c0))]

/-- partial derivative. -/
def pdv (j : Fin n) (g : (Fin n → ℝ) → ℝ) : (Fin n → ℝ) → ℝ := fun x => fderiv ℝ g x (Pi.single j 1)

/-- the elementary differentials of `f` at `x`. -/
def elemF (f : (Fin n → ℝ) → Fin n → ℝ) (x : Fin n → ℝ) : Fin 8 → Fin n → ℝ :=
  elemC (f x) (fun i j => pdv j (fun z => f z i) x) (fun i k j => pdv j (pdv k fun z => f z i) x)
    (fun i l k j => pdv j (pdv k (pdv l fun z => f z i)) x)

end

end Odes.Spec
