import Verif.Lemmas.Rock4L
import Verif.Lemmas.Num
import Mathlib.LinearAlgebra.Matrix.ToLin
import Mathlib.Tactic.LinearCombination
import Mathlib.Tactic.Module

/-!
# Rock4-L: the computed polynomials
-/

namespace Odes.Rock4L

open Matrix

variable {n : ℕ} {K : Type} [CommRing K]

theorem finishing_affine (R : Spec.Gen.Formula K) (A : Matrix (Fin n) (Fin n) K)
    (b : Fin n → K) (h : K) (g : Fin n → K) :
    Spec.Gen.finishing R (fun v => A *ᵥ v + b) h g =
      let k := A *ᵥ g + b
      g + (h * (R.b 0 + R.b 1 + R.b 2 + R.b 3)) • k
        + (h ^ 2 * (R.a21 * R.b 1 + R.a31 * R.b 2 + R.a32 * R.b 2 + R.a41 * R.b 3
            + R.a42 * R.b 3 + R.a43 * R.b 3)) • (A *ᵥ k)
        + (h ^ 3 * (R.a21 * R.a32 * R.b 2 + R.a21 * R.a42 * R.b 3 + R.a31 * R.a43 * R.b 3
            + R.a32 * R.a43 * R.b 3)) • (A *ᵥ (A *ᵥ k))
        + (h ^ 4 * (R.a21 * R.a32 * R.a43 * R.b 3)) • (A *ᵥ (A *ᵥ (A *ᵥ k))) := by
  have e1 : ∀ (c : K) (u : Fin n → K), (fun i => g i + c * u i) = g + c • u := fun _ _ => rfl
  have e2 : ∀ (c d : K) (u v : Fin n → K), (fun i => g i + c * u i + d * v i)
      = g + c • u + d • v := fun _ _ _ _ => rfl
  have e3 : ∀ (c d e : K) (u v w : Fin n → K), (fun i => g i + c * u i + d * v i + e * w i)
      = g + c • u + d • v + e • w := fun _ _ _ _ _ _ => rfl
  have e4 : ∀ (c d e f : K) (u v w x : Fin n → K),
      (fun i => g i + c * u i + d * v i + e * w i + f * x i)
      = g + c • u + d • v + e • w + f • x := fun _ _ _ _ _ _ _ _ => rfl
  unfold Spec.Gen.finishing
  simp only [e1, e2, e3, e4, mulVec_add, mulVec_smul]
  module

variable (A : Matrix (Fin n) (Fin n) K)

theorem gSeq_eq (F : (Fin n → K) → Fin n → K) (first : Fin n → K)
    (op : (Fin n → K) → (Fin n → K) → K → K → K → Fin n → K) (mu kap : ℕ → K) (dt : K)
    (y : Fin n → K) (h1 : first = y + (dt * mu 1) • F y)
    (hop : ∀ v s a b c, op v s a b c = a • F v + b • v + c • s) :
    ∀ j, gSeq first op mu kap dt y j = Spec.Gen.gRec F mu kap dt y j
  | 0 => rfl
  | 1 => by rw [gSeq, h1]; rfl
  | (j + 2) => by
    rw [gSeq, Spec.Gen.gRec, gSeq_eq F first op mu kap dt y h1 hop (j + 1),
      gSeq_eq F first op mu kap dt y h1 hop j, hop]
    funext i
    simp only [Pi.add_apply, Pi.smul_apply, smul_eq_mul]
    ring

end Odes.Rock4L
