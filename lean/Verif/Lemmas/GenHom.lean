import Verif.Spec.RockLin

/-!
# The step is natural in the scalars
-/

namespace Odes.Spec.Gen

variable {α β : Type} [Add α] [Mul α] [Sub α] [OfNat α 1] [Add β] [Mul β] [Sub β] [OfNat β 1]
  {n : ℕ} {φ : α → β} (ha : ∀ a b, φ (a + b) = φ a + φ b) (hm : ∀ a b, φ (a * b) = φ a * φ b)
  (hs : ∀ a b, φ (a - b) = φ a - φ b) (h1 : φ 1 = 1)
  {F : (Fin n → α) → Fin n → α} {G : (Fin n → β) → Fin n → β}
  (hF : ∀ v i, G (fun j => φ (v j)) i = φ (F v i))

include ha hm hs h1 hF

theorem gRec_hom (mu kap : ℕ → α) (h : α) (y : Fin n → α) :
    ∀ j i, gRec G (fun j => φ (mu j)) (fun j => φ (kap j)) (φ h) (fun i => φ (y i)) j i
      = φ (gRec F mu kap h y j i)
  | 0, _ => rfl
  | 1, i => by simp only [gRec, hF, ha, hm]
  | (j + 2), i => by
    have e := gRec_hom mu kap h y (j + 1)
    have e' := gRec_hom mu kap h y j
    simp only [gRec, ha, hm, hs, h1]
    rw [← e, ← e', ← hF]
    congr 4
    funext k
    exact e k

theorem step_hom (R : Formula α) (h : α) (y : Fin n → α) (i : Fin n) :
    step (R.map φ) G (φ h) (fun i => φ (y i)) i = φ (step R F h y i) := by
  have e : (gRec G (R.map φ).mu (R.map φ).kap (φ h) (fun i => φ (y i)) (R.map φ).deg)
      = fun i => φ (gRec F R.mu R.kap h y R.deg i) :=
    funext fun i => gRec_hom ha hm hs h1 hF R.mu R.kap h y R.deg i
  unfold step
  rw [e]
  generalize gRec F R.mu R.kap h y R.deg = g
  have hF' : ∀ v, G (fun j => φ (v j)) = fun i => φ (F v i) := fun v => funext (hF v)
  simp only [finishing, Formula.map, hF', ← ha, ← hm]

end Odes.Spec.Gen
