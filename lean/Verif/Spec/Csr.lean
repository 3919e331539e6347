import Verif.Spec.Csc

/-!
# Compressed rows, indices from 1
-/

namespace Odes.Spec

variable {α : Type}

/-- `ia`, `ja`, `a` are compressed rows of the matrix `M`, all indices counted from 1: row `r` occupies the
positions from `ia r` on, below `ia (r+1)`, its column numbers increase, and an element that is not stored is
zero. -/
def IsCsr [AddCommMonoid α] {n : ℕ} (ia : ℕ → Option ℤ) (ja : List ℤ) (a : List α)
    (M : Matrix (Fin n) (Fin n) α) : Prop :=
  ∃ ptr : ℕ → ℕ, (∀ r ≤ n, ia r = some (ptr r + 1 : ℤ)) ∧ ptr 0 = 0 ∧ ptr n = a.length ∧
    ja.length = a.length ∧ (∀ r < n, ptr r ≤ ptr (r + 1)) ∧
    (∀ c ∈ ja, 1 ≤ c ∧ c ≤ n) ∧
    (∀ r < n, ∀ i j, ptr r ≤ i → i < j → j < ptr (r + 1) → ja.getD i 0 < ja.getD j 0) ∧
    ∀ r c : Fin n, M r c = ∑ l ∈ Finset.Ico (ptr r) (ptr (r + 1)),
      if ja.getD l 0 = (c : ℤ) + 1 then a.getD l 0 else 0

end Odes.Spec
