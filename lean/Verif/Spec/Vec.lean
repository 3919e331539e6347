import Verif.Model.Vec

/-! Specification for C05: vectors as values; a switch exchanges two values. -/

namespace Odes.Vec

variable {α : Type}

/-- effect of one operation on the values of the vectors; `none` = index outside the vector. -/
def absStep {m : ℕ} (n : ℤ) (o : Op m α) (c : Fin m → ℤ → α) : Option (Fin m → ℤ → α) :=
  match o with
  | .switch i j => some fun l => if l = i then c j else if l = j then c i else c l
  | .write _ i k v => if 0 ≤ k ∧ k < n then
      some fun l => if l = i then Function.update (c i) k v else c l else none

/-- a sequence of operations -/
def absRun {m : ℕ} (n : ℤ) : List (Op m α) → (Fin m → ℤ → α) → Option (Fin m → ℤ → α)
  | [], c => some c
  | o :: l, c => (absStep n o c).bind (absRun n l)

/-- every vector owns one live block of `n` doubles, no two share one, and the block of vector `i`
holds the value `c i`. -/
def Owns {m : ℕ} (n : ℤ) (vs : Fin m → FVF) (h : Heap α) (c : Fin m → ℤ → α) : Prop :=
  (∀ i, (vs i).x = (vs i).y) ∧ (∀ i j, (vs i).y = (vs j).y → i = j) ∧
  ∀ i, h.blk (vs i).y = some ⟨n, c i⟩

end Odes.Vec
