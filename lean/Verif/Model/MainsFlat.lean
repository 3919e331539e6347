import Verif.Model.Mains
import Verif.Model.SympFlat

/-!
# Test program of SymplecticRK with the planetary problems

As `SympLoop` of `Model/Mains.lean`, the right hand side writing beyond its result (`Model/SympFlat.lean`).
-/

namespace Odes.Mains

variable {α : Type} [Add α] [Sub α] [Mul α] [Zero α] [One α] [LE α] {n : ℕ}

/-- the loop of SymplecticRK/test/main.cc 33-48; `w`: the lines with the values of `u`, last one first (41-43; for the lines with `H(u)`
see `Model/PlanetsHam.lean`). -/
inductive SympLoopZ (c : Symp.Cfg α n) (z : Symp.St α n → Fin n → α) (h : α) (more : ℕ → Prop) (u0 : Fin n → α) (st0 : Symp.St α n) :
    ℕ → (Fin n → α) → Symp.St α n → List (Fin n → α) → Prop
  | start : SympLoopZ c z h more u0 st0 0 u0 st0 []
  | next {it u st w u' st'} (hk : SympLoopZ c z h more u0 st0 it u st w) (hm : more it)
      (hs : Symp.stepZ c z h u true st = some (true, u', st')) : SympLoopZ c z h more u0 st0 (it + 1) u' st' (u' :: w)

end Odes.Mains
