import Verif.Model.MainsFlat

/-!
# Test program of SymplecticRK: the exception
-/

namespace Odes.Mains

variable {α : Type} [Add α] [Sub α] [Mul α] [Zero α] [One α] [LE α] {n : ℕ}

/-- SymplecticRK/test/main.cc 35-40: the step number `it` returns false and the exception is thrown; nothing in main.cc catches it.
`w`: the lines of values given to the stream before (whether they reach the file is not determined: without handler the stream need not
be destroyed).  Simplified: the text of the message (38-39) is not kept. -/
def SympThrows (c : Symp.Cfg α n) (h : α) (more : ℕ → Prop) (u0 : Fin n → α) (st0 : Symp.St α n) (it : ℕ) (u : Fin n → α)
    (st : Symp.St α n) (w : List (Fin n → α)) : Prop :=
  SympLoop c h more u0 st0 it u st w ∧ more it ∧ ∃ u' st', Symp.step c h u true st = some (false, u', st')

/-- 35: the step number `it` has undefined behaviour. -/
def SympUndef (c : Symp.Cfg α n) (h : α) (more : ℕ → Prop) (u0 : Fin n → α) (st0 : Symp.St α n) (it : ℕ) (u : Fin n → α)
    (st : Symp.St α n) (w : List (Fin n → α)) : Prop :=
  SympLoop c h more u0 st0 it u st w ∧ more it ∧ Symp.step c h u true st = none

/-- 49-51 with the planetary problems (`SympLoopZ`): the program reaches "end.". -/
def SympEndsZ (c : Symp.Cfg α n) (z : Symp.St α n → Fin n → α) (h : α) (more : ℕ → Prop) (u0 : Fin n → α) (st0 : Symp.St α n) (it : ℕ)
    (u : Fin n → α) (st : Symp.St α n) (w : List (Fin n → α)) : Prop :=
  SympLoopZ c z h more u0 st0 it u st w ∧ ¬ more it

/-- 35-40 with the planetary problems. -/
def SympThrowsZ (c : Symp.Cfg α n) (z : Symp.St α n → Fin n → α) (h : α) (more : ℕ → Prop) (u0 : Fin n → α) (st0 : Symp.St α n) (it : ℕ)
    (u : Fin n → α) (st : Symp.St α n) (w : List (Fin n → α)) : Prop :=
  SympLoopZ c z h more u0 st0 it u st w ∧ more it ∧ ∃ u' st', Symp.stepZ c z h u true st = some (false, u', st')

end Odes.Mains
