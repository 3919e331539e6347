import Verif.Model.Rodas
import Verif.Model.Rock4
import Verif.Model.Symplectic
import Verif.Model.StiffTest

/-!
# Test programs of Rodas, ROCK4 and SymplecticRK

The loops of Rodas-NG/test/main.cc, Rock4-NG/test/main.cc and SymplecticRK/test/main.cc, and the functions `init` of the
problems.  Input from the terminal, the clock and the files (as files) are not modelled: the numbers written are those
of the final state of the model.
-/

namespace Odes.Mains

open Odes.Mem

/-! ### initial values -/

/-- `init` of KPP (Radau5-NG/test/KPP.hpp 49-55, Rodas-NG/test/KPP.hpp 54-60) and of FRadau5
(Rock4-L/test/FRadau5.hpp 48-54). -/
noncomputable def kppInit (n : ℤ) (y : Buf ℝ) : Option (Buf ℝ) :=
  (forUp 0 (n / 2) (fun i y => y.wr i 0.9999999) y).bind fun y =>
  forUp (n / 2 + 1) (n - 1) (fun i y => y.wr i 0) y

/-- `init` of the Fisher problem, Rock4-NG/test/FKPPOMP.hpp 51-58 (the turns of the parallel loop write different
elements: taken in order). -/
noncomputable def fkppInit (n : ℤ) (y : Buf ℝ) : Option (Buf ℝ) :=
  forUp 0 (n - 1) (fun i y => y.wr i (if i < n / 2 then 1 else 0)) y

/-- `init` of BZ, Radau5-NG/test/BZ.hpp 69-75; the number of unknowns is `3*nd`. -/
noncomputable def bzInit (nd : ℤ) (y : Buf ℝ) : Option (Buf ℝ) :=
  (forUp 0 (3 * nd - 1) (fun i y => y.wr i 0) y).bind fun y =>
  forUp (nd / 2 - nd / 6) (nd / 2 + nd / 6 - 1) (fun i y => y.wr i 1) y

/-- `init` of the Oregonator, Radau5-NG/test/Oregonator.hpp 30-33, Rodas-NG/test/Oregonator.hpp 33-36. -/
noncomputable def oreInit (y : Buf ℝ) : Option (Buf ℝ) :=
  (y.wr 0 1).bind fun y => (y.wr 1 2).bind fun y => y.wr 2 3

/-! ### Rodas-NG/test/main.cc -/

section
variable {n : ℕ} {L : Rodas.Lin X n}

/-- `k` turns of the loop 34-39: `init` writes `y0`, `t=0.0`, call.  The object keeps what the preceding call left. -/
inductive RodasLoops (P : Rodas.Prob X n) (g : Rodas.Cfg n) (h xend : X) (y0 : Fin n → X) :
    ℕ → Rodas.St n L.σ → Rodas.St n L.σ → Prop
  | zero (o) : RodasLoops P g h xend y0 0 o o
  | succ {k o s s'} (hk : RodasLoops P g h xend y0 k o s)
      (hc : Returns (Rodas.step L P g) (Rodas.start s h (.fin 0) xend y0) s') : RodasLoops P g h xend y0 (k + 1) o s'

/-- the numbers printed in 41-44 and 51 (`t`). -/
structure RodasPrinted where
  nstep : ℤ
  njac : ℤ
  naccpt : ℤ
  nrejct : ℤ
  ndec : ℤ
  first : X
  t : X

/-- what the program prints for the object `s` (`t` is the argument passed by reference). -/
def rodasPrinted (s : Rodas.St n L.σ) : RodasPrinted :=
  ⟨s.nstep, s.njac, s.naccpt, s.nrejct, s.ndec, s.firstAcceptedStep, s.x⟩

end

/-! ### Rock4-NG/test/main.cc -/

section
variable {n : ℕ}

/-- 41-53: the call in a `try` block; the handler prints an advice and the program goes on.  `u` is the state after the
call or at the exception. -/
def Rock4Call (P : Rock4.Problem n) (T : Rock4.Tables) (o : Rock4.St n) (y : ℕ) (h xend : X) (caught : Bool)
    (u : Rock4.St n) : Prop :=
  if caught then ∃ e, Reach (Rock4.step P T xend) (Rock4.start P o y (.fin 0) h) u ∧ Rock4.step P T xend u = .throw e
  else Returns (Rock4.step P T xend) (Rock4.start P o y (.fin 0) h) u

/-- 54-63: contents of the file `result` ("Results at the end of the integration"), and "ok, last time step". -/
structure Rock4Written (n : ℕ) where
  file : Fin n → X
  lastStep : X

/-- 54, 58-60: written in both cases. -/
def rock4Written (u : Rock4.St n) : Rock4Written n := ⟨u.heap u.y, u.hlast⟩

end

/-! ### SymplecticRK/test/main.cc -/

section
variable {α : Type} [Add α] [Sub α] [Mul α] [Zero α] [One α] [LE α] {n : ℕ}

/-- the loop 33-48: `more it` is the test `it<years*365.25*h`; `firstep` is true and never changed (the assignment in
`step` is commented out); a failed step throws and ends the program.  `w`: the values written to the file, last one first. -/
inductive SympLoop (c : Symp.Cfg α n) (h : α) (more : ℕ → Prop) (u0 : Fin n → α) (st0 : Symp.St α n) :
    ℕ → (Fin n → α) → Symp.St α n → List (Fin n → α) → Prop
  | start : SympLoop c h more u0 st0 0 u0 st0 []
  | next {it u st w u' st'} (hk : SympLoop c h more u0 st0 it u st w) (hm : more it)
      (hs : Symp.step c h u true st = some (true, u', st')) : SympLoop c h more u0 st0 (it + 1) u' st' (u' :: w)

/-- the program reaches "end.". -/
def SympEnds (c : Symp.Cfg α n) (h : α) (more : ℕ → Prop) (u0 : Fin n → α) (st0 : Symp.St α n) (it : ℕ) (u : Fin n → α)
    (st : Symp.St α n) (w : List (Fin n → α)) : Prop :=
  SympLoop c h more u0 st0 it u st w ∧ ¬ more it

/-- the test of the loop, line 33, for the step size `h` (`years=200`, line 30). -/
def moreSteps (years h : ℝ) (it : ℕ) : Prop := (it : ℝ) < years * 365.25 * h

end

end Odes.Mains
