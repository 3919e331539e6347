import Verif.Model.Radau

/-!
# Test program of Radau5

The loop of Radau5-NG/test/main.cc.  Input from the terminal, the clock and the files are not modelled.
-/

namespace Odes.Mains

section
variable {n : ℕ} {L : Radau.Lin X n}

/-- line 44: `Rad.setNmax(10000)` on the object with the settings `g`. -/
def radauCfg (g : Radau.Cfg n) : Radau.Cfg n := { g with nmax := 10000 }

/-- `k` turns of the loop 41-60 which reach their end: `init` writes `y0`, `t=0.0`, call.  `h` is passed by value.  The object keeps
what the preceding call left. -/
inductive RadauLoops (P : Radau.Prob X n) (g : Radau.Cfg n) (h xend : X) (y0 : Fin n → X) :
    ℕ → Radau.St n L.σ → Radau.St n L.σ → Prop
  | zero (o) : RadauLoops P g h xend y0 0 o o
  | succ {k o s s'} (hk : RadauLoops P g h xend y0 k o s)
      (hc : Returns (Radau.step L P (radauCfg g)) (Radau.call s h (.fin 0) xend y0) s') : RadauLoops P g h xend y0 (k + 1) o s'

/-- the program ends with the exception of line 55 in turn `k+1` (the handler writes the log and throws). -/
def RadauAborts (P : Radau.Prob X n) (g : Radau.Cfg n) (h xend : X) (y0 : Fin n → X) (k : ℕ) (o : Radau.St n L.σ) : Prop :=
  ∃ s e, RadauLoops P g h xend y0 k o s ∧ Throws (Radau.step L P (radauCfg g)) (Radau.call s h (.fin 0) xend y0) e

/-- the counters printed in 66-68. -/
structure RadauPrinted where
  nstep : ℤ
  njac : ℤ
  naccpt : ℤ
  nrejct : ℤ
  ndec : ℤ

/-- what the program prints for the object `s`. -/
def radauPrinted (s : Radau.St n L.σ) : RadauPrinted := ⟨s.nstep, s.njac, s.naccpt, s.nrejct, s.ndec⟩

end

end Odes.Mains
