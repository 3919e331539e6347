import Verif.Model.Symplectic

/-!
# SymplecticRK with a right hand side which writes beyond its result

`dpdt` of the planetary problems sets `3*n` elements to zero instead of `n/2` (Outer.hpp 60).  When the members `v, Y, Y1, delta,
e, a` of SymplecticRK lie one after the other in memory (SymplecticRK.hpp 21; not guaranteed by the language), the evaluations of
one iteration leave the values of the function in `Y1`, zeros in `delta` and `e`, and change a part of `a`
(`outer_flat`, C90; with rounding `evalsL_evalsZ`).  This is the same program as in `Model/Symplectic.lean` with this effect.
-/

namespace Odes.Symp

open Odes.Mem

variable {α : Type} [Add α] [Sub α] [Mul α] [Zero α] [One α] [LE α] {n : ℕ}

/-- SymplecticRK.hpp 80-88; `z` is what is left in `a`. -/
def evalsZ (c : Cfg α n) (z : St α n → Fin n → α) (st : St α n) : Option (St α n) :=
  (evals c st).map fun st => { st with delta := fun _ => 0, e := fun _ => 0, a := z st }

open Classical in
/-- the iteration loop, SymplecticRK.hpp 78-119. -/
noncomputable def iterLoopZ (c : Cfg α n) (z : St α n → Fin n → α) (u : Fin n → α) : ℕ → St α n → Option (Bool × St α n)
  | 0, st => some (false, st)
  | k + 1, st =>
    (evalsZ c z st).bind fun st =>
    (update c u st).bind fun st =>
    if success c st then some (true, st) else iterLoopZ c z u k { st with iter := st.iter + 1 }

open Classical in
/-- `step(h,u,firstStep)`, SymplecticRK.hpp 53-149. -/
noncomputable def stepZ (c : Cfg α n) (z : St α n → Fin n → α) (h : α) (u : Fin n → α) (first : Bool) (st : St α n) :
    Option (Bool × (Fin n → α) × St α n) :=
  let doExtrap : Prop := first = false ∧ c.eq st.oldH h
  (if ¬ c.eq st.oldH h then (gChange c h { st with oldH := h }).bind (eChange c h)
    else some st).bind fun st =>
  (if doExtrap then ext c u st else startAt c u st).bind fun st =>
  (iterLoopZ c z u c.itermax.toNat { st with iter := 0 }).bind fun r =>
  if r.1 then (increment c r.2).map fun st => (true, compensate u st)
  else some (false, u, r.2)

end Odes.Symp
