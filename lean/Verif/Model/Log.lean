import Verif.Model.Logger
import Verif.Model.Radau
import Verif.Model.Rodas
import Verif.Model.Rock4

/-!
# What the integrators write to the log

With `LOGRADAU5`, `LOGRODAS` or `LOGROCK4` defined the integrators call `Logger.clear()` and `Logger.put(...)`.
The calls made during one transition of the models are given here as a function of the state at its beginning;
`logged` is the integrator together with its log.
-/

namespace Odes.Log

open Classical Logger

noncomputable section

/-- events recorded by the integrators. -/
abbrev Ev := Event X

/-- the call of `put` with the data of an event. -/
def toOp (e : Ev) : Op X := .put e.time e.step e.kind e.value

/-- the log after a transition: `clr` = the transition begins with `Logger.clear()`. -/
def written (clr : Bool) (evs l : List Ev) : List Ev :=
  ((if clr then [Op.clear] else []) ++ evs.map toOp).foldl Logger.apply l

/-- an integrator with its log. -/
def logged {σ : Type} (step : σ → Res σ) (clr : σ → Bool) (evs : σ → List Ev) (s : σ × List Ev) :
    Res (σ × List Ev) :=
  match step s.1 with
  | .next t => .next (t, written (clr s.1) (evs s.1) s.2)
  | .ret t => .ret (t, written (clr s.1) (evs s.1) s.2)
  | .throw e => .throw e
  | .ub u => .ub u

variable {n : ℕ}

namespace Radau

open Odes.Radau

variable (L : Lin X n) (P : Prob X n) (g : Cfg n)

/-- `Logger.clear()` at the entry of `operator()`, Radau5cc.hpp 449-451. -/
def clr (s : St n L.σ) : Bool := s.phase = .init

/-- entry, Radau5cc.hpp 462-478; `nstep` was set to 0 before. -/
def initEvs (s : St n L.σ) : List Ev :=
  let t := entered P g s
  [⟨s.x, 0, .changedH, s.h⟩]
    ++ (if X.ABS s.h < 10.0 * g.uround then [⟨s.x, 0, .changedH, 1.0e-6⟩] else [])
    ++ [⟨s.x, 0, .changedH, t.hold⟩]
    ++ (if t.last then [⟨s.x, 0, .changedH, s.xend - s.x⟩] else [])

/-- `NewtonIterationTest` fails, Radau5cc.hpp 209-214. -/
def testEvs (s : St n L.σ) : List Ev :=
  let r := newtonTest g { s with newt := s.newt + 1 } (increment L P g.c s.x s.xph s.h s.Y s.jac s.Z s.FF)
  if r.1 = false then [⟨s.x, s.nstep, .changedH, r.2.h⟩] else []

/-- after `Newton`, Radau5cc.hpp 540-581: `Logger.put` follows `doNewtonMatrices()`, which can throw. -/
def afterEvs (r : Reason) (s : St n L.σ) : List Ev :=
  let ok : Bool := match afterNewton L P g r s with
    | .next _ => true
    | _ => false
  match r with
  | .converged => []
  | .didNotConverge => [⟨s.x, s.nstep, .changedH, s.h * 0.5⟩]
      ++ (if ok then [⟨s.x, s.nstep, .NewtonFailed, s.h * 0.5⟩] else [])
  | .willNotConverge => if ok then [⟨s.x, s.nstep, .NewtonWillNotConverge, s.h⟩] else []

/-- the Newton loop. -/
def newtonEvs (s : St n L.σ) : List Ev :=
  let r := newtonStep L P g s
  testEvs L P g s ++ match r.1 with
    | none => []
    | some reason => afterEvs L P g reason r.2

/-- after the `do` loop, Radau5cc.hpp 590-697. -/
def tailEvs (s : St n L.σ) : List Ev :=
  let err := (estrad L P g s).1
  if err < 1.0 then
    if g.onlyOneStep then []
    else
      let s1 := accepted g s err
      if s1.last = true ∨ 0.1 * X.ABSsub s1.xend s1.x ≤ X.ABS s1.x * g.uround then
        [⟨s1.x, s1.nstep, .changedH, s1.hopt⟩]
      else
        let hn := proposed s1 (hnewAcc g s err)
        if 0.0 ≤ (s1.x + hn / g.quot1 - s1.xend) * s1.posneg then [⟨s1.x, s1.nstep, .changedH, s1.xend - s1.x⟩]
        else if s1.theta ≤ g.thet ∧ g.quot1 ≤ hn / s1.h ∧ hn / s1.h ≤ g.quot2 then []
        else [⟨s1.x, s1.nstep, .changedH, hn⟩]
  else
    [⟨s.x, s.nstep, .rejectedStep, s.h⟩,
      ⟨s.x, s.nstep, .changedH, if s.first then s.h * 0.1 else s.h / quotOf g s err⟩]

/-- events of one transition. -/
def evs (s : St n L.σ) : List Ev :=
  match s.phase with
  | .init => initEvs L P g s
  | .check => []
  | .attempt => []
  | .newton => newtonEvs L P g s
  | .tail => tailEvs L P g s

/-- Radau5 with its log. -/
def step : St n L.σ × List Ev → Res (St n L.σ × List Ev) := logged (Odes.Radau.step L P g) (clr L) (evs L P g)

end Radau

namespace Rodas

open Odes.Rodas

variable (L : Lin X n) (P : Prob X n) (g : Cfg n)

/-- the log when the `while` loop is entered, Rodascc.hpp 315-327 (`seth`, 208-214). -/
def first (s : St n L.σ) : List Ev := written true [⟨s.x, s.nstep, .changedH, s.h⟩] []

/-- head of the `while` loop, Rodascc.hpp 337-347; the `do` loop writes nothing. -/
def evs (s : St n L.σ) : List Ev :=
  if s.inner = true ∨ s.last = true then []
  else if 0.1e0 * X.ABS s.h ≤ X.ABS s.x * g.uround then []
  else
    let h1 := if X.ABS s.h < 10.0 * g.uround then 1.0e-6 else s.h
    let h2 := X.MIN (X.ABS h1) s.hmaxn * s.posneg
    (if X.ABS s.h < 10.0 * g.uround then [⟨s.x, s.nstep, .changedH, 1.0e-6⟩] else [])
      ++ [⟨s.x, s.nstep, .changedH, h2⟩]
      ++ (if 0.0 < (s.x + h2 * 1.0001 - s.xend) * s.posneg then [⟨s.x, s.nstep, .changedH, s.xend - s.x⟩] else [])

/-- Rodas with its log. -/
def step : St n L.σ × List Ev → Res (St n L.σ × List Ev) :=
  logged (Odes.Rodas.step L P g) (fun _ => false) (evs L g)

end Rodas

namespace Rock4

open Odes.Rock4

/-- events of one iteration, Rock4.hpp 236-276.  `pass` is increased together with `nsteps` (lines 220 and 236; only
undefined behaviour can come between).  The log is never cleared. -/
def evs (P : Problem n) (T : Tables) (tend : X) (s : St n) : List Ev :=
  if s.t < tend then
    match choose P tend s with
    | .next s1 =>
      match kernel P T s1 s1.h with
      | none => []
      | some (s2, err) =>
        let hnew := s2.h * factor s2 err
        if err < 1.0 then
          let t := s2.t + s2.h
          let hnew' :=
            if s2.reject then
              (let a := X.stdMin hnew s2.h
               if tend < t then X.stdMax a s2.h else a)
            else hnew
          [⟨t, s.nsteps + 1, .success, hnew'⟩]
        else [⟨s2.t, s.nsteps + 1, .rejectedStep, hnew⟩]
    | _ => []
  else []

/-- Rock4 with its log. -/
def step (P : Problem n) (T : Tables) (tend : X) : St n × List Ev → Res (St n × List Ev) :=
  logged (Odes.Rock4.step P T tend) (fun _ => false) (evs P T tend)

end Rock4

end

end Odes.Log
