import Verif.Model.Machine

/-!
# The time loops of Rodas and Radau5

Only the variables `x`, `h`, `last` and `reject` of `operator()`, over an arbitrary type of scalars (the
models `Rodas.step` and `Radau.step` use `X`, without rounding errors; here floating point numbers can be
used).  What the loops ask from the rest of the program is abstract: the result of the error test and the
factor by which the step is divided.  One-step mode and the limit of the number of steps are left out.
-/

namespace Odes.EndLoop

open Classical

noncomputable section

variable {α : Type} [Add α] [Sub α] [Mul α] [Div α] [LE α] [LT α]

/-- members and constants of a call: `c01`, `c10u`, `c1e6`, `c10001` are the values of `0.1`,
`10.*uround`, `1.e-6`, `1.0001`; `abs`, `min` the macros `ABS`, `MIN`, and `dist x` is `ABS(xend-x)`. -/
structure Cn (α : Type) where
  xend : α
  posneg : α
  hmaxn : α
  uround : α
  zero : α
  c01 : α
  c10u : α
  c1e6 : α
  c10001 : α
  quot1 : α
  abs : α → α
  min : α → α → α
  dist : α → α

/-- `x`, `h`, `last`, `reject`; `inner`: the control point is the head of the `do` loop (Rodas only). -/
structure Rs (α : Type) where
  x : α
  h : α
  last : Bool
  reject : Bool
  inner : Bool

/-- Rodascc.hpp 339-347 and Radau5cc.hpp 470-478: first limitations of the step and the test whether it
reaches `xend`. -/
def clip (c : Cn α) (s : Rs α) : Rs α :=
  let h1 := if c.abs s.h < c.c10u then c.c1e6 else s.h
  let h2 := c.min (c.abs h1) c.hmaxn * c.posneg
  let over : Prop := c.zero < (s.x + h2 * c.c10001 - c.xend) * c.posneg
  { s with h := if over then c.xend - s.x else h2, last := if over then true else s.last }

/-- head of the `while` loop of Rodas, Rodascc.hpp 335-349. -/
def rodasHead (c : Cn α) (s : Rs α) : Res (Rs α) :=
  if c.c01 * c.abs s.h ≤ c.abs s.x * c.uround then .throw .stepTooSmall
  else .next { clip c s with inner := true }

/-- what the rest of Rodas answers: is the step accepted, and the divisor of `h` (`fac` or
`MAX(fac,facgus)`). -/
structure An (α : Type) where
  acc : Bool
  q : α

/-- end of the `do` loop of Rodas, Rodascc.hpp 435-469. -/
def rodasBody (c : Cn α) (a : An α) (s : Rs α) : Rs α :=
  let hnew := s.h / a.q
  if a.acc then
    let h1 := if c.hmaxn < c.abs hnew then c.posneg * c.hmaxn else hnew
    { x := s.x + s.h
      h := if s.reject then c.posneg * c.min (c.abs h1) (c.abs s.h) else h1
      last := s.last, reject := false, inner := false }
  else { s with h := hnew, last := false, reject := true }

/-- one transition of Rodas, Rodascc.hpp 335-472. -/
def rodas (c : Cn α) (a : An α) (s : Rs α) : Res (Rs α) :=
  if s.inner then .next (rodasBody c a s)
  else if s.last then .ret s
  else rodasHead c s

/-- what the rest of Radau5 answers: the step is repeated with the step `h` (Newton gives up with
`willNotConverge`, or error test); Newton gives up with `didNotConverge` (the step is multiplied by a
constant, `last` is kept); the step is accepted, `hnew` is proposed and, if `keep`, the conditions
`theta<=thet` and `qt<=quot2` hold. -/
inductive Ra (α : Type)
  | redo (h : α)
  | half (h : α)
  | acc (hnew : α) (keep : Bool)

/-- `hnew` after the limitations, Radau5cc.hpp 635-638. -/
def radauProposed (c : Cn α) (s : Rs α) (hnew : α) : α :=
  let h1 := c.posneg * c.min (c.abs hnew) c.hmaxn
  if s.reject then c.posneg * c.min (c.abs h1) (c.abs s.h) else h1

/-- an attempt of Radau5: Radau5cc.hpp 150-170, 545, 590-682. -/
def radau (c : Cn α) (a : Ra α) (s : Rs α) : Res (Rs α) :=
  match a with
  | .redo h => .next { s with h := h, last := false, reject := true }
  | .half h => .next { s with h := h }
  | .acc hnew keep =>
    let x := s.x + s.h
    if s.last = true ∨ c.c01 * c.dist x ≤ c.abs x * c.uround then .ret { s with x := x }
    else
      let hn := radauProposed c s hnew
      if c.zero ≤ (x + hn / c.quot1 - c.xend) * c.posneg then
        .next { s with x := x, h := c.xend - x, last := true, reject := false }
      else if keep = true ∧ c.quot1 ≤ hn / s.h then .next { s with x := x, reject := false }
      else .next { s with x := x, h := hn, reject := false }

end

end Odes.EndLoop
