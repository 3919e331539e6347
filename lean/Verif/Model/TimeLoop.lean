import Verif.Model.Machine

/-!
# The time loops of Rock4L and Rock4

Only the variables `t` and `h` of `operator()`, over an arbitrary type of scalars (the models
`Rock4L.step` and `Rock4.step` use `X`, without rounding errors; here floating point numbers can be
used).  What the loop asks from the rest of the program is abstract: whether more than 152 stages are
needed (Rock4L), the limited step, the answer of the error test and the next step (Rock4).
-/

namespace Odes.TimeLoop

open Classical

noncomputable section

variable {α : Type} [Add α] [Sub α] [Mul α] [LE α] [LT α]

/-- constants of a call. `dist t` is `ABS(tend-t)`, `c101` the constant `1.01e0`, `c11` the constant
`1.1`, `umin` the value of `10.0e0*uround`. -/
structure Tl (α : Type) where
  tend : α
  c101 : α
  c11 : α
  umin : α
  dist : α → α
  /-- `mdeg>152` for this step, Rock4L.hpp 307-311 -/
  over : α → Prop

/-- `t` and `h`. -/
structure St (α : Type) where
  t : α
  h : α

/-- Rock4L.hpp 299-300 and 348-349, Rock4.hpp 208-209: a step which nearly reaches `tend` is made to
end there. -/
def chop (c : Tl α) (s : St α) : α := if c.dist s.t ≤ c.c101 * s.h then c.dist s.t else s.h

/-- one iteration of `while(t<tend)`, Rock4L.hpp 297-322 and 346-371. -/
def stepL (c : Tl α) (s : St α) : Res (St α) :=
  if s.t < c.tend then
    let h := chop c s
    if h < c.umin then .throw .stepTooSmall
    else if c.over h then .throw .degreeTooLarge
    else
      let t := s.t + h
      .next { t := t, h := if c.tend < t + h then c.tend - t else h }
  else .ret s

/-- what happens in an iteration of the loop of Rock4: step imposed by the limit of 152 stages
(Rock4.hpp 222-227), result of the error test (247), and the step proposed for the next iteration
(259 or 278-286). -/
structure Ans (α : Type) where
  cap : Option α
  acc : Bool
  next : α

/-- one iteration of `while(t<tend)`, Rock4.hpp 206-290. -/
def stepR (c : Tl α) (a : Ans α) (s : St α) : Res (St α) :=
  if s.t < c.tend then
    let h := chop c s
    if h < c.umin then .throw .stepTooSmall
    else
      let h := a.cap.getD h
      if a.acc then
        let t := s.t + h
        .next { t := t, h := if c.dist t ≤ c.c11 * a.next then c.dist t else a.next }
      else .next { t := s.t, h := a.next }
  else .ret s

end

end Odes.TimeLoop
