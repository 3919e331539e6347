import Mathlib.Data.Int.Notation

/-!
# The event log: `common/include/logger.hpp`

`double` is an arbitrary type `D` with its `std::to_string`; steps are unbounded integers and
`to_string(int)` is the decimal notation.  `std::list` is a list; the string `ret` is a Lean string.
-/

namespace Odes.Logger

/-- `eventType`, logger.hpp 10-11. -/
inductive Kind
  | success
  | rejectedStep
  | NewtonFailed
  | NewtonWillNotConverge
  | changedH
  | all
  deriving DecidableEq

/-- `names[TheEvent]`, logger.hpp 31-32. -/
def Kind.name : Kind → String
  | .success => "success"
  | .rejectedStep => "rejectedStep"
  | .NewtonFailed => "NewtonFailed"
  | .NewtonWillNotConverge => "NewtonWillNotConverge"
  | .changedH => "changedH"
  | .all => "all"

variable {D : Type}

/-- `struct event`, logger.hpp 20-29. -/
structure Event (D : Type) where
  time : D
  step : ℤ
  kind : Kind
  value : D

/-- calls of the member functions which modify the log. -/
inductive Op (D : Type)
  | clear
  | put (time : D) (step : ℤ) (kind : Kind) (value : D)

/-- `clear`, logger.hpp 40-43, and `put`, logger.hpp 49-52, on the member `L`. -/
def apply (L : List (Event D)) : Op D → List (Event D)
  | .clear => []
  | .put t s k v => L ++ [⟨t, s, k, v⟩]

/-- the log after a sequence of calls on a new object. -/
def history (l : List (Op D)) : List (Event D) := l.foldl apply []

/-- body of the loop of `tostring`, logger.hpp 61-72; the state is `(ret,count)`. -/
def visit (str : D → String) (E : Kind) (s : String × ℤ) (Ev : Event D) : String × ℤ :=
  if Ev.kind = E ∨ E = .all then
    let count := s.2 + 1
    let tmp := toString count ++ " Time: " ++ str Ev.time ++ " step: " ++ toString Ev.step
      ++ " Event: " ++ Ev.kind.name
    let tmp := if Ev.kind = .changedH ∨ Ev.kind = .rejectedStep then
      tmp ++ (" new step: " ++ str Ev.value) else tmp
    (s.1 ++ (tmp ++ "\n"), count)
  else s

/-- `tostring`, logger.hpp 55-75. -/
def text (str : D → String) (E : Kind) (L : List (Event D)) : String :=
  (L.foldl (visit str E) ("", 0)).1

end Odes.Logger
