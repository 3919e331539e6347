import Mathlib.Analysis.SpecialFunctions.Pow.Real
import Mathlib.Analysis.SpecialFunctions.Sqrt

/-!
# `double` with exact finite arithmetic and IEEE special values

`X` stands for the C++ type `double` in the step-size controllers: NaN, the two
infinities, or a real number.  Finite arithmetic is exact (no rounding, overflow,
underflow, and only one zero); special values propagate as IEEE-754 prescribes.
-/

namespace Odes

open Classical

/-- Model of `double`: special values plus exact finite values. -/
inductive X where
  | nan
  | pinf
  | ninf
  | fin (r : ℝ)

namespace X

noncomputable section

/-- numeric literal `n`. -/
instance (n : ℕ) : OfNat X n := ⟨fin n⟩
/-- decimal literal. -/
instance : OfScientific X := ⟨fun m s e => fin (OfScientific.ofScientific m s e)⟩
instance : Inhabited X := ⟨nan⟩

/-- `a + b` -/
protected def add : X → X → X
  | fin a, fin b => fin (a + b)
  | nan, _ => nan
  | _, nan => nan
  | pinf, ninf => nan
  | ninf, pinf => nan
  | pinf, _ => pinf
  | _, pinf => pinf
  | ninf, _ => ninf
  | _, ninf => ninf

/-- `-a` -/
protected def neg : X → X
  | nan => nan
  | pinf => ninf
  | ninf => pinf
  | fin a => fin (-a)

/-- infinity with the sign of `r` (NaN when `r = 0`): the value of `inf * r`. -/
def infTimes (r : ℝ) : X := if 0 < r then pinf else if r < 0 then ninf else nan

/-- `a * b` -/
protected def mul : X → X → X
  | fin a, fin b => fin (a * b)
  | nan, _ => nan
  | _, nan => nan
  | pinf, fin b => infTimes b
  | fin a, pinf => infTimes a
  | ninf, fin b => infTimes (-b)
  | fin a, ninf => infTimes (-a)
  | pinf, pinf => pinf
  | pinf, ninf => ninf
  | ninf, pinf => ninf
  | ninf, ninf => pinf

/-- `a / b`; division by (positive) zero gives an infinity, `0/0` NaN. -/
protected def div : X → X → X
  | fin a, fin b => if b = 0 then infTimes a else fin (a / b)
  | nan, _ => nan
  | _, nan => nan
  | fin _, pinf => fin 0
  | fin _, ninf => fin 0
  | pinf, fin b => if 0 ≤ b then pinf else ninf
  | ninf, fin b => if 0 ≤ b then ninf else pinf
  | pinf, pinf => nan
  | pinf, ninf => nan
  | ninf, pinf => nan
  | ninf, ninf => nan

instance : Add X := ⟨X.add⟩
instance : Neg X := ⟨X.neg⟩
instance : Sub X := ⟨fun a b => X.add a (X.neg b)⟩
instance : Mul X := ⟨X.mul⟩
instance : Div X := ⟨X.div⟩

/-- `a < b` (false as soon as one side is NaN). -/
protected def Lt : X → X → Prop
  | fin a, fin b => a < b
  | ninf, fin _ => True
  | ninf, pinf => True
  | fin _, pinf => True
  | _, _ => False

/-- `a <= b` (false as soon as one side is NaN). -/
protected def Le : X → X → Prop
  | fin a, fin b => a ≤ b
  | ninf, fin _ => True
  | ninf, pinf => True
  | fin _, pinf => True
  | pinf, pinf => True
  | ninf, ninf => True
  | _, _ => False

instance : LT X := ⟨X.Lt⟩
instance : LE X := ⟨X.Le⟩

/-- C++ `a == b` on doubles (NaN differs from everything). -/
def Feq : X → X → Prop
  | fin a, fin b => a = b
  | pinf, pinf => True
  | ninf, ninf => True
  | _, _ => False

/-- `std::sqrt` -/
def sqrt : X → X
  | nan => nan
  | pinf => pinf
  | ninf => nan
  | fin r => if r < 0 then nan else fin (Real.sqrt r)

/-- `std::pow` for a finite exponent `p` (the only use in the code). -/
def pow (a : X) (p : ℝ) : X :=
  if p = 0 then fin 1 else
  match a with
  | nan => nan
  | pinf => if 0 < p then pinf else fin 0
  | ninf =>
      if 0 < p then (if ∃ k : ℤ, p = k ∧ k % 2 = 1 then ninf else pinf) else fin 0
  | fin r =>
      if 0 < r then fin (r ^ p)
      else if r = 0 then (if 0 < p then fin 0 else pinf)
      else if ∃ k : ℤ, p = k then fin (r ^ p) else nan

/-- conversion `int m = d;`: truncation toward zero; `none` = undefined behaviour
(NaN, infinities, value outside the range of a 32-bit `int`). -/
def toInt : X → Option ℤ
  | fin r =>
      let k : ℤ := if 0 ≤ r then ⌊r⌋ else ⌈r⌉
      if -2147483648 ≤ k ∧ k ≤ 2147483647 then some k else none
  | _ => none

/-- conversion from `int`. -/
def ofInt (k : ℤ) : X := fin k

/-- finite value. -/
def IsFin (a : X) : Prop := ∃ r, a = fin r

/-- `#define ABS(a) (((a) >= (0.0)) ? (a) : (-a))` applied to a *single identifier
or call* (Radau5cc.hpp 17, Rodascc.hpp 16, Hessenberg.hpp 7, ToolOMP.hpp 6). -/
def ABS (a : X) : X := if (0 : X) ≤ a then a else -a

/-- the same macro applied to the expression `b-a`: the expansion of the negative
branch is `-b-a` because the macro argument is not parenthesised. -/
def ABSsub (b a : X) : X := if (0 : X) ≤ b - a then b - a else -b - a

/-- `#define MAX(x,y) ((x)>(y)?(x):(y))` -/
def MAX (x y : X) : X := if y < x then x else y
/-- `#define MIN(x,y) ((x)<(y)?(x):(y))` -/
def MIN (x y : X) : X := if x < y then x else y
/-- `#define SIGN(a) (((a) >= (0.0)) ? (1.) : (-1.))` -/
def SIGN (a : X) : X := if (0 : X) ≤ a then 1 else -1
/-- `std::min(a,b)` = `(b<a)?b:a` -/
def stdMin (a b : X) : X := if b < a then b else a
/-- `std::max(a,b)` = `(a<b)?b:a` -/
def stdMax (a b : X) : X := if a < b then b else a

end

end X

end Odes
