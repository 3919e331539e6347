import Mathlib.Logic.Function.Basic
import Mathlib.Tactic.Ring
import Mathlib.Tactic.Linarith

/-!
# Arrays and counted loops

`Buf α` is a C array: a size and its cells.  Reading or writing outside `[0,size)` is undefined
behaviour, the outcome `none`.
-/

namespace Odes.Mem

variable {α σ : Type}

/-- a heap block `new double[size]`; cells outside `[0,size)` do not exist (their value in the
model is never used). -/
structure Buf (α : Type) where
  size : ℤ
  cell : ℤ → α

/-- read `x[i]`; `none` = out of bounds. -/
def Buf.rd (b : Buf α) (i : ℤ) : Option α := if 0 ≤ i ∧ i < b.size then some (b.cell i) else none

/-- write `x[i]=v`; `none` = out of bounds. -/
def Buf.wr (b : Buf α) (i : ℤ) (v : α) : Option (Buf α) :=
  if 0 ≤ i ∧ i < b.size then some { b with cell := Function.update b.cell i v } else none

/-- `k` iterations starting with loop variable `i`, increment 1. -/
def loopUp (body : ℤ → σ → Option σ) : ℕ → ℤ → σ → Option σ
  | 0, _, s => some s
  | k + 1, i, s => (body i s).bind (loopUp body k (i + 1))

/-- `for(int i=lo;i<=hi;i++)` -/
def forUp (lo hi : ℤ) (body : ℤ → σ → Option σ) (s : σ) : Option σ :=
  loopUp body (hi + 1 - lo).toNat lo s

/-- `k` iterations starting with loop variable `i`, decrement 1. -/
def loopDown (body : ℤ → σ → Option σ) : ℕ → ℤ → σ → Option σ
  | 0, _, s => some s
  | k + 1, i, s => (body i s).bind (loopDown body k (i - 1))

/-- `for(int i=hi;i>=lo;i--)` -/
def forDown (hi lo : ℤ) (body : ℤ → σ → Option σ) (s : σ) : Option σ :=
  loopDown body (hi + 1 - lo).toNat hi s

end Odes.Mem
