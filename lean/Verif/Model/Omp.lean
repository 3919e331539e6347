import Verif.Model.Rock4

/-!
# `#pragma omp parallel for` in ToolOMP.hpp

A parallel loop is an arbitrary interleaving of its iterations, each iteration being a
sequence of atomic memory accesses (loads of its operands, then the store).  A schedule is a
list of iteration numbers; each occurrence of `i` performs the next access of iteration `i`
(occurrences after its end do nothing).  OpenMP distributes the iterations over threads and runs
each thread's iterations one after the other: its executions are among these interleavings.
(Formally a data race is undefined behaviour in C++; the interleavings are what the hardware does at
best.)
-/

namespace Odes.Omp

variable {n k : ℕ} {α : Type}

/-- memory, program counter and registers of every iteration. -/
structure St (n k : ℕ) (α : Type) where
  mem : ℕ → Fin n → α
  pc : Fin n → ℕ
  reg : Fin n → Fin k → α

/-- One access of iteration `i` of `for i: dst[i] = f(src_0[i],...,src_{k-1}[i])`
(ToolOMP.hpp 52-56, 68-72, 79-83, 91-95, 103-107, 116-120, 130-134). -/
def access (dst : ℕ) (src : Fin k → ℕ) (f : (Fin k → α) → α) (s : St n k α) (i : Fin n) :
    St n k α :=
  if h : s.pc i < k then
    { s with
      pc := Function.update s.pc i (s.pc i + 1)
      reg := Function.update s.reg i
        (Function.update (s.reg i) ⟨s.pc i, h⟩ (s.mem (src ⟨s.pc i, h⟩) i)) }
  else if s.pc i = k then
    { s with
      pc := Function.update s.pc i (s.pc i + 1)
      mem := Function.update s.mem dst (Function.update (s.mem dst) i (f (s.reg i))) }
  else s

/-- the loop has ended: every iteration is complete. -/
def Done (s : St n k α) : Prop := ∀ i, k < s.pc i

/-- parallel execution following a schedule, registers initially arbitrary. -/
def exec (dst : ℕ) (src : Fin k → ℕ) (f : (Fin k → α) → α) (mem : ℕ → Fin n → α)
    (reg : Fin n → Fin k → α) (sched : List (Fin n)) : St n k α :=
  sched.foldl (access dst src f) ⟨mem, fun _ => 0, reg⟩

/-- state of the loop `ret+=term(i)` (ToolOMP.hpp 145-154): shared accumulator, without
`reduction` clause; `pc i`: 0 = nothing done, 1 = `ret` loaded in a register, 2 = stored. -/
structure Acc (n : ℕ) (α : Type) where
  ret : α
  pc : Fin n → ℕ
  reg : Fin n → α

/-- one access of iteration `i`: load of `ret`, then store of `ret + term i`.  The
computation of the term reads arrays which no iteration writes. -/
def accAccess [Add α] (term : Fin n → α) (s : Acc n α) (i : Fin n) : Acc n α :=
  if s.pc i = 0 then
    { s with pc := Function.update s.pc i 1, reg := Function.update s.reg i s.ret }
  else if s.pc i = 1 then
    { s with pc := Function.update s.pc i 2, ret := s.reg i + term i }
  else s

/-- parallel execution of the accumulation loop. -/
def accExec [Add α] (term : Fin n → α) (r0 : α) (reg : Fin n → α) (sched : List (Fin n)) :
    Acc n α :=
  sched.foldl (accAccess term) ⟨r0, fun _ => 0, reg⟩

end Odes.Omp
