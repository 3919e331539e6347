import Verif.Model.Mem
import Verif.Model.Machine

/-!
# Heap, `fortranVector`, `fortranVectorF<n>`

A heap is a partial map from block names to arrays; `none` = never allocated or already freed.
Using or freeing such a block is undefined behaviour (`none` as the result of the operation).
-/

namespace Odes.Vec

open Odes.Mem

variable {α : Type}


/-- the heap: live blocks and the next fresh name. -/
structure Heap (α : Type) where
  blk : ℕ → Option (Buf α)
  next : ℕ

/-- names not yet handed out are not live. -/
def Heap.Ok (h : Heap α) : Prop := ∀ p, h.next ≤ p → h.blk p = none

/-- `allocDoubleArray`, AllocateDestroyVector.hpp 15-16 and 21; contents arbitrary. -/
def Heap.alloc (h : Heap α) (n : ℤ) (junk : ℤ → α) : Heap α × ℕ :=
  (⟨Function.update h.blk h.next (some ⟨n, junk⟩), h.next + 1⟩, h.next)

/-- `destroyDoubleArray`, AllocateDestroyVector.hpp 17 and 22; `none` = not a live block (double
free). -/
def Heap.free (h : Heap α) (p : ℕ) : Option (Heap α) :=
  (h.blk p).map fun _ => ⟨Function.update h.blk p none, h.next⟩

/-- `p[i]` -/
def Heap.rd (h : Heap α) (p : ℕ) (i : ℤ) : Option α := (h.blk p).bind fun b => b.rd i

/-- `p[i]=v` -/
def Heap.wr (h : Heap α) (p : ℕ) (i : ℤ) (v : α) : Option (Heap α) :=
  (h.blk p).bind fun b => (b.wr i v).map fun b' => ⟨Function.update h.blk p (some b'), h.next⟩

/-- the loop `for(int i=0;i<n;i++) dst[i]=src[i];` -/
def copyLoop (n : ℤ) (dst src : ℕ) (h : Heap α) : Option (Heap α) :=
  forUp 0 (n - 1) (fun i h => (h.rd src i).bind fun v => h.wr dst i v) h

/-! ### fortranVector -/

/-- the fields, fortranVector.hpp 27-29; `x` is `none` for the null pointer. -/
structure FV where
  x : ℕ
  size : ℤ
  deletable : Bool

/-- `fortranVector(int k)`, fortranVector.hpp 39-45. -/
def FV.new (k : ℤ) (junk : ℤ → α) (h : Heap α) : Heap α × FV :=
  ((h.alloc k junk).1, ⟨(h.alloc k junk).2, k, true⟩)

/-- `fortranVector(double *_x,int _size)`, fortranVector.hpp 51-55. -/
def FV.adopt (p : ℕ) (k : ℤ) : FV := ⟨p, k, false⟩

/-- destructor, fortranVector.hpp 57-65. -/
def FV.destroy (v : FV) (h : Heap α) : Option (Heap α) :=
  if v.deletable then h.free v.x else some h

/-- `a=b`, fortranVector.hpp 92-99.  The parameter is passed by value: the implicitly defined copy
constructor copies the three fields, the loop runs, the parameter is destroyed at the end. -/
def FV.assign (a b : FV) (h : Heap α) : Option (Heap α) :=
  let V : FV := b
  (copyLoop a.size a.x V.x h).bind fun h => V.destroy h

/-- `a+=b`, fortranVector.hpp 102-108 (by reference). -/
def FV.addAssign [Add α] (a b : FV) (h : Heap α) : Option (Heap α) :=
  forUp 0 (a.size - 1) (fun i h => (h.rd a.x i).bind fun u => (h.rd b.x i).bind fun v =>
    h.wr a.x i (u + v)) h

/-! ### fortranVectorF<n> -/

/-- the two pointers, fortranVector.hpp 144 and 27 (`deletable` is false, `size` is `n`, 157). -/
structure FVF where
  x : ℕ
  y : ℕ

/-- constructor, fortranVector.hpp 151-158. -/
def FVF.new (n : ℤ) (junk : ℤ → α) (h : Heap α) : Heap α × FVF :=
  ((h.alloc n junk).1, ⟨(h.alloc n junk).2, (h.alloc n junk).2⟩)

/-- destructor, fortranVector.hpp 160-167: frees `y`; the base destructor does nothing. -/
def FVF.destroy (v : FVF) (h : Heap α) : Option (Heap α) := h.free v.y

/-- `u.switchadr(v)`, fortranVector.hpp 170-176: the new (u, v).  For `u` and `v` the same object
see `switchAll`. -/
def FVF.switchadr (u v : FVF) : FVF × FVF := (⟨v.x, v.y⟩, ⟨u.x, u.y⟩)

/-- `put(_x)`, fortranVector.hpp 407-414: `y[i]=x[i]`; the parameter is not used. -/
def FVF.put (n : ℤ) (v : FVF) (_x : ℕ) (h : Heap α) : Option (Heap α) := copyLoop n v.y v.x h

/-- `operator=(double tab[])`, fortranVector.hpp 188-193. -/
def FVF.assignTab (n : ℤ) (v : FVF) (tab : ℕ) (h : Heap α) : Option (Heap α) :=
  copyLoop n v.x tab h

/-- `operator=(fortranVectorF<n>& X)`, fortranVector.hpp 213-219. -/
def FVF.assign (n : ℤ) (v w : FVF) (h : Heap α) : Option (Heap α) := copyLoop n v.x w.y h

/-- implicitly defined copy constructor of `fortranVectorF<n>` (the class, fortranVector.hpp 137-423,
declares none): the pointers are copied.  The same holds for `fortranRectangularArray`,
`fortranComplexArray`, `fortranRectangularComplexArray` (one owned pointer each, no copy constructor
declared), hence for every solver object containing them. -/
def FVF.copy (v : FVF) : FVF := ⟨v.x, v.y⟩

/-- `fortranArray(const fortranArray<n>&)`, fortranArray.hpp 27-33: copies through the member `x`
before it was given a value; `x0` is the indeterminate value of that pointer. -/
def faCopyCtor (n2 : ℤ) (x0 src : ℕ) (h : Heap α) : Option (Heap α) := copyLoop n2 x0 src h

/-- a set of `m` vectors and the operations on them: `vs i` `switchadr` `vs j` (also `i = j`, when
the statements in order give back the same pointers); writing a component (`viaX`: through `x` as in
lines 183, 192, 218, ..., otherwise through `y` as in 209, 227, ...). -/
inductive Op (m : ℕ) (α : Type) where
  | switch (i j : Fin m)
  | write (viaX : Bool) (i : Fin m) (k : ℤ) (v : α)

/-- `vs i` `switchadr` `vs j`, statements 173-175 in order, objects possibly identical. -/
def switchAll {m : ℕ} (vs : Fin m → FVF) (i j : Fin m) : Fin m → FVF :=
  let r := FVF.switchadr (vs i) (vs j)
  Function.update (Function.update vs j r.2) i r.1

/-- one operation -/
def opStep {m : ℕ} (o : Op m α) (s : (Fin m → FVF) × Heap α) :
    Option ((Fin m → FVF) × Heap α) :=
  match o with
  | .switch i j => some (switchAll s.1 i j, s.2)
  | .write viaX i k v =>
    (s.2.wr (if viaX then (s.1 i).x else (s.1 i).y) k v).map fun h => (s.1, h)

/-- a sequence of operations -/
def opRun {m : ℕ} : List (Op m α) → (Fin m → FVF) × Heap α → Option ((Fin m → FVF) × Heap α)
  | [], s => some s
  | o :: l, s => (opStep o s).bind (opRun l)

/-- destroying vectors in the given order -/
def destroyAll {m : ℕ} (vs : Fin m → FVF) : List (Fin m) → Heap α → Option (Heap α)
  | [], h => some h
  | i :: l, h => ((vs i).destroy h).bind (destroyAll vs l)

end Odes.Vec

namespace Odes.Vec

variable {α : Type}

/-- construction of `m` vectors (members of a class are constructed in order). -/
def newAll (n : ℤ) (junk : ℕ → ℤ → α) : ℕ → Heap α → (ℕ → FVF) × Heap α
  | 0, h => (fun _ => ⟨0, 0⟩, h)
  | k + 1, h =>
    let r := newAll n junk k h
    let c := FVF.new n (junk k) r.2
    (Function.update r.1 k c.2, c.1)

end Odes.Vec
