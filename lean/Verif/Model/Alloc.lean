import Mathlib.Data.List.Basic
import Mathlib.Data.Nat.Basic

/-!
# The allocation functions and the work array of `Matrices<true,true>`

Live blocks of the free store with the function which allocated them; releasing with another
function, releasing twice and accessing beyond a block are undefined behaviour (`none`).
-/

namespace Odes.Alloc

/-- the two families of functions used by the library: `new double[]`/`delete[]` and
`_mm_malloc`/`_mm_free`. -/
inductive Kind
  | arr
  | mm
  deriving DecidableEq

/-- free store: next unused name and live blocks with their allocation function and number of
cells. -/
structure Store where
  next : ℕ
  blk : ℕ → Option (Kind × ℕ)

/-- a new block. -/
def alloc (k : Kind) (size : ℕ) (m : Store) : ℕ × Store :=
  (m.next, ⟨m.next + 1, Function.update m.blk m.next (some (k, size))⟩)

/-- release of a block. -/
def release (k : Kind) (p : ℕ) (m : Store) : Option Store :=
  match m.blk p with
  | some (k', _) => if k' = k then some { m with blk := Function.update m.blk p none } else none
  | none => none

/-- access to the cells `0..c-1` of a block. -/
def access (p c : ℕ) (m : Store) : Option Unit :=
  match m.blk p with
  | some (_, size) => if c ≤ size then some () else none
  | none => none

/-- the function used by `allocDoubleArray` and `destroyDoubleArray`,
common/include/AllocateDestroyVector.hpp 8-24; the argument tells whether `ALIGN_BLOCKED` is
defined. -/
def dflt (aligned : Bool) : Kind := if aligned then .mm else .arr

/-- members `work` and `lwork`, common/include/Matrices.hpp 221. -/
structure Work where
  work : ℕ
  lwork : ℕ

/-- constructor of `Matrices<true,true,n>`, Matrices.hpp 229-234 (the other members are released by
their own destructors: Model/Vec). -/
def ctor (aligned : Bool) (n : ℕ) (m : Store) : Work × Store :=
  let a := alloc (dflt aligned) n m
  (⟨a.1, n⟩, a.2)

/-- `decomr` with `calhes` set, Matrices.hpp 241-259: `k` is the optimum returned by the size query
of `dgehrd`, which writes `work[0]`; `dgehrd` itself uses `k` cells. -/
def reduce (k : ℕ) (s : Work × Store) : Option (Work × Store) :=
  (access s.1.work 1 s.2).bind fun _ =>
  (if s.1.lwork < k then
    (release .arr s.1.work s.2).bind fun m =>
      let a := alloc .arr k m
      some ((⟨a.1, k⟩ : Work), a.2)
  else some s).bind fun s' =>
  (access s'.1.work k s'.2).bind fun _ => some s'

/-- all reductions of the life of an object. -/
def reduces : List ℕ → Work × Store → Option (Work × Store)
  | [], s => some s
  | k :: ks, s => (reduce k s).bind (reduces ks)

/-- life of an object: constructor, reductions with the optimum sizes `ks`, destructor
(Matrices.hpp 235-239). -/
def life (aligned : Bool) (n : ℕ) (ks : List ℕ) (m : Store) : Option Store :=
  (reduces ks (ctor aligned n m)).bind fun s => release (dflt aligned) s.1.work s.2

/-- release of several blocks in turn. -/
def releases (k : Kind) : List ℕ → Store → Option Store
  | [], m => some m
  | p :: ps, m => (release k p m).bind (releases k ps)

/-- address in bytes of the cell `i` of an array of doubles at the address `a`. -/
def cell (a i : ℕ) : ℕ := a + 8 * i

/-- the assumption of `ASSUME_ALIGNED`, AllocateDestroyVector.hpp 19 and MacrosForCompilers.hpp 8: a multiple
of 64 bytes. -/
def Aligned (a : ℕ) : Prop := 64 ∣ a

/-- `sizesplit`, Rock4-L/include/Rock4L.hpp 247-248, as C++ reads it: `size/bk+size%bk==0` is the
condition. -/
def sizesplit (size : ℕ) : ℕ := 64 * (if size / 8 + size % 8 = 0 then 0 else 1)

end Odes.Alloc
