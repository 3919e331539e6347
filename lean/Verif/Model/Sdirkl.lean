import Verif.Model.Machine
import Mathlib.Algebra.Field.Basic
import Mathlib.LinearAlgebra.Matrix.NonsingularInverse
import Mathlib.Data.Real.Basic

/-!
# SDIRKL: singly diagonally implicit Runge-Kutta methods for linear problems

Model of SDIRKL/include/Sdirkl.hpp and of the method classes of SDIRKL/include.  Scalars are the
elements of a field (exact arithmetic).  Arrays of `n` numbers are vectors, designated by numbers:
`Zi[i] = z+i*n` is array `i`, `Work = z+n*nstage` is array `nstage`, `Work1 = Work+n` (affine
case only) is array `nstage+1`; the user's arrays are other ones.
-/

namespace Odes.Sdirkl

variable {α : Type} [Field α] [DecidableEq α] {n : ℕ}

/-- a method class (RKMethod1.hpp 9-14 and the others): number of stages, coefficients
`A[i][j]`, `j ≤ i`, row sums `S`, final weights `D`. -/
structure Meth (α : Type) where
  nstage : ℕ
  A : ℕ → ℕ → α
  S : ℕ → α
  D : ℕ → α

/-- the constant part of an object, after the constructor (Sdirkl.hpp 113-133): method, time
step, mode, and the user's operator after `Op.init(n,dt*diag)`. -/
structure Obj (α : Type) (n : ℕ) where
  rk : Meth α
  dt : α
  affine : Bool
  /-- `Op.apply(RHS,X)`: the new contents of `X` -/
  apply : (Fin n → α) → Fin n → α

/-- contents of the arrays. -/
abbrev Heap (α : Type) (n : ℕ) := ℕ → Fin n → α

/-- `a[i]=x`. -/
def upd {β : Type} (f : ℕ → β) (i : ℕ) (x : β) : ℕ → β := fun j => if j = i then x else f j

namespace Obj

/-- Sdirkl.hpp 126. -/
def diag (o : Obj α n) : α := o.rk.A 0 0
/-- Sdirkl.hpp 128-131. -/
def AD (o : Obj α n) (i j : ℕ) : α := o.rk.A i j / o.diag
/-- Sdirkl.hpp 124. -/
def work (o : Obj α n) : ℕ := o.rk.nstage
/-- Sdirkl.hpp 125. -/
def work1 (o : Obj α n) : ℕ := o.rk.nstage + 1

end Obj

/-- `cl`, Sdirkl.hpp 43-53. -/
def cl (nv : ℕ) (c : ℕ → α) (v : ℕ → Fin n → α) : Fin n → α := fun i =>
  (List.range' 1 (nv - 1)).foldl (fun out j => out + v j i * c j) (c 0 * v 0 i)

/-- `pluscl`, Sdirkl.hpp 59-65. -/
def pluscl (nv : ℕ) (c : ℕ → α) (v : ℕ → Fin n → α) (out : Fin n → α) : Fin n → α := fun i =>
  (List.range nv).foldl (fun out j => out + c j * v j i) (out i)

/-- `plusa`, Sdirkl.hpp 71-76. -/
def plusa (a : α) (b c : Fin n → α) : Fin n → α := fun i => a * b i + c i

/-- `minus`, Sdirkl.hpp 80-85. -/
def minus (z b : Fin n → α) : Fin n → α := fun i => z i - b i

/-- `doNew`, Sdirkl.hpp 97-107: `dloc`, `Zused` (numbers of arrays) and the return value. -/
def doNew (o : Obj α n) : (ℕ → α) × (ℕ → ℕ) × ℕ :=
  (List.range o.rk.nstage).foldl
    (fun (s : (ℕ → α) × (ℕ → ℕ) × ℕ) i =>
      if o.rk.D i ≠ 0 then (upd s.1 s.2.2 (o.rk.D i), upd s.2.1 s.2.2 i, s.2.2 + 1) else s)
    (fun _ => 0, fun _ => 0, 0)

/-- variables of a stage loop: arrays, `aloc`, `Zcomb`. -/
structure St (α : Type) (n : ℕ) where
  hp : Heap α n
  aloc : ℕ → α
  zcomb : ℕ → ℕ

/-- Sdirkl.hpp 148-154 (172-178): the coefficients and the addresses. -/
def coefs (o : Obj α n) (s : St α n) (stage : ℕ) : St α n :=
  (List.range stage).foldl
    (fun s j => { s with aloc := upd s.aloc (j + 1) (o.AD stage j), zcomb := upd s.zcomb (j + 1) j })
    { s with aloc := upd s.aloc 0 (o.rk.S stage / o.diag) }

/-- body of the loop of `step(inout)`, Sdirkl.hpp 147-158. -/
def stage1 (o : Obj α n) (s : St α n) (stage : ℕ) : St α n :=
  let s := coefs o s stage
  let s := { s with hp := upd s.hp o.work (cl (stage + 1) s.aloc fun j => s.hp (s.zcomb j)) }
  let s := { s with hp := upd s.hp stage (o.apply (s.hp o.work)) }
  { s with hp := upd s.hp stage (minus (s.hp stage) (s.hp o.work)) }

/-- body of the loop of `step(inout,phi)`, Sdirkl.hpp 171-184. -/
def stage2 (o : Obj α n) (phi : ℕ) (s : St α n) (stage : ℕ) : St α n :=
  let s := coefs o s stage
  let s := { s with hp := upd s.hp o.work1 (cl (stage + 1) s.aloc fun j => s.hp (s.zcomb j)) }
  let w := plusa (o.rk.S stage * o.dt) (s.hp phi) (s.hp o.work1)
  let s := { s with hp := upd s.hp o.work w }
  let s := { s with hp := upd s.hp stage (o.apply (s.hp o.work)) }
  { s with hp := upd s.hp stage (minus (s.hp stage) (s.hp o.work1)) }

/-- Sdirkl.hpp 160 (186). -/
def final (o : Obj α n) (hp : Heap α n) (x : ℕ) : Heap α n :=
  let d := doNew o
  upd hp x (pluscl d.2.2 d.1 (fun j => hp (d.2.1 j)) (hp x))

/-- `step(inout)`, Sdirkl.hpp 141-161: `none` is the exception.  `x` is the user's array;
`aloc`, `Zcomb` are what the previous call left. -/
def step1 (o : Obj α n) (s : St α n) (x : ℕ) : Option (St α n) :=
  if o.affine then none
  else
    let s := { s with zcomb := upd s.zcomb 0 x }
    let s := (List.range o.rk.nstage).foldl (stage1 o) s
    some { s with hp := final o s.hp x }

/-- `step(inout,phi)`, Sdirkl.hpp 165-187. -/
def step2 (o : Obj α n) (s : St α n) (x phi : ℕ) : Option (St α n) :=
  if !o.affine then none
  else
    let s := { s with zcomb := upd s.zcomb 0 x }
    let s := (List.range o.rk.nstage).foldl (stage2 o phi) s
    some { s with hp := final o s.hp x }

end Odes.Sdirkl

namespace Odes.Sdirkl

/-! ### the method classes, as real numbers (the decimal literals of the source) -/

noncomputable section

/-- RKMethod1.hpp 18-49. -/
def rkMethod1 : Meth ℝ where
  nstage := 5
  A := fun i j => match i, j with
    | 0, 0 => 0.250000000000000
    | 1, 0 => 0.500000000000000
    | 1, 1 => 0.250000000000000
    | 2, 0 => 0.340000000000000
    | 2, 1 => -0.0400000000000000
    | 2, 2 => 0.250000000000000
    | 3, 0 => 0.272794117647059
    | 3, 1 => -0.0503676470588235
    | 3, 2 => 0.0275735294117647
    | 3, 3 => 0.250000000000000
    | 4, 0 => 1.04166666666667
    | 4, 1 => -1.02083333333333
    | 4, 2 => 7.81250000000000
    | 4, 3 => -7.08333333333333
    | 4, 4 => 0.250000000000000
    | _, _ => 0
  S := fun i => match i with
    | 0 => 0.250000000000000
    | 1 => 0.750000000000000
    | 2 => 0.550000000000000
    | 3 => 0.500000000000000
    | 4 => 1.00000000000000
    | _ => 0
  D := fun i => match i with
    | 4 => 1
    | _ => 0

/-- RKMethod2.hpp 17-37. -/
def rkMethod2 : Meth ℝ where
  nstage := 3
  A := fun i j => match i, j with
    | 0, 0 => 1.06857902130163
    | 1, 0 => -0.568579021301629
    | 1, 1 => 1.06857902130163
    | 2, 0 => 2.13715804260326
    | 2, 1 => -3.27431608520651
    | 2, 2 => 1.06857902130163
    | _, _ => 0
  S := fun i => match i with
    | 0 => 1.06857902130163
    | 1 => 0.500000000000000
    | 2 => -0.0685790213016287
    | _ => 0
  D := fun i => match i with
    | 0 => 0.445622407287714
    | 1 => 1.06417777247591
    | 2 => 0.120614758428183
    | _ => 0

/-- RKRS.hpp 17-31. -/
def rkRS : Meth ℝ where
  nstage := 2
  A := fun i j => match i, j with
    | 0, 0 => 1.70710678118655
    | 1, 0 => -2.41421356237309
    | 1, 1 => 1.70710678118655
    | _, _ => 0
  S := fun i => match i with
    | 0 => 1.70710678118655
    | 1 => -0.707106781186548
    | _ => 0
  D := fun i => match i with
    | 0 => 0.707106781186547
    | 1 => 0.292893218813452
    | _ => 0

/-- EulerImp.hpp 15-21. -/
def eulerImp : Meth ℝ where
  nstage := 1
  A := fun _ _ => 1
  S := fun _ => 1
  D := fun _ => 1

/-- CrN.hpp 15-21. -/
def crN : Meth ℝ where
  nstage := 1
  A := fun _ _ => 0.5
  S := fun _ => 0.5
  D := fun _ => 1

end

end Odes.Sdirkl
