import Verif.Model.Mem

/-!
# Symplectic Runge-Kutta methods

Model of SymplecticRK/include: SymplecticRK.hpp, GaussianMethod.hpp, Extrap.hpp, Ftest.hpp,
icoeffs.hpp, extrapcoeffs.hpp.

The scalar type (template parameter `Double`) is any type with the operations used; its comparisons are
those of the type and may be false for a NaN.  Vectors with `n` elements (`u, v, delta, e, a`) are
functions on `Fin n`; the loops on all their components are written as pointwise definitions.  The
arrays `Y`, `Y1` and the arrays of coefficients are buffers with a size: `none` is an access out of
bounds.  The user's function is deterministic and has no state.  The two conversions of `Ftest` to
`long double` and back are not modelled.
-/

namespace Odes.Symp

open Odes.Mem

variable {α : Type} [Add α] [Sub α] [Mul α] [Zero α] [One α] [LE α] {n : ℕ}

/-- template parameters, tables of coefficients and the user's function. -/
structure Cfg (α : Type) (n : ℕ) where
  /-- `nsteps` -/
  s : ℕ
  itermax : ℤ
  f : (Fin n → α) → Fin n → α
  /-- `la`, `lb` of `icoeffs<nsteps,Double>` -/
  la : List α
  lb : List α
  /-- `lc` of `extrapcoeffs<nsteps,Double>` -/
  lc : List α
  /-- `a==b` of the scalar type -/
  eq : α → α → Prop
  /-- conversion `Double` to `double` (identity when `Double` is `double`) -/
  narrow : α → α
  /-- first half of `Ftest::success`: `v<=t`, or `v<t` for `long double` (Ftest.hpp 35, 56) -/
  small : α → Prop
  /-- `1.e+40` -/
  big : α

/-- members of `SymplecticRK`, SymplecticRK.hpp 20-27; `calls` (ghost) counts the evaluations of the
user's function. -/
structure St (α : Type) (n : ℕ) where
  v : Fin n → α
  Y : Buf α
  Y1 : Buf α
  delta : Fin n → α
  e : Fin n → α
  a : Fin n → α
  iter : ℤ
  oldH : α
  /-- `G.a`, `G.b` -/
  ga : Buf α
  gb : Buf α
  /-- `Ext.q` -/
  q : Buf α
  /-- `Test.v`, `Test.vold` -/
  tv : α
  tvold : α
  calls : ℕ

/-- `n` consecutive elements from position `off` on: a loop `x[l]=b[off+l]`. -/
def rdN (b : Buf α) (off : ℤ) : Option (Fin n → α) :=
  if 0 ≤ off ∧ off + n ≤ b.size then some fun l => b.cell (off + l) else none

/-- a loop `b[off+l]=x[l]`. -/
def wrN (b : Buf α) (off : ℤ) (x : Fin n → α) : Option (Buf α) :=
  if 0 ≤ off ∧ off + n ≤ b.size then
    some { b with cell := fun k =>
      if h : 0 ≤ k - off ∧ k - off < n then x ⟨(k - off).toNat, by omega⟩ else b.cell k }
  else none

/-- `copy(l.begin(),l.end(),b)`. -/
def copyL (l : List α) (b : Buf α) : Option (Buf α) :=
  if (l.length : ℤ) ≤ b.size then
    some { b with cell := fun k => if 0 ≤ k ∧ k < l.length then l.getD k.toNat 0 else b.cell k }
  else none

/-- `for(int i=0;i<m;i++) b[i]*=h`. -/
def scale (m : ℤ) (h : α) (b : Buf α) : Option (Buf α) :=
  forUp 0 (m - 1) (fun i b => (b.rd i).bind fun x => b.wr i (x * h)) b

/-- exceptions of this part. -/
inductive Exn where
  | nsteps
  deriving DecidableEq

/-- constructor: members `Ext` (Extrap.hpp 19-23), `G` (GaussianMethod.hpp 25-29), `Test` (Ftest.hpp
22-27), then SymplecticRK.hpp 32-39.  The unspecialized templates `extrapcoeffs`, `icoeffs` throw
(extrapcoeffs.hpp 7-13, icoeffs.hpp 7-14); the specializations are for `nsteps` from 2 to 16.
`junk` is what the uninitialized members contain. -/
def construct (c : Cfg α n) (junk : St α n) : Option (Except Exn (St α n)) :=
  if ¬ (2 ≤ c.s ∧ c.s ≤ 16) then some (.error .nsteps)
  else
    (copyL c.lc ⟨c.s * c.s, junk.q.cell⟩).bind fun q =>
    (copyL c.la ⟨c.s * c.s, junk.ga.cell⟩).bind fun ga =>
    (copyL c.lb ⟨c.s, junk.gb.cell⟩).bind fun gb =>
    some (.ok { junk with
      Y := ⟨n * c.s, junk.Y.cell⟩, Y1 := ⟨n * c.s, junk.Y1.cell⟩
      q := q, ga := ga, gb := gb, tv := 0, tvold := c.big
      e := fun _ => 0, oldH := 1, calls := 0 })

/-- `G.change_h(h)`, GaussianMethod.hpp 32-39 and 79-87; the parameter is a `double`. -/
def gChange (c : Cfg α n) (h : α) (st : St α n) : Option (St α n) :=
  (copyL c.la st.ga).bind fun ga =>
  (copyL c.lb st.gb).bind fun gb =>
  (scale (c.s * c.s) (c.narrow h) ga).bind fun ga =>
  (scale c.s (c.narrow h) gb).map fun gb => { st with ga := ga, gb := gb }

/-- `Ext.change_h(h)`, Extrap.hpp 28-35; the parameter is a `double`. -/
def eChange (c : Cfg α n) (h : α) (st : St α n) : Option (St α n) :=
  (copyL c.lc st.q).bind fun q =>
  (scale (c.s * c.s) (c.narrow h) q).map fun q => { st with q := q }

/-- `Ext(Y1,Y,u)`, Extrap.hpp 40-54. -/
def ext (c : Cfg α n) (u : Fin n → α) (st : St α n) : Option (St α n) :=
  forUp 0 (c.s - 1) (fun i st =>
    (wrN st.Y (c.s * i) u).bind fun Y =>
    forUp 0 (c.s - 1) (fun j (st : St α n) =>
      (st.q.rd (c.s * i + j)).bind fun b =>
      let beta := c.narrow b
      (rdN (n := n) st.Y1 (c.s * j)).bind fun F =>
      (rdN (n := n) st.Y (c.s * i)).bind fun y =>
      (wrN st.Y (c.s * i) fun l => y l + beta * F l).map fun Y => { st with Y := Y })
      { st with Y := Y }) st

/-- SymplecticRK.hpp 67-70: all stages start at `u`. -/
def startAt (c : Cfg α n) (u : Fin n → α) (st : St α n) : Option (St α n) :=
  forUp 0 (c.s - 1) (fun i st => (wrN st.Y (i * n) u).map fun Y => { st with Y := Y }) st

/-- SymplecticRK.hpp 80-88: `Y1` receives the values of the function. -/
def evals (c : Cfg α n) (st : St α n) : Option (St α n) :=
  forUp 0 (c.s - 1) (fun i st =>
    (rdN (n := n) st.Y (i * n)).bind fun v =>
    (wrN st.Y1 (i * n) (c.f v)).map fun Y1 => { st with v := v, Y1 := Y1, calls := st.calls + 1 }) st

/-- SymplecticRK.hpp 100-103. -/
def combine (c : Cfg α n) (i : ℤ) (st : St α n) : Option (St α n) :=
  forUp 0 (c.s - 1) (fun j (st : St α n) =>
    (st.ga.rd (i * c.s + j)).bind fun aij =>
    (rdN (n := n) st.Y1 (j * n)).map fun k => { st with v := fun l => st.v l + aij * k l }) st

/-- SymplecticRK.hpp 89-116. -/
def update (c : Cfg α n) (u : Fin n → α) (st : St α n) : Option (St α n) :=
  forUp 0 (c.s - 1) (fun i (st : St α n) =>
    (combine c i { st with v := u }).bind fun st =>
    (rdN (n := n) st.Y (i * n)).bind fun Yin =>
    let tv := (List.finRange n).foldl (fun t l => t + (st.v l - Yin l) * (st.v l - Yin l)) st.tv
    (wrN st.Y (i * n) st.v).map fun Y => { st with Y := Y, tv := tv })
    { st with tvold := st.tv, tv := 0 }

/-- `Test.success()`, Ftest.hpp 34-36 and 55-57. -/
def success (c : Cfg α n) (st : St α n) : Prop := c.small st.tv ∧ st.tvold ≤ st.tv

open Classical in
/-- the iteration loop, SymplecticRK.hpp 78-119, with at most `k` iterations left. -/
noncomputable def iterLoop (c : Cfg α n) (u : Fin n → α) : ℕ → St α n → Option (Bool × St α n)
  | 0, st => some (false, st)
  | k + 1, st =>
    (evals c st).bind fun st =>
    (update c u st).bind fun st =>
    if success c st then some (true, st) else iterLoop c u k { st with iter := st.iter + 1 }

/-- SymplecticRK.hpp 125-134. -/
def increment (c : Cfg α n) (st : St α n) : Option (St α n) :=
  forUp 0 (c.s - 1) (fun i (st : St α n) =>
    (st.gb.rd i).bind fun b =>
    let bi := c.narrow b
    (rdN (n := n) st.Y1 (i * n)).map fun k => { st with delta := fun l => st.delta l + bi * k l })
    { st with delta := fun _ => 0 }

/-- SymplecticRK.hpp 135-146: compensated summation; new `u` and members. -/
def compensate (u : Fin n → α) (st : St α n) : (Fin n → α) × St α n :=
  let a := u
  let e := fun l => st.e l + st.delta l
  let u := fun l => a l + e l
  (u, { st with a := a, e := fun l => e l + (a l - u l) })

open Classical in
/-- `step(h,u,firstStep)`, SymplecticRK.hpp 53-149: return value, new `u`, members.  `firstStep` is
only read. -/
noncomputable def step (c : Cfg α n) (h : α) (u : Fin n → α) (first : Bool) (st : St α n) :
    Option (Bool × (Fin n → α) × St α n) :=
  let doExtrap : Prop := first = false ∧ c.eq st.oldH h
  (if ¬ c.eq st.oldH h then (gChange c h { st with oldH := h }).bind (eChange c h)
    else some st).bind fun st =>
  (if doExtrap then ext c u st else startAt c u st).bind fun st =>
  (iterLoop c u c.itermax.toNat { st with iter := 0 }).bind fun r =>
  if r.1 then (increment c r.2).map fun st => (true, compensate u st)
  else some (false, u, r.2)

end Odes.Symp
