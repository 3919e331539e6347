import Verif.Model.Mem
import Verif.Model.Machine
import Mathlib.Algebra.Order.Field.Basic
import Mathlib.Data.Real.Basic

/-!
# Hessenberg.hpp: `dech`, `solh`, `dechc`, `solhc`, `householder`

Matrices are functions of the one-based index pair, vectors functions of the one-based index; an
access outside `[1,n]` is undefined behaviour (`none`).  That such a matrix is faithfully stored in
the `n*n` buffer is C02.  The arithmetic of `dech` and `solh` is that of any type `K` with the operations
used (an ordered field for the exact results, a floating point type for C111); that of the complex
versions and of `householder` is exact.
-/

namespace Odes.Hess

open Odes.Mem

variable {K σ : Type}

/-- `A(i,j)` -/
def get (n : ℤ) (A : ℤ → ℤ → K) (i j : ℤ) : Option K :=
  if (1 ≤ i ∧ i ≤ n) ∧ 1 ≤ j ∧ j ≤ n then some (A i j) else none

/-- `A(i,j)=v` -/
def set (n : ℤ) (A : ℤ → ℤ → K) (i j : ℤ) (v : K) : Option (ℤ → ℤ → K) :=
  if (1 ≤ i ∧ i ≤ n) ∧ 1 ≤ j ∧ j ≤ n then
    some fun i' j' => if i' = i ∧ j' = j then v else A i' j' else none

/-- `B(i)` for a `fortranVector` of size `n`. -/
def vget (n : ℤ) (B : ℤ → K) (i : ℤ) : Option K := if 1 ≤ i ∧ i ≤ n then some (B i) else none

/-- `B(i)=v` -/
def vset (n : ℤ) (B : ℤ → K) (i : ℤ) (v : K) : Option (ℤ → K) :=
  if 1 ≤ i ∧ i ≤ n then some (Function.update B i v) else none

/-- `ip[k]` for an array of `n` ints. -/
def iget (n : ℤ) (ip : ℤ → ℤ) (k : ℤ) : Option ℤ := if 0 ≤ k ∧ k < n then some (ip k) else none

/-- `ip[k]=m` -/
def iset (n : ℤ) (ip : ℤ → ℤ) (k m : ℤ) : Option (ℤ → ℤ) :=
  if 0 ≤ k ∧ k < n then some (Function.update ip k m) else none

/-- `k` iterations of a loop with `break`: the body returns `true` to leave the loop. -/
def loopBrk (body : ℤ → σ → Option (Bool × σ)) : ℕ → ℤ → σ → Option σ
  | 0, _, s => some s
  | k + 1, i, s => (body i s).bind fun r => if r.1 then some r.2 else loopBrk body k (i + 1) r.2

/-- `for(int i=lo;i<=hi;i++)` with `break` -/
def forBrk (lo hi : ℤ) (body : ℤ → σ → Option (Bool × σ)) (s : σ) : Option σ :=
  loopBrk body (hi + 1 - lo).toNat lo s

/-- the variables of `dech` that live through the loop. -/
structure St (K : Type) where
  A : ℤ → ℤ → K
  ip : ℤ → ℤ
  ret : ℤ

section real

variable [Zero K] [One K] [Add K] [Neg K] [Mul K] [Div K] [LE K] [LT K]
  [DecidableEq K] [DecidableLE K] [DecidableLT K]

/-- the macro `ABS`, Hessenberg.hpp 7 (here always applied to a single operand). -/
def ABS (a : K) : K := if a ≥ 0 then a else -a

/-- one iteration of the loop of `dech`, Hessenberg.hpp 33-63. -/
def dechBody (n k : ℤ) (s : St K) : Option (Bool × St K) :=
  let kp1 := k + 1
  let na := min n (1 + k)
  (forUp kp1 na (fun i m => (get n s.A i k).bind fun a => (get n s.A m k).bind fun b =>
    some (if ABS a > ABS b then i else m)) k).bind fun m =>
  (iset n s.ip (k - 1) m).bind fun ip =>
  (get n s.A m k).bind fun t =>
  (if m ≠ k then
    (iget n ip (n - 1)).bind fun q => (iset n ip (n - 1) (-q)).bind fun ip =>
    (get n s.A k k).bind fun a => (set n s.A m k a).bind fun A =>
    (set n A k k t).bind fun A => some (A, ip)
   else some (s.A, ip)).bind fun (r : (ℤ → ℤ → K) × (ℤ → ℤ)) =>
  if t = 0 then some (true, ⟨r.1, r.2, k⟩) else
  let t := -1 / t
  (forUp kp1 na (fun i A => (get n A i k).bind fun a => set n A i k (a * t)) r.1).bind fun A =>
  (forUp kp1 n (fun j A =>
    (get n A m j).bind fun t => (get n A k j).bind fun a => (set n A m j a).bind fun A =>
    (set n A k j t).bind fun A =>
    if t ≠ 0 then
      forUp kp1 na (fun i A => (get n A i j).bind fun u => (get n A i k).bind fun v =>
        set n A i j (u + v * t)) A
    else some A) A).bind fun A =>
  some (false, ⟨A, r.2, s.ret⟩)

/-- `dech`, Hessenberg.hpp 25-67. -/
def dech (n : ℤ) (A : ℤ → ℤ → K) (ip : ℤ → ℤ) : Option (St K) :=
  (iset n ip (n - 1) 1).bind fun ip =>
  (if n ≠ 1 then forBrk 1 (n - 1) (dechBody n) ⟨A, ip, 0⟩ else some ⟨A, ip, 0⟩).bind fun s =>
  (get n s.A n n).bind fun a =>
  some (if a = 0 then ⟨s.A, s.ip, n⟩ else s)

/-- forward loop of `solh`, Hessenberg.hpp 84-91. -/
def solhFwd (n : ℤ) (A : ℤ → ℤ → K) (ip : ℤ → ℤ) (k : ℤ) (B : ℤ → K) : Option (ℤ → K) :=
  let kp1 := k + 1
  (iget n ip (k - 1)).bind fun M =>
  (vget n B M).bind fun t => (vget n B k).bind fun b => (vset n B M b).bind fun B =>
  (vset n B k t).bind fun B =>
  let na := min n (k + 1)
  forUp kp1 na (fun i B => (vget n B i).bind fun u => (get n A i k).bind fun v =>
    vset n B i (u + v * t)) B

/-- backward loop of `solh`, Hessenberg.hpp 95-100. -/
def solhBwd (n : ℤ) (A : ℤ → ℤ → K) (kb : ℤ) (B : ℤ → K) : Option (ℤ → K) :=
  let km1 := n - kb
  let k := km1 + 1
  (vget n B k).bind fun b => (get n A k k).bind fun a => (vset n B k (b / a)).bind fun B =>
  (vget n B k).bind fun b =>
  let t := -b
  forUp 1 km1 (fun i B => (vget n B i).bind fun u => (get n A i k).bind fun v =>
    vset n B i (u + v * t)) B

/-- `solh`, Hessenberg.hpp 77-104. -/
def solh (n : ℤ) (A : ℤ → ℤ → K) (ip : ℤ → ℤ) (B : ℤ → K) : Option (ℤ → K) :=
  (if n ≠ 1 then
    (forUp 1 (n - 1) (solhFwd n A ip) B).bind fun B => forUp 1 (n - 1) (solhBwd n A) B
   else some B).bind fun B =>
  (vget n B 1).bind fun b => (get n A 1 1).bind fun a => vset n B 1 (b / a)

end real

/-! ### complex versions -/

/-- the variables of `dechc`; `hit` is a ghost: the branch at lines 167-172 was executed with a
multiplier whose real part is not 0. -/
structure StC where
  Ar : ℤ → ℤ → ℝ
  Ai : ℤ → ℤ → ℝ
  ip : ℤ → ℤ
  ret : ℤ
  hit : Bool

open Classical in
/-- one iteration of the loop of `dechc`, Hessenberg.hpp 129-181. -/
noncomputable def dechcBody (n k : ℤ) (s : StC) : Option (Bool × StC) :=
  let kp1 := k + 1
  let na := min n (1 + k)
  (forUp kp1 na (fun i m =>
    (get n s.Ar i k).bind fun a => (get n s.Ai i k).bind fun b =>
    (get n s.Ar m k).bind fun c => (get n s.Ai m k).bind fun d =>
    some (if ABS a + ABS b > ABS c + ABS d then i else m)) k).bind fun m =>
  (iset n s.ip (k - 1) m).bind fun ip =>
  (get n s.Ar m k).bind fun tr => (get n s.Ai m k).bind fun ti =>
  (if m ≠ k then
    (iget n ip (n - 1)).bind fun q => (iset n ip (n - 1) (-q)).bind fun ip =>
    (get n s.Ar k k).bind fun a => (set n s.Ar m k a).bind fun Ar =>
    (get n s.Ai k k).bind fun b => (set n s.Ai m k b).bind fun Ai =>
    (set n Ar k k tr).bind fun Ar => (set n Ai k k ti).bind fun Ai => some (Ar, Ai, ip)
   else some (s.Ar, s.Ai, ip)).bind fun (r : (ℤ → ℤ → ℝ) × (ℤ → ℤ → ℝ) × (ℤ → ℤ)) =>
  if ABS tr + ABS ti = 0 then some (true, ⟨r.1, r.2.1, r.2.2, k, s.hit⟩) else
  let den := tr * tr + ti * ti
  let tr := tr / den
  let ti := ti / (-den)
  (forUp kp1 na (fun i (p : (ℤ → ℤ → ℝ) × (ℤ → ℤ → ℝ)) =>
    (get n p.1 i k).bind fun a => (get n p.2 i k).bind fun b =>
    let prodr := a * tr - b * ti
    let prodi := b * tr + a * ti
    (set n p.1 i k (-prodr)).bind fun Ar => (set n p.2 i k (-prodi)).bind fun Ai => some (Ar, Ai))
    (r.1, r.2.1)).bind fun p =>
  (forUp kp1 n (fun j (p : (ℤ → ℤ → ℝ) × (ℤ → ℤ → ℝ) × Bool) =>
    (get n p.1 m j).bind fun tr => (get n p.2.1 m j).bind fun ti =>
    (get n p.1 k j).bind fun a => (set n p.1 m j a).bind fun Ar =>
    (get n p.2.1 k j).bind fun b => (set n p.2.1 m j b).bind fun Ai =>
    (set n Ar k j tr).bind fun Ar => (set n Ai k j ti).bind fun Ai =>
    if ABS tr + ABS ti ≠ 0 then
      forUp kp1 na (fun i (p : (ℤ → ℤ → ℝ) × (ℤ → ℤ → ℝ) × Bool) =>
        (get n p.1 i k).bind fun a => (get n p.2.1 i k).bind fun b =>
        (get n p.1 i j).bind fun u => (get n p.2.1 i j).bind fun v =>
        let prodr := if ti = 0 then a * tr else if tr = 0 then -b * ti else a * tr - b * ti
        let prodi := if ti = 0 then b * tr else if tr = 0 then a * tr else b * tr + a * ti
        (set n p.1 i j (u + prodr)).bind fun Ar => (set n p.2.1 i j (v + prodi)).bind fun Ai =>
        some (Ar, Ai, p.2.2 || decide (ti ≠ 0 ∧ tr = 0 ∧ a ≠ 0))) (Ar, Ai, p.2.2)
    else some (Ar, Ai, p.2.2)) (p.1, p.2, s.hit)).bind fun p =>
  some (false, ⟨p.1, p.2.1, r.2.2, s.ret, p.2.2⟩)

open Classical in
/-- `dechc`, Hessenberg.hpp 121-185. -/
noncomputable def dechc (n : ℤ) (Ar Ai : ℤ → ℤ → ℝ) (ip : ℤ → ℤ) : Option StC :=
  (iset n ip (n - 1) 1).bind fun ip =>
  (if n ≠ 1 then forBrk 1 (n - 1) (dechcBody n) ⟨Ar, Ai, ip, 0, false⟩
   else some ⟨Ar, Ai, ip, 0, false⟩).bind fun s =>
  (get n s.Ar n n).bind fun a => (get n s.Ai n n).bind fun b =>
  some (if ABS a + ABS b = 0 then ⟨s.Ar, s.Ai, s.ip, n, s.hit⟩ else s)

/-- forward loop of `solhc`, Hessenberg.hpp 204-215. -/
def solhcFwd (n : ℤ) (Ar Ai : ℤ → ℤ → ℝ) (ip : ℤ → ℤ) (k : ℤ) (B : (ℤ → ℝ) × (ℤ → ℝ)) :
    Option ((ℤ → ℝ) × (ℤ → ℝ)) :=
  let kp1 := k + 1
  (iget n ip (k - 1)).bind fun M =>
  (vget n B.1 M).bind fun tr => (vget n B.2 M).bind fun ti =>
  (vget n B.1 k).bind fun a => (vset n B.1 M a).bind fun Br =>
  (vget n B.2 k).bind fun b => (vset n B.2 M b).bind fun Bi =>
  (vset n Br k tr).bind fun Br => (vset n Bi k ti).bind fun Bi =>
  let na := min n (k + 1)
  forUp kp1 na (fun i (B : (ℤ → ℝ) × (ℤ → ℝ)) =>
    (get n Ar i k).bind fun a => (get n Ai i k).bind fun b =>
    let prodr := a * tr - b * ti
    let prodi := b * tr + a * ti
    (vget n B.1 i).bind fun u => (vset n B.1 i (u + prodr)).bind fun Br =>
    (vget n B.2 i).bind fun v => (vset n B.2 i (v + prodi)).bind fun Bi => some (Br, Bi)) (Br, Bi)

/-- division of `B(k)` by `A(k,k)`, Hessenberg.hpp 221-224 and 234-237. -/
noncomputable def solhcDiv (n : ℤ) (Ar Ai : ℤ → ℤ → ℝ) (k : ℤ) (B : (ℤ → ℝ) × (ℤ → ℝ)) :
    Option ((ℤ → ℝ) × (ℤ → ℝ)) :=
  (get n Ar k k).bind fun a => (get n Ai k k).bind fun b =>
  let den := a * a + b * b
  (vget n B.1 k).bind fun u => (vget n B.2 k).bind fun v =>
  let prodr := u * a + v * b
  let prodi := v * a - u * b
  (vset n B.1 k (prodr / den)).bind fun Br => (vset n B.2 k (prodi / den)).bind fun Bi =>
  some (Br, Bi)

/-- backward loop of `solhc`, Hessenberg.hpp 219-231. -/
noncomputable def solhcBwd (n : ℤ) (Ar Ai : ℤ → ℤ → ℝ) (kb : ℤ) (B : (ℤ → ℝ) × (ℤ → ℝ)) :
    Option ((ℤ → ℝ) × (ℤ → ℝ)) :=
  let km1 := n - kb
  let k := km1 + 1
  (solhcDiv n Ar Ai k B).bind fun B =>
  (vget n B.1 k).bind fun u => (vget n B.2 k).bind fun v =>
  let tr := -u
  let ti := -v
  forUp 1 km1 (fun i (B : (ℤ → ℝ) × (ℤ → ℝ)) =>
    (get n Ar i k).bind fun a => (get n Ai i k).bind fun b =>
    let prodr := a * tr - b * ti
    let prodi := b * tr + a * ti
    (vget n B.1 i).bind fun u => (vset n B.1 i (u + prodr)).bind fun Br =>
    (vget n B.2 i).bind fun v => (vset n B.2 i (v + prodi)).bind fun Bi => some (Br, Bi)) B

/-- `solhc`, Hessenberg.hpp 197-238. -/
noncomputable def solhc (n : ℤ) (Ar Ai : ℤ → ℤ → ℝ) (ip : ℤ → ℤ) (Br Bi : ℤ → ℝ) :
    Option ((ℤ → ℝ) × (ℤ → ℝ)) :=
  (if n ≠ 1 then
    (forUp 1 (n - 1) (solhcFwd n Ar Ai ip) (Br, Bi)).bind fun B =>
    forUp 1 (n - 1) (solhcBwd n Ar Ai) B
   else some (Br, Bi)).bind fun B => solhcDiv n Ar Ai 1 B

/-! ### householder -/

section hh

variable [CommRing K]

/-- `tau[k]` for an array of `n` doubles. -/
def aget (n : ℤ) (a : ℤ → K) (k : ℤ) : Option K := if 0 ≤ k ∧ k < n then some (a k) else none

/-- body of the loop of `householder`, Hessenberg.hpp 268-277. -/
def hhBody (n : ℤ) (A : ℤ → ℤ → K) (tau : ℤ → K) (j : ℤ) (Y : ℤ → K) : Option (ℤ → K) :=
  (vget n Y (j + 1)).bind fun s =>
  (forUp (j + 2) n (fun i s => (vget n Y i).bind fun y => (get n A i j).bind fun a =>
    some (s + y * a)) s).bind fun s =>
  (aget n tau (j - 1)).bind fun t =>
  let s := s * t
  (vget n Y (j + 1)).bind fun y => (vset n Y (j + 1) (y - s)).bind fun Y =>
  forUp (j + 2) n (fun i Y => (vget n Y i).bind fun y => (get n A i j).bind fun a =>
    vset n Y i (y - s * a)) Y

/-- the loop `for(int j=jbeg;j!=jend;j+=jinc)`, Hessenberg.hpp 266: state `(j,Y)`. -/
def hhStep (n : ℤ) (A : ℤ → ℤ → K) (tau : ℤ → K) (jend jinc : ℤ) (s : ℤ × (ℤ → K)) :
    Res (ℤ × (ℤ → K)) :=
  if s.1 = jend then .ret s else
  match hhBody n A tau s.1 s.2 with
  | some Y => .next (s.1 + jinc, Y)
  | none => .ub .outOfBounds

/-- `householder(A,tau,X,Y,direct)` sets `Y`, Hessenberg.hpp 253-278. -/
def Householder (n : ℤ) (A : ℤ → ℤ → K) (tau : ℤ → K) (X Y : ℤ → K) (direct : Bool) : Prop :=
  ∃ j, if direct then Returns (hhStep n A tau (n - 1) 1) (1, X) (j, Y)
    else Returns (hhStep n A tau 0 (-1)) (n - 2, X) (j, Y)

/-- `householder(A,tau,X,_,direct)` reads or writes out of bounds. -/
def HouseholderUb (n : ℤ) (A : ℤ → ℤ → K) (tau : ℤ → K) (X : ℤ → K) (direct : Bool) : Prop :=
  if direct then HasUb (hhStep n A tau (n - 1) 1) (1, X) .outOfBounds
    else HasUb (hhStep n A tau 0 (-1)) (n - 2, X) .outOfBounds

end hh

/-! ### `Matrices<true,true,n,nsub,nsup>` -/

/-- the members of `Matrices<true,true,...>` used by the real solves, plus the Jacobian they work
on (`Jac` is a member of the integrator, passed by reference). Matrices.hpp 217-226. -/
structure MR (K : Type) where
  calhes : Bool
  Jac : ℤ → ℤ → K
  tau : ℤ → K
  E1 : ℤ → ℤ → K
  ipr : ℤ → ℤ

section mr

variable [Field K] [LinearOrder K]

/-- `decomr`, Matrices.hpp 238-268.  `gehrd` is LAPACK's `dgehrd` (`none`: `info!=0`); the choice of
the size of `work` is not modelled. Outer `none`: undefined behaviour. -/
def decomr (n : ℤ) (gehrd : (ℤ → ℤ → K) → Option ((ℤ → ℤ → K) × (ℤ → K))) (fac1 : K) (s : MR K) :
    Option (Except Exn (MR K)) :=
  match (if s.calhes then (gehrd s.Jac).map fun r => { s with calhes := false, Jac := r.1, tau := r.2 }
    else some s) with
  | none => some (.error .factorisation)
  | some s =>
    let E1 := fun i j => if i = j then -s.Jac i j + fac1 else -s.Jac i j
    (dech n E1 s.ipr).bind fun d =>
    if d.ret ≠ 0 then some (.error .factorisation)
    else some (.ok { s with E1 := d.A, ipr := d.ip })

/-- `solvereal`, Matrices.hpp 269-274: `Z` is replaced by `Z'`. -/
def Solvereal (n : ℤ) (s : MR K) (Z Z' : ℤ → K) : Prop :=
  ∃ Cr Cr', Householder n s.Jac s.tau Z Cr true ∧ solh n s.E1 s.ipr Cr = some Cr' ∧
    Householder n s.Jac s.tau Cr' Z' false

end mr

/-- the loops filling `E2R`,`E2I`, Matrices.hpp 278-294. -/
def fillE2 (n : ℤ) (alpha beta : ℝ) (Jac : ℤ → ℤ → ℝ) (E : (ℤ → ℤ → ℝ) × (ℤ → ℤ → ℝ)) :
    Option ((ℤ → ℤ → ℝ) × (ℤ → ℤ → ℝ)) :=
  (forUp 1 (n - 1) (fun j (E : (ℤ → ℤ → ℝ) × (ℤ → ℤ → ℝ)) =>
    let j1 := j + 1
    (get n Jac j1 j).bind fun a => (set n E.1 j1 j (-a)).bind fun R =>
    (set n E.2 j1 j 0).bind fun I => some (R, I)) E).bind fun E =>
  forUp 1 n (fun j (E : (ℤ → ℤ → ℝ) × (ℤ → ℤ → ℝ)) =>
    (forUp 1 j (fun i (E : (ℤ → ℤ → ℝ) × (ℤ → ℤ → ℝ)) =>
      (set n E.2 i j 0).bind fun I => (get n Jac i j).bind fun a =>
      (set n E.1 i j (-a)).bind fun R => some (R, I)) E).bind fun E =>
    (get n E.1 j j).bind fun a => (set n E.1 j j (a + alpha)).bind fun R =>
    (set n E.2 j j beta).bind fun I => some (R, I)) E

/-- `decomc`, Matrices.hpp 275-297: the value returned by `dechc` is dropped by the code, it is kept
here in the field `ret` of the result; nothing is thrown. -/
noncomputable def decomc (n : ℤ) (alpha beta : ℝ) (Jac : ℤ → ℤ → ℝ)
    (E : (ℤ → ℤ → ℝ) × (ℤ → ℤ → ℝ)) (ipi : ℤ → ℤ) : Option (Except Exn StC) :=
  (fillE2 n alpha beta Jac E).bind fun E =>
  (dechc n E.1 E.2 ipi).bind fun d => some (.ok d)

/-- `solvecomplex`, Matrices.hpp 298-306. -/
def Solvecomplex (n : ℤ) (Jac : ℤ → ℤ → ℝ) (tau : ℤ → ℝ) (d : StC) (Zr Zi Zr' Zi' : ℤ → ℝ) : Prop :=
  ∃ Cr Ci C, Householder n Jac tau Zr Cr true ∧ Householder n Jac tau Zi Ci true ∧
    solhc n d.Ar d.Ai d.ip Cr Ci = some C ∧
    Householder n Jac tau C.1 Zr' false ∧ Householder n Jac tau C.2 Zi' false

end Odes.Hess
