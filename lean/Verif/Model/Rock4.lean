import Verif.Model.Num
import Verif.Model.Machine

/-!
# Rock4-NG: `Rock4.hpp`, `ToolOMP.hpp`, `Rock4Coeffs.hpp`

Buffers are modelled as numbered heap cells holding whole vectors; pointers are buffer
numbers.  The scalar type is `X` (`Model/Num.lean`).  C++ `int` counters are unbounded
integers (overflow of counters is not modelled); the conversion `double -> int` of the
number of stages *is* modelled, with undefined behaviour as an outcome.
The logging of steps (`LOGROCK4`) is not modelled here.
-/

namespace Odes.Rock4

open Classical

noncomputable section

/-- a `double[size]` -/
abbrev Vec (n : ℕ) := Fin n → X

/-- The user's problem object: right hand side `F(y,out)` (a pure function of `y`) and the
successive answers of `F.rho()` (an arbitrary stream: the user's object may have internal
state). `size()` is `n`. -/
structure Problem (n : ℕ) where
  F : Vec n → Vec n
  rho : ℕ → X

/-- Numeric contents of the coefficient tables of `coeffs-rock4`, one-based Fortran indices
(Rock4Coeffs.hpp 14-31).  Contents are arbitrary here; the *extents* are those of the
declarations `RECF[4382]`, `FPA[50*6]`, `FPB[50*4]`, `FPBE[50*5]`
(coeffs-rock4 3, 1101, 1178, 1230). -/
structure Tables where
  recf : ℕ → X
  fpa : ℕ → ℕ → X
  fpb : ℕ → ℕ → X
  fpbe : ℕ → ℕ → X

/-- `recf(i)` = `RECF[i-1]`, Rock4Coeffs.hpp 14; `none` = out of bounds. -/
def recfAt (T : Tables) (i : ℤ) : Option X :=
  if 0 ≤ i - 1 ∧ i - 1 < 4382 then some (T.recf i.toNat) else none

/-- `fpa(i,j)` = `FPA[(j-1)*50+i-1]`, Rock4Coeffs.hpp 15-18. An index inside the array but
outside column `j` would silently read another column: that is reported as out of bounds
too. -/
def fpaAt (T : Tables) (i : ℤ) (j : ℕ) : Option X :=
  if 1 ≤ i ∧ i ≤ 50 ∧ 0 ≤ ((j : ℤ) - 1) * 50 + i - 1 ∧ ((j : ℤ) - 1) * 50 + i - 1 < 50 * 6 then
    some (T.fpa i.toNat j) else none

/-- `fpb(i,j)` = `FPB[(j-1)*50+i-1]`, Rock4Coeffs.hpp 19-22. -/
def fpbAt (T : Tables) (i : ℤ) (j : ℕ) : Option X :=
  if 1 ≤ i ∧ i ≤ 50 ∧ 0 ≤ ((j : ℤ) - 1) * 50 + i - 1 ∧ ((j : ℤ) - 1) * 50 + i - 1 < 50 * 4 then
    some (T.fpb i.toNat j) else none

/-- `fpbe(i,j)` = `FPBE[(j-1)*50+i-1]`, Rock4Coeffs.hpp 23-26. -/
def fpbeAt (T : Tables) (i : ℤ) (j : ℕ) : Option X :=
  if 1 ≤ i ∧ i ≤ 50 ∧ 0 ≤ ((j : ℤ) - 1) * 50 + i - 1 ∧ ((j : ℤ) - 1) * 50 + i - 1 < 50 * 5 then
    some (T.fpbe i.toNat j) else none

/-- `static int MS[50]`, Rock4-NG/include/coeffs-rock4 1295-1297. -/
def MS : List ℤ :=
  [1, 2, 3, 4, 5, 6, 7, 8, 9, 10, 11, 12, 13, 14, 15, 16, 17, 18, 19, 20,
   22, 24, 26, 28, 30, 32, 34, 36, 38, 41, 44, 47, 50, 53, 56, 59, 63, 67, 71,
   76, 81, 86, 92, 98, 105, 112, 120, 129, 138, 148]

/-- The loop of `mdegre`, Rock4.hpp 41-53, over the remaining entries `ms(i), ms(i+1), ...`;
returns (`mdeg`, `mp[1]`, `mp[2]`).  `C++ int /` truncates (`Int.tdiv`); division by zero
cannot occur because the caller passes `max(.,5)-4 >= 1`. -/
def mdegreLoop (mdeg mp1 : ℤ) : List ℤ → ℤ → ℤ → ℤ × ℤ × ℤ
  | [], _, mp2 => (mdeg, mp1, mp2)
  | m :: ms, i, mp2 =>
    if (m.tdiv mdeg) ≥ 1 then (m, i, mp2)
    else mdegreLoop mdeg mp1 ms (i + 1) (mp2 + m * 2 - 1)

/-- `mdegre(int& mdeg)`, Rock4.hpp 39-54. -/
def mdegre (mdeg mp1 : ℤ) : ℤ × ℤ × ℤ := mdegreLoop mdeg mp1 MS 1 1

/-- Data members of the class (Rock4.hpp 29-36) together with the local variables of
`operator()` (190-204).  `calls` and `rhoCalls` are ghost counters: the number of
evaluations of the user's `F` and of `F.rho()` since the start of the call. -/
structure St (n : ℕ) where
  heap : ℕ → Vec n
  fn : ℕ
  k1 : ℕ
  k2 : ℕ
  k3 : ℕ
  k4 : ℕ
  temp : ℕ
  g0 : ℕ
  atol : X
  rtol : X
  uround : X
  told : X
  hlast : X
  mp1 : ℤ
  mp2 : ℤ
  mdeg : ℤ
  funccal : ℤ
  nrej : ℤ
  nsteps : ℤ
  nacc : ℤ
  nstagesmax : ℤ
  y : ℕ
  mdego : ℤ
  eigmax : X
  facmax : X
  hp : X
  nrho : ℤ
  nrejloc : ℤ
  t : X
  h : X
  errp : X
  reject : Bool
  calls : ℕ
  rhoCalls : ℕ

/-- write a whole buffer. -/
def upd {n : ℕ} (heap : ℕ → Vec n) (p : ℕ) (v : Vec n) : ℕ → Vec n :=
  fun q => if q = p then v else heap q

variable {n : ℕ}

/-- heap and pointers during the recurrence of `kernel`. -/
structure RL (n : ℕ) where
  heap : ℕ → Vec n
  g1 : ℕ
  g0 : ℕ
  calls : ℕ

/-- `E.apply(F,g0,g1,y)` (degree 2), ToolOMP.hpp 58-73, followed by `switchAdr(g1,g0)`,
Rock4.hpp 76-80. -/
def apply2 (P : Problem n) (T : Tables) (mr : ℤ) (h : X) (y : ℕ) (r : RL n) : Option (RL n) := do
  let c1 ← recfAt T (mr + 1)
  let c2 ← recfAt T (mr + 2)
  let temp1 := h * c1
  let temp3 := -c2
  let temp2 := 1.0 - temp3
  let heap := upd r.heap r.g0 (P.F (r.heap r.g1))
  let heap := upd heap r.g0
    (fun i => temp1 * heap r.g0 i + temp2 * heap r.g1 i + temp3 * heap y i)
  return { heap := heap, g1 := r.g0, g0 := r.g1, calls := r.calls + 1 }

/-- `E.apply(F,i,g1,g0,k1)`, ToolOMP.hpp 41-57, followed by `switchAdr(g1,g0)`,
Rock4.hpp 81-85. -/
def applyDeg (P : Problem n) (T : Tables) (mr : ℤ) (h : X) (k1 : ℕ) (deg : ℤ) (r : RL n) :
    Option (RL n) := do
  let c1 ← recfAt T (mr + 2 * (deg - 2) + 1)
  let c2 ← recfAt T (mr + 2 * (deg - 2) + 2)
  let temp1 := h * c1
  let temp3 := -c2
  let temp2 := 1.0 - temp3
  let heap := upd r.heap k1 (P.F (r.heap r.g1))
  let heap := upd heap r.g0
    (fun i => temp1 * heap k1 i + temp2 * heap r.g1 i + temp3 * heap r.g0 i)
  return { heap := heap, g1 := r.g0, g0 := r.g1, calls := r.calls + 1 }

/-- the loop `for(int i=2;i<=mdeg;i++)`, Rock4.hpp 74-86; `k` iterations remain, the loop
variable is `i`. -/
def recLoop (P : Problem n) (T : Tables) (mr : ℤ) (h : X) (y k1 : ℕ) :
    ℕ → ℤ → RL n → Option (RL n)
  | 0, _, r => some r
  | k + 1, i, r =>
    (if i = 2 then apply2 P T mr h y r else applyDeg P T mr h k1 i r).bind
      (fun r' => recLoop P T mr h y k1 k (i + 1) r')

/-- `E.rpp2(...)`, ToolOMP.hpp 136-156 (sequential build). -/
def rpp2 (y : Vec n) (a1 : X) (x1 : Vec n) (a2 : X) (x2 : Vec n) (a3 : X) (x3 : Vec n)
    (a4 : X) (x4 : Vec n) (a5 : X) (x5 : Vec n) (atol rtol : X) : X :=
  (List.finRange n).foldl (fun ret i =>
    let ab := X.ABS (y i) * rtol + atol
    let d := 1.0 / ab
    let s := a1 * x1 i + a2 * x2 i + a3 * x3 i + a4 * x4 i + a5 * x5 i
    ret + s * s * d * d) 0

/-- `E.cl(g,y,fn)`, ToolOMP.hpp 74-84, and `E.cl(cible,y,a1,x1)`, 85-96. -/
def cl1 (heap : ℕ → Vec n) (cible y : ℕ) (a1 : X) (x1 : ℕ) : ℕ → Vec n :=
  upd heap cible (fun i => heap y i + a1 * heap x1 i)

/-- `E.cl(cible,y,a1,x1,a2,x2)`, ToolOMP.hpp 97-108. -/
def cl2 (heap : ℕ → Vec n) (cible y : ℕ) (a1 : X) (x1 : ℕ) (a2 : X) (x2 : ℕ) : ℕ → Vec n :=
  upd heap cible (fun i => heap y i + a1 * heap x1 i + a2 * heap x2 i)

/-- `E.cl(cible,y,a1,x1,a2,x2,a3,x3)`, ToolOMP.hpp 109-121. -/
def cl3 (heap : ℕ → Vec n) (cible y : ℕ) (a1 : X) (x1 : ℕ) (a2 : X) (x2 : ℕ) (a3 : X) (x3 : ℕ) :
    ℕ → Vec n :=
  upd heap cible (fun i => heap y i + a1 * heap x1 i + a2 * heap x2 i + a3 * heap x3 i)

/-- `E.ct(cible,y,a1,x1,a2,x2,a3,x3,a4,x4)`, ToolOMP.hpp 122-135. -/
def ct (heap : ℕ → Vec n) (cible y : ℕ) (a1 : X) (x1 : ℕ) (a2 : X) (x2 : ℕ) (a3 : X) (x3 : ℕ)
    (a4 : X) (x4 : ℕ) : ℕ → Vec n :=
  upd heap cible (fun i => heap y i + a1 * heap x1 i + a2 * heap x2 i + a3 * heap x3 i
    + a4 * heap x4 i)

/-- `F(src,dst)`. -/
def evalF (P : Problem n) (heap : ℕ → Vec n) (src dst : ℕ) : ℕ → Vec n :=
  upd heap dst (P.F (heap src))

/-- the coefficients `fpa(mz,1..6)`, `fpb(mz,1..4)`, `fpbe(mz,1..5)` used by one step. -/
structure Coef where
  a1 : X
  a2 : X
  a3 : X
  a4 : X
  a5 : X
  a6 : X
  b1 : X
  b2 : X
  b3 : X
  b4 : X
  e1 : X
  e2 : X
  e3 : X
  e4 : X
  e5 : X

/-- the table accesses of Rock4.hpp 98-125 (in program order; `none` = out of bounds). -/
def fetch (T : Tables) (mz : ℤ) : Option Coef :=
  (fpaAt T mz 1).bind fun a1 =>
  (fpaAt T mz 2).bind fun a2 =>
  (fpaAt T mz 3).bind fun a3 =>
  (fpaAt T mz 4).bind fun a4 =>
  (fpaAt T mz 5).bind fun a5 =>
  (fpaAt T mz 6).bind fun a6 =>
  (fpbAt T mz 1).bind fun b1 =>
  (fpbAt T mz 2).bind fun b2 =>
  (fpbAt T mz 3).bind fun b3 =>
  (fpbAt T mz 4).bind fun b4 =>
  (fpbeAt T mz 1).bind fun e1 =>
  (fpbeAt T mz 2).bind fun e2 =>
  (fpbeAt T mz 3).bind fun e3 =>
  (fpbeAt T mz 4).bind fun e4 =>
  (fpbeAt T mz 5).bind fun e5 =>
  some ⟨a1, a2, a3, a4, a5, a6, b1, b2, b3, b4, e1, e2, e3, e4, e5⟩

/-- Rock4.hpp 61-88: the recurrence; its result is in buffer `g0`, and the other buffer
becomes `temp` (here field `g1` of the result). -/
def recurrence (P : Problem n) (T : Tables) (s : St n) (dt : X) : Option (RL n) :=
  -- E.cl(g1,y,fn) with temp=h*Coeffs.recf(mr)
  (recfAt T s.mp2).bind fun c0 =>
  let heap := cl1 s.heap s.temp s.y (dt * c0) s.fn
  -- if(mdeg<2) switchAdr(g1,g0)
  let r : RL n :=
    if s.mdeg < 2 then { heap := heap, g1 := s.g0, g0 := s.temp, calls := s.calls }
    else { heap := heap, g1 := s.temp, g0 := s.g0, calls := s.calls }
  (recLoop P T s.mp2 dt s.y s.k1 (s.mdeg - 1).toNat 2 r).bind fun r =>
  -- if(mdeg>=2) switchAdr(g1,g0);   temp=g1
  some (if 2 ≤ s.mdeg then { r with g1 := r.g0, g0 := r.g1 } else r)

/-- Rock4.hpp 95-127: the finishing method; heap after the evaluation of `F` at the new
value.  The pointers `k1..k4` are those of `s`. -/
def finish (P : Problem n) (c : Coef) (s : St n) (dt : X) (heap : ℕ → Vec n) (temp g0 : ℕ) :
    ℕ → Vec n :=
  let h1 := evalF P heap g0 s.k1
  let h2 := cl1 h1 temp g0 (dt * c.a1) s.k1
  let h3 := evalF P h2 temp s.k2
  let h4 := cl2 h3 temp g0 (dt * c.a2) s.k1 (dt * c.a3) s.k2
  let h5 := evalF P h4 temp s.k3
  let h6 := cl3 h5 temp g0 (dt * c.a4) s.k1 (dt * c.a5) s.k2 (dt * c.a6) s.k3
  let h7 := evalF P h6 temp s.k4
  let h8 := ct h7 temp g0 (dt * c.b1) s.k1 (dt * c.b2) s.k2 (dt * c.b3) s.k3 (dt * c.b4) s.k4
  evalF P h8 temp g0

/-- `kernel(y,dt)`, Rock4.hpp 59-137: returns the new state and the error estimate.
`none` = a coefficient table is read out of bounds. -/
def kernel (P : Problem n) (T : Tables) (s : St n) (dt : X) : Option (St n × X) :=
  (recurrence P T s dt).bind fun r =>
  (fetch T s.mp1).bind fun c =>
  let temp := r.g1
  let g0 := r.g0
  let heap := finish P c s dt r.heap temp g0
  let err := X.sqrt (rpp2 (heap temp)
    (dt * c.e1 - dt * c.b1) (heap s.k1) (dt * c.e2 - dt * c.b2) (heap s.k2)
    (dt * c.e3 - dt * c.b3) (heap s.k3) (dt * c.e4 - dt * c.b4) (heap s.k4)
    (dt * c.e5) (heap g0) s.atol s.rtol / X.ofInt n)
  -- funccal += mdeg-1; funccal += 4; ++funccal
  some ({ s with heap := heap, temp := temp, g0 := g0,
                 funccal := s.funccal + (s.mdeg - 1) + 4 + 1, calls := r.calls + 5 }, err)

/-- start of `operator()`, Rock4.hpp 192-204, on an object `o` (contents of its work buffers
and members are whatever earlier calls left), user array `y`. -/
def start (P : Problem n) (o : St n) (y : ℕ) (t0 h0 : X) : St n :=
  { o with
    y := y
    mdego := 0, nsteps := 0, nrej := 0, nacc := 0, nstagesmax := 0
    eigmax := 0.0, facmax := 5.0, hp := h0, nrho := 0, nrejloc := 0
    heap := upd o.heap o.fn (P.F (o.heap y))
    funccal := 1, calls := 1, rhoCalls := 0
    t := t0, h := h0, errp := -1.0, told := 0.0, reject := false }

/-- choice of step size and degree, Rock4.hpp 208-233. -/
def choose (P : Problem n) (tend : X) (s : St n) : Res (St n) :=
  let h := if X.ABSsub tend s.t ≤ 1.01 * s.h then X.ABSsub tend s.t else s.h
  if h < 10.0 * s.uround then .throw .stepTooSmall
  else
    let eigmax := if s.nrho = 0 then P.rho s.rhoCalls else s.eigmax
    let rhoCalls := if s.nrho = 0 then s.rhoCalls + 1 else s.rhoCalls
    match X.toInt (X.sqrt ((3.0 + h * eigmax) / 0.353) + 1) with
    | none => .ub .intConversion
    | some md =>
      let h' := if md > 152 then 0.8 * (152.0 * 152.0 * 0.353 - 3.0) / eigmax else h
      let md' := if md > 152 then 152 else md
      let mdeg := max md' 5 - 4
      if mdeg ≠ s.mdego then
        let r := mdegre mdeg s.mp1
        .next { s with h := h', eigmax := eigmax, rhoCalls := rhoCalls,
                       mdeg := r.1, mp1 := r.2.1, mp2 := r.2.2, mdego := r.1,
                       nstagesmax := if r.1 + 4 > s.nstagesmax then r.1 + 4 else s.nstagesmax }
      else
        .next { s with h := h', eigmax := eigmax, rhoCalls := rhoCalls, mdeg := mdeg }

/-- the factor by which the step size is multiplied, Rock4.hpp 238-245. -/
def factor (s : St n) (err : X) : X :=
  let fac := X.sqrt (X.sqrt (1.0 / err))
  let fac :=
    if 0.0 < s.errp ∧ s.reject = false then
      X.stdMin fac (X.sqrt (X.sqrt s.errp) * fac * fac * (s.h / s.hp))
    else fac
  let facmax := if s.reject then 1.0 else s.facmax
  X.stdMin facmax (X.stdMax 0.1 (0.8 * fac))

/-- error control and acceptance, Rock4.hpp 236-289. -/
def control (tend : X) (s : St n) (err : X) : St n :=
  let nsteps := s.nsteps + 1
  let facmax := if s.reject then 1.0 else s.facmax
  let hnew := s.h * factor s err
  if err < 1.0 then
    let t := s.t + s.h
    let hnew' :=
      if s.reject then
        (let a := X.stdMin hnew s.h
         if tend < t then X.stdMax a s.h else a)
      else hnew
    let hnext := if X.ABSsub tend t ≤ 1.1 * hnew' then X.ABSsub tend t else hnew'
    { s with
      nsteps := nsteps, nacc := s.nacc + 1, facmax := 2.0, t := t, hlast := s.h
      nrejloc := if s.reject then 0 else s.nrejloc
      reject := false
      hp := s.h, h := hnext, errp := err
      temp := s.y, y := s.temp, g0 := s.fn, fn := s.g0
      nrho := (s.nrho + 1 + 1) % 10 }
  else
    let h0 := 0.8 * hnew
    let h1 := if nsteps = 0 then h0 / 10.0 else h0
    let same := X.Feq s.told s.t
    let nrejloc := if same then s.nrejloc + 1 else s.nrejloc
    let h2 := if same ∧ nrejloc = 10 then 1.0e-5 else h1
    { s with
      nsteps := nsteps, facmax := facmax, reject := true, h := h2, nrej := s.nrej + 1
      nrejloc := nrejloc, told := s.t
      nrho := if s.nrho ≠ 0 then 0 else 1 }

/-- one iteration of `while(t<tend)`, Rock4.hpp 206-290. -/
def step (P : Problem n) (T : Tables) (tend : X) (s : St n) : Res (St n) :=
  if s.t < tend then
    match choose P tend s with
    | .next s1 =>
      match kernel P T s1 s1.h with
      | none => .ub .outOfBounds
      | some (s2, err) => .next (control tend s2 err)
    | r => r
  else .ret s

/-- A freshly constructed object, Rock4.hpp 141-150: seven distinct buffers numbered
`b .. b+6`; the contents of the buffers and the members not set by the constructor are
arbitrary (`junk`). -/
def fresh (junk : St n) (b : ℕ) : St n :=
  { junk with
    k1 := b, k2 := b + 1, k3 := b + 2, k4 := b + 3, g0 := b + 4, fn := b + 5, temp := b + 6
    uround := 1.0e-16, atol := 1.0e-5, rtol := 1.0e-5 }

end

end Odes.Rock4
