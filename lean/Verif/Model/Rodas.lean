import Verif.Model.Num
import Verif.Model.Machine
import Verif.Model.Vec

/-!
# Rodas-NG: `Rodascc.hpp`

The six stages (`attempt`) are defined over any scalar type with the four operations, so that the
same definition is used with exact field arithmetic (stage equations) and with `X` (step size
control, special values).  Vectors are functions on `Fin n`; the element-wise operations of
`fortranVectorF` (fortranVector.hpp 150-392) are written out.  Matrix factorisation and solve
(`decomr`, `solvereal` of Matrices.hpp) are a parameter (`Lin`).  Counters are unbounded integers.
The logging of steps (`LOGRODAS`) and the unused members (`first`, `startn`, `caljac`, `faccon`, …)
are not modelled.
-/

namespace Odes.Rodas

open Classical

noncomputable section

/-- the coefficients of one method, members declared in Rodascc.hpp 53-56. -/
structure Coef (α : Type) where
  A21 : α
  A31 : α
  A32 : α
  A41 : α
  A42 : α
  A43 : α
  A51 : α
  A52 : α
  A53 : α
  A54 : α
  C21 : α
  C31 : α
  C32 : α
  C41 : α
  C42 : α
  C43 : α
  C51 : α
  C52 : α
  C53 : α
  C54 : α
  C61 : α
  C62 : α
  C63 : α
  C64 : α
  C65 : α
  GAMMA : α
  C2 : α
  C3 : α
  C4 : α
  D1 : α
  D2 : α
  D3 : α
  D4 : α

/-- apply a function to every coefficient. -/
def Coef.map {α β : Type} (f : α → β) (c : Coef α) : Coef β :=
  { A21 := f c.A21, A31 := f c.A31, A32 := f c.A32, A41 := f c.A41, A42 := f c.A42, A43 := f c.A43
    A51 := f c.A51, A52 := f c.A52, A53 := f c.A53, A54 := f c.A54
    C21 := f c.C21, C31 := f c.C31, C32 := f c.C32, C41 := f c.C41, C42 := f c.C42, C43 := f c.C43
    C51 := f c.C51, C52 := f c.C52, C53 := f c.C53, C54 := f c.C54
    C61 := f c.C61, C62 := f c.C62, C63 := f c.C63, C64 := f c.C64, C65 := f c.C65
    GAMMA := f c.GAMMA, C2 := f c.C2, C3 := f c.C3, C4 := f c.C4
    D1 := f c.D1, D2 := f c.D2, D3 := f c.D3, D4 := f c.D4 }

end

/-- `rocoe()`, Rodascc.hpp 71-154: the three tables (the decimals of the source, exactly; the
dense output coefficients `D2x`, `D3x` are stored but never used and are left out).
`none` = the `throw` of the default case. -/
def rocoe (meth : ℤ) : Option (Coef ℚ) :=
  if meth = 1 then some
    { C2 := 0.386e0, C3 := 0.21e0, C4 := 0.63e0
      D1 := 0.2500000000000000e+00, D2 := -0.1043000000000000e+00
      D3 := 0.1035000000000000e+00, D4 := -0.3620000000000023e-01
      A21 := 0.1544000000000000e+01, A31 := 0.9466785280815826e+00
      A32 := 0.2557011698983284e+00, A41 := 0.3314825187068521e+01
      A42 := 0.2896124015972201e+01, A43 := 0.9986419139977817e+00
      A51 := 0.1221224509226641e+01, A52 := 0.6019134481288629e+01
      A53 := 0.1253708332932087e+02, A54 := -0.6878860361058950e+00
      C21 := -0.5668800000000000e+01, C31 := -0.2430093356833875e+01
      C32 := -0.2063599157091915e+00, C41 := -0.1073529058151375e+00
      C42 := -0.9594562251023355e+01, C43 := -0.2047028614809616e+02
      C51 := 0.7496443313967647e+01, C52 := -0.1024680431464352e+02
      C53 := -0.3399990352819905e+02, C54 := 0.1170890893206160e+02
      C61 := 0.8083246795921522e+01, C62 := -0.7981132988064893e+01
      C63 := -0.3152159432874371e+02, C64 := 0.1631930543123136e+02
      C65 := -0.6058818238834054e+01
      GAMMA := 0.2500000000000000e+00 }
  else if meth = 2 then some
    { C2 := 0.3507221, C3 := 0.2557041, C4 := 0.6817790
      D1 := 0.2500000000000000e+00, D2 := -0.6902209999999998e-01
      D3 := -0.9671999999999459e-03, D4 := -0.8797900000000025e-01
      A21 := 0.1402888400000000e+01, A31 := 0.6581212688557198e+00
      A32 := -0.1320936088384301e+01, A41 := 0.7131197445744498e+01
      A42 := 0.1602964143958207e+02, A43 := -0.5561572550509766e+01
      A51 := 0.2273885722420363e+02, A52 := 0.6738147284535289e+02
      A53 := -0.3121877493038560e+02, A54 := 0.7285641833203814e+00
      C21 := -0.5104353600000000e+01, C31 := -0.2899967805418783e+01
      C32 := 0.4040399359702244e+01, C41 := -0.3264449927841361e+02
      C42 := -0.9935311008728094e+02, C43 := 0.4999119122405989e+02
      C51 := -0.7646023087151691e+02, C52 := -0.2785942120829058e+03
      C53 := 0.1539294840910643e+03, C54 := 0.1097101866258358e+02
      C61 := -0.7629701586804983e+02, C62 := -0.2942795630511232e+03
      C63 := 0.1620029695867566e+03, C64 := 0.2365166903095270e+02
      C65 := -0.7652977706771382e+01, GAMMA := 0.2500000000000000e+00 }
  else if meth = 3 then some
    { GAMMA := 0.25, C2 := 3.0 * 0.25, C3 := 0.21, C4 := 0.63
      D1 := 0.2500000000000000e+00, D2 := -0.5000000000000000e+00
      D3 := -0.2350400000000000e-01, D4 := -0.3620000000000000e-01
      A21 := 0.3000000000000000e+01, A31 := 0.1831036793486759e+01
      A32 := 0.4955183967433795e+00, A41 := 0.2304376582692669e+01
      A42 := -0.5249275245743001e-01, A43 := -0.1176798761832782e+01
      A51 := -0.7170454962423024e+01, A52 := -0.4741636671481785e+01
      A53 := -0.1631002631330971e+02, A54 := -0.1062004044111401e+01
      C21 := -0.1200000000000000e+02, C31 := -0.8791795173947035e+01
      C32 := -0.2207865586973518e+01, C41 := 0.1081793056857153e+02
      C42 := 0.6780270611428266e+01, C43 := 0.1953485944642410e+02
      C51 := 0.3419095006749676e+02, C52 := 0.1549671153725963e+02
      C53 := 0.5474760875964130e+02, C54 := 0.1416005392148534e+02
      C61 := 0.3462605830930532e+02, C62 := 0.1530084976114473e+02
      C63 := 0.5699955578662667e+02, C64 := 0.1840807009793095e+02
      C65 := -0.5714285714285717e+01 }
  else none

noncomputable section

variable {α : Type} {n : ℕ}

/-- matrix factorisation and solution of the base class `Matrices` (Matrices.hpp), as used by
Rodas: `load J` = the object after `Jac` was filled with `J` and `calhes=true`;
`decomr fac` factorises `fac*I - Jac` (`none` = it throws); `solvereal` solves in place. -/
structure Lin (α : Type) (n : ℕ) where
  σ : Type
  load : (Fin n → Fin n → α) → σ
  decomr : α → σ → Option σ
  solvereal : σ → (Fin n → α) → (Fin n → α)

/-- the compile time switches read by the class (Rodascc.hpp 36-41) and the user's object. -/
structure Prob (α : Type) (n : ℕ) where
  /-- right hand side `F(x,y,out)` -/
  F : α → (Fin n → α) → (Fin n → α)
  /-- `F.Jacobian(x,Y,DY1,Jac)` -/
  jac : α → (Fin n → α) → (Fin n → α) → (Fin n → Fin n → α)
  /-- `F.DF_t(x,Y,FX)` -/
  DFt : α → (Fin n → α) → (Fin n → α)
  computeJacobianNumerically : Bool
  autonms : Bool
  useDFt : Bool
  /-- `Jac` holds row `i` of column `j` (`Ibegin(j) <= i <= Iend(j)`, Matrices.hpp) -/
  stored : Fin n → Fin n → Bool

section ops

variable [Add α] [Mul α]

/-- `slvrod`, Rodascc.hpp 193-203; `Y` is only read when `addYnew`. -/
def slvrod (L : Lin α n) (autonms : Bool) (s : L.σ) (hd : α) (DY FX Y : Fin n → α)
    (addYnew : Bool) : Fin n → α :=
  let A : Fin n → α := if autonms then DY else fun i => hd * FX i + DY i
  let A : Fin n → α := if addYnew then fun i => A i + Y i else A
  L.solvereal s A

variable [Div α] [OfNat α 0]

/-- the vectors after one pass through the stages. -/
structure Stages (α : Type) (n : ℕ) where
  AK1 : Fin n → α
  AK2 : Fin n → α
  AK3 : Fin n → α
  AK4 : Fin n → α
  AK5 : Fin n → α
  AK6 : Fin n → α
  YNEW : Fin n → α

/-- the stages, Rodascc.hpp 371-420, after the factorisation. -/
def stages (L : Lin α n) (P : Prob α n) (c : Coef α) (x h : α) (Y DY1 FX : Fin n → α)
    (s : L.σ) : Stages α n :=
  let HD1 := if P.autonms then 0 else h * c.D1
  let HD2 := if P.autonms then 0 else h * c.D2
  let HD3 := if P.autonms then 0 else h * c.D3
  let HD4 := if P.autonms then 0 else h * c.D4
  -- 1
  let AK1 := slvrod L P.autonms s HD1 DY1 FX Y false
  let Y1 : Fin n → α := fun i => c.A21 * AK1 i + Y i
  -- 2
  let AK2 := slvrod L P.autonms s HD2 (P.F (x + c.C2 * h) Y1) FX
    (fun i => c.C21 / h * AK1 i) true
  let Y2 : Fin n → α := fun i => Y i + c.A31 * AK1 i + c.A32 * AK2 i
  -- 3
  let AK3 := slvrod L P.autonms s HD3 (P.F (x + c.C3 * h) Y2) FX
    (fun i => c.C31 / h * AK1 i + c.C32 / h * AK2 i) true
  let Y3 : Fin n → α := fun i => Y i + c.A41 * AK1 i + c.A42 * AK2 i + c.A43 * AK3 i
  -- 4
  let AK4 := slvrod L P.autonms s HD4 (P.F (x + c.C4 * h) Y3) FX
    (fun i => c.C41 / h * AK1 i + c.C42 / h * AK2 i + c.C43 / h * AK3 i) true
  let Y4 : Fin n → α := fun i =>
    Y i + c.A51 * AK1 i + c.A52 * AK2 i + c.A53 * AK3 i + c.A54 * AK4 i
  -- 5 (the linear combination is put in AK6)
  let AK5 := slvrod L P.autonms s 0 (P.F (x + h) Y4) FX
    (fun i => c.C52 / h * AK2 i + c.C54 / h * AK4 i + c.C51 / h * AK1 i + c.C53 / h * AK3 i) true
  let Y5 : Fin n → α := fun i => Y4 i + AK5 i
  -- 6 (the linear combination is put in CONT)
  let AK6 := slvrod L P.autonms s 0 (P.F (x + h) Y5) FX
    (fun i => c.C61 / h * AK1 i + c.C62 / h * AK2 i + c.C65 / h * AK5 i + c.C64 / h * AK4 i
      + c.C63 / h * AK3 i) true
  { AK1 := AK1, AK2 := AK2, AK3 := AK3, AK4 := AK4, AK5 := AK5, AK6 := AK6
    YNEW := fun i => Y5 i + AK6 i }

/-- factorisation and stages, Rodascc.hpp 367-420. -/
def attempt [OfNat α 1] (L : Lin α n) (P : Prob α n) (c : Coef α) (x h : α)
    (Y DY1 FX : Fin n → α) (s : L.σ) : Option (L.σ × Stages α n) :=
  (L.decomr (1 / (h * c.GAMMA)) s).map fun s' => (s', stages L P c x h Y DY1 FX s')

end ops

/-- increment of the numerical derivatives, Rodascc.hpp 167 and 186. -/
def delta (uround a : X) : X := X.sqrt (uround * X.MAX 1.0e-5 (X.ABS a))

/-- `Jacobian(t,y,Fy)`, Rodascc.hpp 161-176: forward differences, only the stored entries are
written (the others are not accessible; 0 here). -/
def numJac (P : Prob X n) (uround t : X) (y Fy : Fin n → X) : Fin n → Fin n → X := fun i j =>
  if P.stored i j then
    (P.F t (Function.update y j (y j + delta uround (y j))) i - Fy i)
      * (1.0e+0 / delta uround (y j))
  else 0

/-- `DF_X(x,Y)`, Rodascc.hpp 180-191. -/
def dfx (P : Prob X n) (uround x : X) (Y DY1 : Fin n → X) : Fin n → X :=
  if P.useDFt then P.DFt x Y
  else fun i => 1.0 / delta uround x * P.F (x + delta uround x) Y i
    + -(1.0 / delta uround x) * DY1 i

/-- parameters of the integrator object (members set by the constructor or a setter). -/
structure Cfg (n : ℕ) where
  coef : Coef X
  uround : X
  fac1 : X
  fac2 : X
  safe : X
  gustafssonTest : Bool
  nmax : ℤ
  onlyOneStep : Bool
  atol : Fin n → X
  rtol : Fin n → X

/-- the object built by the constructor, Rodascc.hpp 254-274 (tolerances as set by
`setTestPolicy`). -/
def Cfg.default (c : Coef ℚ) (atol rtol : Fin n → X) : Cfg n :=
  { coef := c.map fun q : ℚ => X.fin (q : ℝ)
    uround := 1.0e-16, fac1 := 5.0, fac2 := 1.0 / 6.0, safe := 0.9e+0
    gustafssonTest := true, nmax := 10000, onlyOneStep := false, atol := atol, rtol := rtol }

/-- members and local variables of `operator()`.  Ghost fields: `inner` = the control point is the
head of the `do` loop (otherwise the head of the `while` loop); `taken` = sizes of the accepted
steps, last one first; `rejs` = number of rejected attempts. -/
structure St (n : ℕ) (σ : Type) where
  x : X
  h : X
  xend : X
  posneg : X
  hmaxn : X
  hopt : X
  xold : X
  hacc : X
  erracc : X
  firstAcceptedStep : X
  last : Bool
  reject : Bool
  naccpt : ℤ
  nrejct : ℤ
  njac : ℤ
  nstep : ℤ
  ndec : ℤ
  Y : Fin n → X
  DY1 : Fin n → X
  FX : Fin n → X
  jac : σ
  inner : Bool
  taken : List X
  rejs : ℤ

variable {L : Lin X n}

/-- start of `operator()`, Rodascc.hpp 318-334, on an object `o` with arbitrary contents; `y` is
the value of `Y` after `Y=y`. -/
def start (o : St n L.σ) (h x xend : X) (y : Fin n → X) : St n L.σ :=
  { o with
    naccpt := 0, nrejct := 0, njac := 0, reject := false, last := false, nstep := 0, ndec := 0
    h := h, x := x, Y := y, xend := xend
    posneg := X.SIGN (xend - x)
    hmaxn := X.MIN (X.ABS (xend - x)) (X.ABSsub xend x)
    inner := false, taken := [], rejs := 0 }

/-- body of the `while` loop before the `do` loop, Rodascc.hpp 337-363. -/
def prepare (L : Lin X n) (P : Prob X n) (g : Cfg n) (s : St n L.σ) : Res (St n L.σ) :=
  if 0.1e0 * X.ABS s.h ≤ X.ABS s.x * g.uround then .throw .stepTooSmall
  else
    let h1 := if X.ABS s.h < 10.0 * g.uround then 1.0e-6 else s.h
    let h2 := X.MIN (X.ABS h1) s.hmaxn * s.posneg
    let over : Prop := 0.0 < (s.x + h2 * 1.0001 - s.xend) * s.posneg
    let DY1 := P.F s.x s.Y
    .next { s with
      h := if over then s.xend - s.x else h2
      last := if over then true else s.last
      hopt := if over then s.hopt else h2
      xold := s.x
      DY1 := DY1
      jac := L.load (if P.computeJacobianNumerically then numJac P g.uround s.x s.Y DY1
        else P.jac s.x s.Y DY1)
      njac := s.njac + 1
      FX := if P.autonms then s.FX else dfx P g.uround s.x s.Y DY1
      inner := true }

/-- the error norm, Rodascc.hpp 424-430. -/
def errNorm (g : Cfg n) (Y YNEW AK6 : Fin n → X) : X :=
  X.sqrt ((List.finRange n).foldl (fun err i =>
    err + X.pow (AK6 i / (g.atol i + g.rtol i * X.MAX (X.ABS (Y i)) (X.ABS (YNEW i)))) 2) 0.0
    / X.ofInt n)

/-- `MAX(fac2,MIN(fac1,q))`. -/
def clampFac (g : Cfg n) (q : X) : X := X.MAX g.fac2 (X.MIN g.fac1 q)

/-- Rodascc.hpp 434. -/
def facOf (g : Cfg n) (err : X) : X := clampFac g (X.sqrt (X.sqrt err) / g.safe)

/-- the step size proposed after an accepted step, before the two limitations,
Rodascc.hpp 435-450. -/
def hnewAcc (g : Cfg n) (s : St n L.σ) (err : X) : X :=
  if g.gustafssonTest = true ∧ s.naccpt + 1 > 1 then
    s.h / X.MAX (facOf g err)
      (clampFac g (s.hacc / s.h * X.sqrt (X.sqrt (err * err / s.erracc)) / g.safe))
  else s.h / facOf g err

/-- the limitations, Rodascc.hpp 456-457. -/
def limit (s : St n L.σ) (hnew : X) : X :=
  let h1 := if s.hmaxn < X.ABS hnew then s.posneg * s.hmaxn else hnew
  if s.reject then s.posneg * X.MIN (X.ABS h1) (X.ABS s.h) else h1

/-- error control, Rodascc.hpp 431-467. -/
def control (g : Cfg n) (s : St n L.σ) (YNEW : Fin n → X) (err : X) : St n L.σ :=
  if err ≤ 1.0 then
    { s with
      firstAcceptedStep := if s.naccpt = 0 then s.h else s.firstAcceptedStep
      naccpt := s.naccpt + 1
      hacc := if g.gustafssonTest then s.h else s.hacc
      erracc := if g.gustafssonTest then X.MAX 1.0e-02 err else s.erracc
      Y := YNEW
      xold := s.x
      x := s.x + s.h
      h := limit s (hnewAcc g s err)
      reject := false
      taken := s.h :: s.taken }
  else
    { s with
      reject := true
      last := false
      h := s.h / facOf g err
      nrejct := if s.naccpt > 1 then s.nrejct + 1 else s.nrejct
      rejs := s.rejs + 1 }

/-- one pass through the `do` loop, Rodascc.hpp 366-469, and the tests which follow it,
470-472. -/
def body (L : Lin X n) (P : Prob X n) (g : Cfg n) (s : St n L.σ) : Res (St n L.σ) :=
  match attempt L P g.coef s.x s.h s.Y s.DY1 s.FX s.jac with
  | none => .throw .factorisation
  | some (j, k) =>
    let err := errNorm g s.Y k.YNEW k.AK6
    let s1 := control g { s with jac := j, ndec := s.ndec + 1, nstep := s.nstep + 1 } k.YNEW err
    if s1.reject then .next s1
    else if s1.nstep > g.nmax then .throw .nstepTooLarge
    else if g.onlyOneStep then .ret s1
    else .next { s1 with inner := false }

/-- one transition: either the head of the `while` loop or one pass through the `do` loop. -/
def step (L : Lin X n) (P : Prob X n) (g : Cfg n) (s : St n L.σ) : Res (St n L.σ) :=
  if s.inner then body L P g s
  else if s.last then .ret s
  else prepare L P g s

/-! ### Arrays of the caller -/

/-- `setTestPolicy`, Rodascc.hpp 220-240 (`n` components; arrays are blocks of memory).  Returns
(`atol`, `rtol`), one-based; `none` = read outside of a caller's array. -/
def setTestPolicy (n : ℤ) (same : Bool) (atolA rtolA : Mem.Buf X) :
    Option ((ℤ → X) × (ℤ → X)) :=
  Mem.forUp 1 n (fun i s =>
    if same then
      (atolA.rd 0).bind fun a => (rtolA.rd 0).bind fun r =>
        some (Function.update s.1 i a, Function.update s.2 i r)
    else
      (rtolA.rd i).bind fun r => (atolA.rd i).bind fun a =>
        some (Function.update s.1 i a, Function.update s.2 i r))
    (fun _ => X.nan, fun _ => X.nan)

/-- `Y=y` (Rodascc.hpp 328-330): allocation of `y0` and `Y`, copy of the caller's array `a`. -/
def enter (n : ℤ) (a : ℕ) (junk : ℤ → X) (m : Vec.Heap X) : Option (Vec.Heap X × Vec.FVF) :=
  let r0 := Vec.FVF.new n junk m
  let r := Vec.FVF.new n junk r0.1
  (Vec.FVF.assignTab n r.2 a r.1).map fun m' => (m', r.2)

/-- contents of the vector `v`. -/
def contents (m : Vec.Heap X) (v : Vec.FVF) (i : Fin n) : Option X := m.rd v.y i

/-- `Y.put(y)` (Rodascc.hpp 475) when `Y` holds `yfin`. -/
def leave (a : ℕ) (v : Vec.FVF) (yfin : Fin n → X) (m : Vec.Heap X) : Option (Vec.Heap X) :=
  let m' : Vec.Heap X := { m with
    blk := Function.update m.blk v.y ((m.blk v.y).map fun b =>
      { b with cell := fun i => if hi : 0 ≤ i ∧ i < n then yfin ⟨i.toNat, by omega⟩ else b.cell i }) }
  v.put n a m'

/-- a call `operator()(h,x,xend,a)` which returns in the state `s`: memory `m` before, `m'`
after; `a` is the caller's array. -/
def Call (L : Lin X n) (P : Prob X n) (g : Cfg n) (o : St n L.σ) (h x xend : X) (a : ℕ)
    (m m' : Vec.Heap X) (s : St n L.σ) : Prop :=
  ∃ junk m1 v y, enter n a junk m = some (m1, v) ∧ (∀ i : Fin n, contents m1 v i = some (y i)) ∧
    Returns (step L P g) (start o h x xend y) s ∧ leave a v s.Y m1 = some m'

end

end Odes.Rodas
