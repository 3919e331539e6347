import Verif.Model.Rock4

/-!
# Rock4-L: `Rock4L.hpp`

Constant step ROCK4 for `y' = A y` and `y' = A y + b`.  The computation of one step
(`kernel1`, `kernel2`) is written over an arbitrary type of scalars; the time loop uses `X`.

Buffers are numbered heap cells holding whole vectors: `k1, g0, g1, g2` are the cells 0-3
(the four parts of `BigArray`, Rock4L.hpp 73-76), the user's arrays `y` and `b` are other
cells.  C++ `int` counters are unbounded integers.  The unused members `atol`, `rtol`, `nrej`,
`nacc`, `told`, `sizesplit` and the local `pass` are not modelled.
-/

namespace Odes.Rock4L

open Classical

noncomputable section

variable {α : Type} {n : ℕ}

/-- The user's object `Fonc`: its four overloads of `operator()` (Rock4L.hpp 31-43) as
functions of their input arrays and scalars; `out` is a separate array. -/
structure Oper (α : Type) (n : ℕ) where
  /-- `operator()(in,s,a,b,out)` -/
  op5 : (Fin n → α) → (Fin n → α) → α → α → Fin n → α
  /-- `operator()(in,s,a,b,g,out)` -/
  op6 : (Fin n → α) → (Fin n → α) → α → α → (Fin n → α) → Fin n → α
  /-- `operator()(in,s,a,b,c,out)` -/
  op7 : (Fin n → α) → (Fin n → α) → α → α → α → Fin n → α
  /-- `operator()(in,s,a,b,c,g,out)` -/
  op8 : (Fin n → α) → (Fin n → α) → α → α → α → (Fin n → α) → Fin n → α

/-- contents of the tables `RECF[4382]`, `FPA[300]`, `FPB[200]` of
Rock4-L/include/coeffs-rock4, one-based. -/
structure Tab (α : Type) where
  recf : ℕ → α
  fpa : ℕ → ℕ → α
  fpb : ℕ → ℕ → α

/-- `recf(i)` = `RECF[i-1]`, Rock4-L/include/Rock4Coeffs.hpp 14. -/
def recfAt (T : Tab α) (i : ℤ) : Option α :=
  if 0 ≤ i - 1 ∧ i - 1 < 4382 then some (T.recf i.toNat) else none

/-- `fpa(i,j)` = `FPA[(i-1)*6+j-1]`, Rock4-L/include/Rock4Coeffs.hpp 15-18 (reading the row of
another formula is reported as out of bounds). -/
def fpaAt (T : Tab α) (i : ℤ) (j : ℕ) : Option α :=
  if 1 ≤ j ∧ j ≤ 6 ∧ 0 ≤ (i - 1) * 6 + j - 1 ∧ (i - 1) * 6 + j - 1 < 300 then
    some (T.fpa i.toNat j) else none

/-- `fpb(i,j)` = `FPB[(i-1)*4+j-1]`, Rock4-L/include/Rock4Coeffs.hpp 19-22. -/
def fpbAt (T : Tab α) (i : ℤ) (j : ℕ) : Option α :=
  if 1 ≤ j ∧ j ≤ 4 ∧ 0 ≤ (i - 1) * 4 + j - 1 ∧ (i - 1) * 4 + j - 1 < 200 then
    some (T.fpb i.toNat j) else none

/-- write a whole buffer. -/
def upd (heap : ℕ → Fin n → α) (p : ℕ) (v : Fin n → α) : ℕ → Fin n → α :=
  fun q => if q = p then v else heap q

/-- heap and pointers during a kernel; `calls` is a ghost counter of the applications of the
user's operator. -/
structure RL (α : Type) (n : ℕ) where
  heap : ℕ → Fin n → α
  g0 : ℕ
  g1 : ℕ
  g2 : ℕ
  calls : ℕ

/-- `permut3(g0,g1,g2)`, Rock4L.hpp 81-85. -/
def permut3 (r : RL α n) : RL α n := { r with g0 := r.g1, g1 := r.g2, g2 := r.g0 }

/-- coefficients `ac[][]` and `bc[]`, Rock4L.hpp 58. -/
structure Coef (α : Type) where
  a21 : α
  a31 : α
  a32 : α
  a41 : α
  a42 : α
  a43 : α
  b1 : α
  b2 : α
  b3 : α
  b4 : α

variable [Add α] [Mul α] [Sub α] [Neg α] [OfNat α 1]

/-- `makeHornerCoeffs`, Rock4L.hpp 62-71: `hc[1..4]` (`hc[0]=1`). -/
def hc4 (c : Coef α) : α := c.a21 * c.a32 * c.a43 * c.b4
@[inherit_doc hc4]
def hc3 (c : Coef α) : α :=
  c.a21 * c.a32 * c.b3 + c.a21 * c.a42 * c.b4 + c.a31 * c.a43 * c.b4 + c.a32 * c.a43 * c.b4
@[inherit_doc hc4]
def hc2 (c : Coef α) : α :=
  c.a21 * c.b2 + c.a31 * c.b3 + c.a32 * c.b3 + c.a41 * c.b4 + c.a42 * c.b4 + c.a43 * c.b4
@[inherit_doc hc4]
def hc1 (c : Coef α) : α := c.b1 + c.b2 + c.b3 + c.b4

/-- the accesses `fpa(mz,1..6)`, `fpb(mz,1..4)`, Rock4L.hpp 150-155 and 217-222. -/
def fetch (T : Tab α) (mz : ℤ) : Option (Coef α) :=
  (fpaAt T mz 1).bind fun a21 =>
  (fpaAt T mz 2).bind fun a31 =>
  (fpaAt T mz 3).bind fun a32 =>
  (fpaAt T mz 4).bind fun a41 =>
  (fpaAt T mz 5).bind fun a42 =>
  (fpaAt T mz 6).bind fun a43 =>
  (fpbAt T mz 1).bind fun b1 =>
  (fpbAt T mz 2).bind fun b2 =>
  (fpbAt T mz 3).bind fun b3 =>
  (fpbAt T mz 4).bind fun b4 =>
  some ⟨a21, a31, a32, a41, a42, a43, b1, b2, b3, b4⟩

/-- one of the two operators used in the three term recurrence, of the form
`(in,s,a,b,c) -> out`: overload 7 in `kernel1`, overload 8 with `g=b` in `kernel2`. -/
abbrev Three (α : Type) (n : ℕ) := (ℕ → Fin n → α) → (Fin n → α) → (Fin n → α) → α → α → α →
  Fin n → α

/-- the loop `for(int i=2;i<=mdeg;i++)`, Rock4L.hpp 120-138 and 187-205; `k` iterations remain.
`mr` is a `double` in the code, converted back to `int`: exact. -/
def recLoop (op : Three α n) (T : Tab α) (mr : ℤ) (dt : α) (y : ℕ) :
    ℕ → ℤ → RL α n → Option (RL α n)
  | 0, _, r => some r
  | k + 1, i, r =>
    if i = 2 then
      (recfAt T (mr + 1)).bind fun c1 =>
      (recfAt T (mr + 2)).bind fun c2 =>
      let temp1 := dt * c1
      let temp3 := -c2
      let temp2 := 1 - temp3
      let r1 : RL α n :=
        { r with heap := upd r.heap r.g2
                           (op r.heap (r.heap r.g1) (r.heap y) temp1 temp2 temp3),
                 calls := r.calls + 1 }
      recLoop op T mr dt y k (i + 1) (permut3 r1)
    else
      (recfAt T (mr + 2 * (i - 2) + 1)).bind fun c1 =>
      (recfAt T (mr + 2 * (i - 2) + 2)).bind fun c2 =>
      let temp1 := dt * c1
      let temp3 := -c2
      let temp2 := 1 - temp3
      let r1 : RL α n :=
        { r with heap := upd r.heap r.g2
                           (op r.heap (r.heap r.g1) (r.heap r.g0) temp1 temp2 temp3),
                 calls := r.calls + 1 }
      recLoop op T mr dt y k (i + 1) (permut3 r1)

/-- `splitBigArray()`, Rock4L.hpp 73-76: `k1` is the cell 0. -/
def split (heap : ℕ → Fin n → α) : RL α n := { heap := heap, g0 := 1, g1 := 2, g2 := 3, calls := 0 }

/-- `kernel1(y,dt)`, Rock4L.hpp 109-167: heap after the step and number of applications of
the operator. `none`: a table is read out of bounds. -/
def kernel1 (O : Oper α n) (T : Tab α) (mdeg mz mr : ℤ) (heap : ℕ → Fin n → α) (y : ℕ) (dt : α) :
    Option ((ℕ → Fin n → α) × ℕ) :=
  (recfAt T mr).bind fun c0 =>
  let r := split heap
  let r : RL α n := { r with heap := upd r.heap r.g1 (O.op5 (r.heap y) (r.heap y) (dt * c0) 1),
                             calls := r.calls + 1 }
  (recLoop (fun _ => O.op7) T mr dt y (mdeg - 1).toNat 2 r).bind fun r =>
  -- switchAdr(g1,g0); temp=g1
  let g0 := r.g1
  let temp := r.g0
  (fetch T mz).bind fun f =>
  let c : Coef α := ⟨dt * f.a21, dt * f.a31, dt * f.a32, dt * f.a41, dt * f.a42, dt * f.a43,
    dt * f.b1, dt * f.b2, dt * f.b3, dt * f.b4⟩
  let h1 := upd r.heap 0 (O.op5 (r.heap g0) (r.heap g0) (hc4 c) (hc3 c))
  let h2 := upd h1 temp (O.op5 (h1 0) (h1 g0) 1 (hc2 c))
  let h3 := upd h2 0 (O.op5 (h2 temp) (h2 g0) 1 (hc1 c))
  let h4 := upd h3 y (O.op5 (h3 0) (h3 g0) 1 1)
  some (h4, r.calls + 4)

/-- `kernel2(y,b,dt)`, Rock4L.hpp 174-240. -/
def kernel2 (O : Oper α n) (T : Tab α) (mdeg mz mr : ℤ) (heap : ℕ → Fin n → α) (y b : ℕ)
    (dt : α) : Option ((ℕ → Fin n → α) × ℕ) :=
  (recfAt T mr).bind fun c0 =>
  let r := split heap
  let r : RL α n :=
    { r with heap := upd r.heap r.g1 (O.op6 (r.heap y) (r.heap y) (dt * c0) 1 (r.heap b)),
             calls := r.calls + 1 }
  (recLoop (fun hp v s a1 a2 a3 => O.op8 v s a1 a2 a3 (hp b)) T mr dt y (mdeg - 1).toNat 2 r).bind
    fun r =>
  let g0 := r.g1
  let g1 := r.g0
  let g2 := r.g2
  (fetch T mz).bind fun c =>
  let dt2 := dt * dt
  let dt3 := dt2 * dt
  let h1 := upd r.heap 0 (O.op5 (r.heap g0) (r.heap b) dt dt)
  let h2 := upd h1 g1 (O.op5 (h1 0) (h1 0) (hc4 c * dt3) (hc3 c * dt2))
  let h3 := upd h2 g2 (O.op5 (h2 g1) (h2 0) 1 (hc2 c * dt))
  let h4 := upd h3 g1 (O.op5 (h3 g2) (h3 0) 1 (hc1 c))
  let h5 := upd h4 y (fun i => h4 g0 i + h4 g1 i)
  some (h5, r.calls + 4)

/-! ## The time loop -/

/-- members of the object (Rock4L.hpp 49-58) and local variables of `operator()` (283-295);
`calls` is a ghost counter of the applications of the user's operator. -/
structure St (n : ℕ) where
  heap : ℕ → Fin n → X
  y : ℕ
  b : ℕ
  mp1 : ℤ
  mp2 : ℤ
  mdeg : ℤ
  mdego : ℤ
  funccal : ℤ
  nsteps : ℤ
  nstagesmax : ℤ
  t : X
  h : X
  eigmax : X
  uround : X
  calls : ℤ

/-- start of `operator()`, Rock4L.hpp 287-295 and 336-344; `rho` is the answer of `F.rho()`. -/
def start (o : St n) (rho : X) (y b : ℕ) (t0 h0 : X) : St n :=
  { o with y := y, b := b, mdego := 0, nsteps := 0, nstagesmax := 0, funccal := 0, t := t0,
           h := h0, eigmax := rho, calls := 0 }

/-- step size and degree, Rock4L.hpp 299-318 and 348-367. `abs` is `std::abs(double)`. -/
def choose (tend : X) (s : St n) : Res (St n) :=
  let h := if X.ABS (tend - s.t) ≤ 1.01 * s.h then X.ABS (tend - s.t) else s.h
  if h < 10.0 * s.uround then .throw .stepTooSmall
  else
    match X.toInt (X.sqrt ((3.0 + h * s.eigmax) / 0.353) + 1) with
    | none => .ub .intConversion
    | some md =>
      if md > 152 then .throw .degreeTooLarge
      else
        let mdeg := max md 5 - 4
        if mdeg ≠ s.mdego then
          let r := Rock4.mdegre mdeg s.mp1
          .next { s with h := h, mdeg := r.1, mp1 := r.2.1, mp2 := r.2.2, mdego := r.1,
                         nstagesmax := if r.1 + 4 > s.nstagesmax then r.1 + 4
                                       else s.nstagesmax }
        else .next { s with h := h, mdeg := mdeg }

/-- the counters and time after a step, Rock4L.hpp 141-142, 165, 320-321 (and 208-209, 238,
369-370). -/
def advance (tend : X) (s : St n) (hp : ℕ → Fin n → X) (calls : ℕ) : St n :=
  { s with
    heap := hp
    funccal := s.funccal + (s.mdeg + 1) + 4
    nsteps := s.nsteps + 1
    calls := s.calls + calls
    t := s.t + s.h
    h := if tend < s.t + s.h + s.h then tend - (s.t + s.h) else s.h }

/-- `kernel1` or `kernel2` according to the entry point called. -/
def kern (aff : Bool) (O : Oper X n) (T : Tab X) (s : St n) : Option ((ℕ → Fin n → X) × ℕ) :=
  if aff then kernel2 O T s.mdeg s.mp1 s.mp2 s.heap s.y s.b s.h
  else kernel1 O T s.mdeg s.mp1 s.mp2 s.heap s.y s.h

/-- one iteration of `while(t<tend)`, Rock4L.hpp 297-322 and 346-371. -/
def step (aff : Bool) (O : Oper X n) (T : Tab X) (tend : X) (s : St n) : Res (St n) :=
  if s.t < tend then
    match choose tend s with
    | .next s1 =>
      match kern aff O T s1 with
      | none => .ub .outOfBounds
      | some (hp, c) => .next (advance tend s1 hp c)
    | r => r
  else .ret s

/-- Entry of the two `operator()`: the template argument `Affine` must agree with the entry
point used (`aff`: the five-argument one), Rock4L.hpp 285-286 and 334-335.  Result: object and
memory, and the exception if one is thrown. -/
def enter (Affine aff : Bool) (o : St n) (rho : X) (y b : ℕ) (t0 h0 : X) : St n × Option Exn :=
  if Affine = aff then (start o rho y b t0 h0, none) else (o, some .badMode)

end

end Odes.Rock4L
