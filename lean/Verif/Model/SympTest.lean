import Verif.Model.Mem
import Mathlib.Analysis.SpecialFunctions.Sqrt

/-!
# Problems shipped with the symplectic methods

Model of SymplecticRK/test: Outer.hpp, OuterNeptune.hpp, OuterUranus.hpp, Kepler2.hpp, in exact
arithmetic.  The three classes of planets differ by the number of bodies only (6, 5, 4; in Outer.hpp the
numbers 36, 18, 5 are written out): `nb` is a parameter.  Arrays are buffers, an access out of bounds is
`none`.  `X` and `Y` are distinct arrays in all calls made by the solver (`v` and `Y1`).
-/

namespace Odes.Symp.Test

open Odes.Mem

/-- members `masses`, `G` and the number of bodies `nb`. -/
structure Planets where
  nb : ℕ
  masses : Buf ℝ
  G : ℝ

/-- `dot(x,x,k,k)` with `x = X+off`, Outer.hpp 6-12. -/
def dot (X : Buf ℝ) (off k : ℤ) : Option ℝ :=
  forUp 0 2 (fun i ret => (X.rd (off + (3 * k + i))).map fun a => ret + a * a) 0

/-- `diff2(q,q,k,l)`, Outer.hpp 13-20. -/
def diff2 (X : Buf ℝ) (k l : ℤ) : Option ℝ :=
  forUp 0 2 (fun i ret => (X.rd (3 * k + i)).bind fun a => (X.rd (3 * l + i)).map fun b =>
    ret + (a - b) ^ 2) 0

/-- `dqdt(p,dq)` with `p = X+3*nb`, `dq = Y+off`, Outer.hpp 47-56. -/
noncomputable def dqdt (P : Planets) (X : Buf ℝ) (off : ℤ) (Y : Buf ℝ) : Option (Buf ℝ) :=
  forUp 0 (P.nb - 1) (fun i Y => (P.masses.rd i).bind fun mi =>
    forUp 0 2 (fun j Y => (X.rd (3 * P.nb + (3 * i + j))).bind fun p =>
      Y.wr (off + (3 * i + j)) (-p / mi)) Y) Y

/-- `dp[i]=0.0` for `i<3*n`, `n=6*nb`, Outer.hpp 59-61. -/
def zero (P : Planets) (dp : ℤ) (Y : Buf ℝ) : Option (Buf ℝ) :=
  forUp 0 (3 * (6 * P.nb) - 1) (fun i Y => Y.wr (dp + i) 0) Y

/-- the loop on `s`: `dp[3*l+s]+=c*(q[3*a+s]-q[3*b+s])`, Outer.hpp 69-70, 79-80. -/
def addRow (X : Buf ℝ) (dp l a b : ℤ) (c : ℝ) (Y : Buf ℝ) : Option (Buf ℝ) :=
  forUp 0 2 (fun s Y => (X.rd (3 * a + s)).bind fun x => (X.rd (3 * b + s)).bind fun y =>
    (Y.rd (dp + (3 * l + s))).bind fun d => Y.wr (dp + (3 * l + s)) (d + c * (x - y))) Y

/-- Outer.hpp 63-71. -/
noncomputable def lower (P : Planets) (X : Buf ℝ) (dp : ℤ) (Y : Buf ℝ) : Option (Buf ℝ) :=
  forUp 1 (P.nb - 1) (fun l Y => forUp 0 (l - 1) (fun j Y =>
    (P.masses.rd l).bind fun ml => (P.masses.rd j).bind fun mj => (diff2 X l j).bind fun d =>
      addRow X dp l l j (P.G * ml * mj / √d ^ 3) Y) Y) Y

/-- Outer.hpp 73-81. -/
noncomputable def upper (P : Planets) (X : Buf ℝ) (dp : ℤ) (Y : Buf ℝ) : Option (Buf ℝ) :=
  forUp 0 ((P.nb - 1) - 1) (fun l Y => forUp (l + 1) (P.nb - 1) (fun j Y =>
    (P.masses.rd j).bind fun mj => (P.masses.rd l).bind fun ml => (diff2 X j l).bind fun d =>
      addRow X dp l j l (-P.G * mj * ml / √d ^ 3) Y) Y) Y

/-- `dpdt(q,dp)` with `q = X`, `dp` an offset in `Y`, Outer.hpp 57-82. -/
noncomputable def dpdt (P : Planets) (X : Buf ℝ) (dp : ℤ) (Y : Buf ℝ) : Option (Buf ℝ) :=
  (zero P dp Y).bind fun Y => (lower P X dp Y).bind fun Y => upper P X dp Y

/-- `operator()(X,Y+off)`, Outer.hpp 86-97. -/
noncomputable def rhs (P : Planets) (X : Buf ℝ) (off : ℤ) (Y : Buf ℝ) : Option (Buf ℝ) :=
  (dqdt P X off Y).bind fun Y => dpdt P X (off + 3 * P.nb) Y

/-- `H(X)`, Outer.hpp 100-120. -/
noncomputable def hamil (P : Planets) (X : Buf ℝ) : Option ℝ :=
  (forUp 0 (P.nb - 1) (fun i ret => (dot X (3 * P.nb) i).bind fun d => (P.masses.rd i).map fun m =>
    ret + d / m) 0).bind fun ret =>
  (forUp 1 (P.nb - 1) (fun i s => (P.masses.rd i).bind fun mai =>
    forUp 0 (i - 1 - 1) (fun j s => (P.masses.rd j).bind fun mj => (diff2 X i j).map fun d =>
      s + mai * mj / √d) s) 0).map fun s => ret / 2 - P.G * s

/-- the evaluations of one iteration of the solver, SymplecticRK.hpp 80-88, with this right hand side:
`v` is loaded from `Y`, then `f(v,Y1+i*n)`. -/
noncomputable def evals (P : Planets) (s : ℕ) (Y Y1 : Buf ℝ) : Option (Buf ℝ) :=
  forUp 0 (s - 1) (fun i Y1 =>
    rhs P ⟨6 * P.nb, fun k => Y.cell (i * (6 * P.nb) + k)⟩ (i * (6 * P.nb)) Y1) Y1

/-- the same with the members `v, Y, Y1, delta, e, a` (SymplecticRK.hpp 21) in one block of memory, one
after the other, and no check of the bounds of the single arrays.  This is how the usual compilers lay out
arrays of the same type declared in one line; the C++ standard does not allow to rely on it. -/
noncomputable def evalsFlat (P : Planets) (s : ℕ) (mem : Buf ℝ) : Option (Buf ℝ) :=
  forUp 0 (s - 1) (fun i mem =>
    (forUp 0 (6 * P.nb - 1) (fun j mem => (mem.rd (6 * P.nb + (i * (6 * P.nb) + j))).bind fun y =>
      mem.wr j y) mem).bind fun mem =>
    rhs P ⟨6 * P.nb, mem.cell⟩ (6 * P.nb + s * (6 * P.nb) + i * (6 * P.nb)) mem) mem

/-- Outer.hpp 29-46 -/
noncomputable def outer : Planets where
  nb := 6
  masses := ⟨6, fun k => if k = 0 then 0.00095478610443 else if k = 1 then 0.000285583733151
    else if k = 2 then 0.0000437273164546 else if k = 3 then 0.0000517759138449
    else if k = 4 then 1 / (1.3 * 10 ^ 8) else 1.00000597682⟩
  G := 2.95912208286e-04

/-- OuterNeptune.hpp 29-44 -/
noncomputable def outerNeptune : Planets where
  nb := 5
  masses := ⟨5, fun k => if k = 0 then 0.00095478610443 else if k = 1 then 0.000285583733151
    else if k = 2 then 0.0000437273164546 else if k = 3 then 0.0000517759138449 else 1.00000597682⟩
  G := 2.95912208286e-04

/-- OuterUranus.hpp 29-42 -/
noncomputable def outerUranus : Planets where
  nb := 4
  masses := ⟨4, fun k => if k = 0 then 0.00095478610443 else if k = 1 then 0.000285583733151
    else if k = 2 then 0.0000437273164546 else 1.00000597682⟩
  G := 2.95912208286e-04

/-- Kepler2.hpp 10-20 -/
noncomputable def kepler (X : Fin 4 → ℝ) : Fin 4 → ℝ :=
  ![-X 2, -X 3, X 0 / √((X 0 * X 0 + X 1 * X 1) ^ 3), X 1 / √((X 0 * X 0 + X 1 * X 1) ^ 3)]

/-- Kepler2.hpp 21-29 -/
noncomputable def keplerH (X : Fin 4 → ℝ) : ℝ :=
  0.5 * (X 2 * X 2 + X 3 * X 3) - 1 / √(X 0 * X 0 + X 1 * X 1)

/-- Kepler2.hpp 30-33 -/
noncomputable def keplerInit : Fin 4 → ℝ := ![0.1, 0, 0.05, 0.1]

end Odes.Symp.Test
