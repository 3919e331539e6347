import Verif.Model.Mem
import Verif.Model.PlanetsFl

/-!
# The loops of Outer.hpp (OuterNeptune.hpp, OuterUranus.hpp) on arrays of rounded numbers

As `Model/SympTest.lean`, every operation being rounded as in `Model/PlanetsFl.lean`; an access out of bounds is `none`.
-/

namespace Odes.Symp.Test

open Odes.Mem Odes.Symp

variable {F : FP} {N : ℕ} (c : PlanetsFl F N)

/-- the array `masses` of `N` elements, Outer.hpp 27. -/
def massBuf : Buf F.T := ⟨N, fun k => if h : 0 ≤ k ∧ k < N then c.masses ⟨k.toNat, by omega⟩ else c.bad⟩

/-- `diff2(q,q,k,l)`, Outer.hpp 13-20. -/
noncomputable def diff2L (X : Buf F.T) (k l : ℤ) : Option F.T :=
  forUp 0 2 (fun i ret => (X.rd (3 * k + i)).bind fun a => (X.rd (3 * l + i)).map fun b => ret + c.pow2 (a - b)) 0

/-- a division, rounded. -/
noncomputable def divL (g w : F.T) : F.T := ⟨F.rnd (g.1 / w.1), F.rn.flt _⟩

/-- `c*(x-y)` with `c=g/w`; `bad` for a division by zero. -/
noncomputable def termL (g w x y : F.T) : F.T :=
  if w.1 = 0 then c.bad else divL g w * (x - y)

/-- the loop on `s`: `dp[3*l+s]+=c*(q[3*a+s]-q[3*b+s])`, Outer.hpp 69-70, 79-80. -/
noncomputable def addRowL (X : Buf F.T) (dp l a b : ℤ) (g w : F.T) (Y : Buf F.T) : Option (Buf F.T) :=
  forUp 0 2 (fun s Y => (X.rd (3 * a + s)).bind fun x => (X.rd (3 * b + s)).bind fun y =>
    (Y.rd (dp + (3 * l + s))).bind fun d => Y.wr (dp + (3 * l + s)) (d + termL c g w x y)) Y

/-- `pow(sqrt(d),3)`. -/
noncomputable def cubeL (d : F.T) : F.T := c.pow3 ⟨F.rnd (Real.sqrt d.1), F.rn.flt _⟩

/-- Outer.hpp 67-70. -/
noncomputable def pair1 (X : Buf F.T) (dp l j : ℤ) (Y : Buf F.T) : Option (Buf F.T) :=
  ((massBuf c).rd l).bind fun ml => ((massBuf c).rd j).bind fun mj => (diff2L c X l j).bind fun d =>
    addRowL c X dp l l j (c.G * ml * mj) (cubeL c d) Y

/-- Outer.hpp 77-80. -/
noncomputable def pair2 (X : Buf F.T) (dp l j : ℤ) (Y : Buf F.T) : Option (Buf F.T) :=
  ((massBuf c).rd j).bind fun mj => ((massBuf c).rd l).bind fun ml => (diff2L c X j l).bind fun d =>
    addRowL c X dp l j l (negG c * mj * ml) (cubeL c d) Y

/-- Outer.hpp 63-71. -/
noncomputable def lowerL (X : Buf F.T) (dp : ℤ) (Y : Buf F.T) : Option (Buf F.T) :=
  forUp 1 (N - 1) (fun l Y => forUp 0 (l - 1) (fun j Y => pair1 c X dp l j Y) Y) Y

/-- Outer.hpp 73-81. -/
noncomputable def upperL (X : Buf F.T) (dp : ℤ) (Y : Buf F.T) : Option (Buf F.T) :=
  forUp 0 ((N - 1) - 1) (fun l Y => forUp (l + 1) (N - 1) (fun j Y => pair2 c X dp l j Y) Y) Y

/-- `dp[i]=0.0` for `i<3*n`, `n=6*N`, Outer.hpp 59-61. -/
def zeroL (N : ℕ) (dp : ℤ) (Y : Buf F.T) : Option (Buf F.T) :=
  forUp 0 (3 * (6 * N) - 1) (fun i Y => Y.wr (dp + i) 0) Y

/-- `dpdt(q,dp)`, Outer.hpp 57-82. -/
noncomputable def dpdtL (X : Buf F.T) (dp : ℤ) (Y : Buf F.T) : Option (Buf F.T) :=
  (zeroL N dp Y).bind fun Y => (lowerL c X dp Y).bind fun Y => upperL c X dp Y

/-- `-p/mi`, Outer.hpp 54; `bad` for a division by zero. -/
noncomputable def quotL (p m : F.T) : F.T := if m.1 = 0 then c.bad else ⟨F.rnd (-p.1 / m.1), F.rn.flt _⟩

/-- `dqdt(p,dq)` with `p = X+3*N`, `dq = Y+off`, Outer.hpp 47-56. -/
noncomputable def dqdtL (X : Buf F.T) (off : ℤ) (Y : Buf F.T) : Option (Buf F.T) :=
  forUp 0 (N - 1) (fun i Y => ((massBuf c).rd i).bind fun mi =>
    forUp 0 2 (fun j Y => (X.rd (3 * N + (3 * i + j))).bind fun p => Y.wr (off + (3 * i + j)) (quotL c p mi)) Y) Y

/-- `operator()(X,Y+off)`, Outer.hpp 86-97. -/
noncomputable def rhsL (X : Buf F.T) (off : ℤ) (Y : Buf F.T) : Option (Buf F.T) :=
  (dqdtL c X off Y).bind fun Y => dpdtL c X (off + 3 * N) Y

/-- the evaluations of one iteration, SymplecticRK.hpp 80-88, with the members `v, Y, Y1, delta, e, a` (line 21) one after the other
in memory and no check of the bounds of the single arrays (not guaranteed by the language, see `evalsFlat`). -/
noncomputable def evalsL (s : ℕ) (mem : Buf F.T) : Option (Buf F.T) :=
  forUp 0 (s - 1) (fun i mem =>
    (forUp 0 (6 * N - 1) (fun j mem => (mem.rd (6 * N + (i * (6 * N) + j))).bind fun y => mem.wr j y) mem).bind fun mem =>
    rhsL c ⟨6 * N, mem.cell⟩ (6 * N + s * (6 * N) + i * (6 * N)) mem) mem

end Odes.Symp.Test
