import Verif.Model.Storage
import Mathlib.Analysis.SpecialFunctions.Sqrt

/-!
# Problems shipped with Radau5, Rodas and Rock4

Model of Radau5-NG/test/{KPP,Oregonator,E5,BZ}.hpp, Rodas-NG/test/{KPP,Oregonator,E5}.hpp,
Rock4-L/test/FRadau5.hpp and Rock4-NG/test/FKPPOMP.hpp in exact arithmetic.  Arrays are buffers, an
access out of bounds is `none`; `y` and `res` are distinct arrays (`Restrict`).  A `fortranVector`
argument `y` shares the memory of the array: `y(i)` is cell `i-1` (fortranVector.hpp 68-86).
The time argument is ignored by all these functions.
-/

namespace Odes.Stiff

open Odes.Mem Odes.Storage

/-! ### tridiagonal problems: KPP (both) and FRadau5 -/

/-- `operator()`: Radau5-NG/test/KPP.hpp 57-66, Rodas-NG/test/KPP.hpp 62-69, FRadau5.hpp 56-65.
The three texts differ by the last term only: `f(y[i])` or `b[i]`, here `f i y[i]`. -/
def heatRhs (n : ℤ) (eh2 : ℝ) (f : ℤ → ℝ → Option ℝ) (y res : Buf ℝ) : Option (Buf ℝ) :=
  ((y.rd 1).bind fun y1 => (y.rd 0).bind fun y0 => (f 0 y0).bind fun r =>
    res.wr 0 (2 * eh2 * (y1 - y0) + r)).bind fun res =>
  (forUp 1 (n - 1 - 1) (fun i res => (y.rd (i - 1)).bind fun a => (y.rd i).bind fun b =>
    (y.rd (i + 1)).bind fun c => (f i b).bind fun r =>
      res.wr i (eh2 * (a - 2 * b + c) + r)) res).bind fun res =>
  (y.rd (n - 2)).bind fun a => (y.rd (n - 1)).bind fun b => (f (n - 1) b).bind fun r =>
    res.wr (n - 1) (2 * eh2 * (a - b) + r)

/-- `Jacobian`: Radau5-NG/test/KPP.hpp 67-80, Rodas-NG/test/KPP.hpp 70-80, FRadau5.hpp 66-78, in a
matrix with one sub- and one superdiagonal.  `d u` is the expression written on the diagonal,
`-2*eh2+df(u)` or `-2*eh2`.  The last assignment is `Jac(lr,lc)=2*eh2` with `(lr,lc)=(n-1,n)` in KPP.hpp
of Radau5 and FRadau5.hpp, `(n,n)` in KPP.hpp of Rodas. -/
def heatJac (n lr lc : ℤ) (eh2 : ℝ) (d : ℝ → ℝ) (y J : Buf ℝ) : Option (Buf ℝ) :=
  ((y.rd (1 - 1)).bind fun u => frSet 1 1 J 1 1 (d u)).bind fun J =>
  (frSet 1 1 J 1 2 (2 * eh2)).bind fun J =>
  (forUp 2 (n - 1) (fun i J => ((y.rd (i - 1)).bind fun u => frSet 1 1 J i i (d u)).bind fun J =>
    (frSet 1 1 J i (i - 1) eh2).bind fun J => frSet 1 1 J i (i + 1) eh2) J).bind fun J =>
  ((y.rd (n - 1)).bind fun u => frSet 1 1 J n n (d u)).bind fun J =>
  frSet 1 1 J lr lc (2 * eh2)

/-- `h` and `eh2`, Radau5-NG/test/KPP.hpp 40-44, Rodas-NG/test/KPP.hpp 45-49 (`L=100`, `eps=0.001`),
FRadau5.hpp 34-38 (`L=1`, `eps=1`). -/
noncomputable def eh2 (n : ℤ) (L eps : ℝ) : ℝ := eps / (L / ((n : ℝ) - 1) * (L / ((n : ℝ) - 1)))

/-- `f`, Rodas-NG/test/KPP.hpp 12-15; with `k=1`: Radau5-NG/test/KPP.hpp 13-16 (`u*u*(1.-u)`). -/
def kppF (k u : ℝ) : ℝ := k * u * u * (1 - u)
/-- `df`, Rodas-NG/test/KPP.hpp 16-19; with `k=1`: Radau5-NG/test/KPP.hpp 17-20. -/
def kppDf (k u : ℝ) : ℝ := k * u * (2 - 3 * u)

/-- KPP of Radau5: right hand side and Jacobian, `n=1000` (line 24). -/
noncomputable def kppRadauRhs : Buf ℝ → Buf ℝ → Option (Buf ℝ) :=
  heatRhs 1000 (eh2 1000 100 0.001) fun _ u => some (kppF 1 u)
noncomputable def kppRadauJac : Buf ℝ → Buf ℝ → Option (Buf ℝ) :=
  heatJac 1000 (1000 - 1) 1000 (eh2 1000 100 0.001) fun u => -2 * eh2 1000 100 0.001 + kppDf 1 u

/-- KPP of Rodas, `n=100000` (line 23). -/
noncomputable def kppRodasRhs : Buf ℝ → Buf ℝ → Option (Buf ℝ) :=
  heatRhs 100000 (eh2 100000 100 0.001) fun _ u => some (kppF 1 u)
noncomputable def kppRodasJac : Buf ℝ → Buf ℝ → Option (Buf ℝ) :=
  heatJac 100000 100000 100000 (eh2 100000 100 0.001) fun u => -2 * eh2 100000 100 0.001 + kppDf 1 u

/-- FRadau5, `n=100` (line 18); `b` is a member array of `n` numbers. -/
noncomputable def fradauRhs (b : Buf ℝ) : Buf ℝ → Buf ℝ → Option (Buf ℝ) :=
  heatRhs 100 (eh2 100 1 1) fun i _ => b.rd i
noncomputable def fradauJac : Buf ℝ → Buf ℝ → Option (Buf ℝ) :=
  heatJac 100 (100 - 1) 100 (eh2 100 1 1) fun _ => -2 * eh2 100 1 1

/-! ### Oregonator -/

/-- `u7`, Radau5-NG/test/Oregonator.hpp 26. -/
noncomputable def u7 : ℝ := 1 / 77.27e0

/-- `operator()`, Radau5-NG/test/Oregonator.hpp 35-40; in Rodas-NG/test/Oregonator.hpp 38-43 the
second line reads `/77.27` instead of `*u7`, the same number in exact arithmetic. -/
noncomputable def oreRhs (y : Fin 3 → ℝ) : Fin 3 → ℝ :=
  ![77.27 * (y 1 + y 0 * (1 - 8.375e-06 * y 0 - y 1)), (y 2 - (1 + y 0) * y 1) * u7,
    0.161 * (y 0 - y 2)]

/-- `Jacobian`, Radau5-NG/test/Oregonator.hpp 41-53. -/
noncomputable def oreJacRadau (y : Fin 3 → ℝ) : Fin 3 → Fin 3 → ℝ :=
  ![![-0.00129427250 * y 0 - 77.270 * y 1 + 77.270, -77.270 * y 0 + 77.270, 0.0],
    ![-u7 * y 1, -u7 * (y 0 + 1.0), u7],
    ![0.161, 0.0, -0.16100]]

/-- `Jacobian`, Rodas-NG/test/Oregonator.hpp 44-56. -/
noncomputable def oreJacRodas (y : Fin 3 → ℝ) : Fin 3 → Fin 3 → ℝ :=
  ![![0.00129427250 * y 0 - 77.270 * y 1 + 77.270, -77.270 * y 0 + 77.270, 0.0],
    ![-0.0129416332341141 * y 1, -0.0129416332341141 * y 0 - 0.0129416332341141, 0.0129416332341141],
    ![0.161, 0.0, -0.16100]]

/-! ### E5 -/

/-- `operator()`, Radau5-NG/test/E5.hpp 40-50 (`MC=M*C`, 30), Rodas-NG/test/E5.hpp 48-59: the same
formulas and constants.  `res[2]` is computed last, from `res[1]` and `res[3]`. -/
noncomputable def e5 (y : Fin 4 → ℝ) : Fin 4 → ℝ :=
  let A := 7.89e-10; let B := 1.1e+07; let M := 1e+06; let C := 1.13e+03; let MC := M * C
  let r0 := -A * y 0 - B * y 0 * y 2
  let r1 := A * y 0 - MC * y 1 * y 2
  let r3 := B * y 0 * y 2 - C * y 3
  ![r0, r1, r1 - r3, r3]

/-- `init`, Radau5-NG/test/E5.hpp 35-38, Rodas-NG/test/E5.hpp 43-46. -/
noncomputable def e5Init : Fin 4 → ℝ := ![1.76e-03, 0, 0, 0]

/-! ### BZ -/

/-- `f1`, `f2`, `f3`, BZ.hpp 16-27. -/
noncomputable def bzF1 (u v _w : ℝ) : ℝ := 77.27 * (v + u * (1 - 8.375e-06 * u - v))
noncomputable def bzF2 (u v w : ℝ) : ℝ := (w - (1 + u) * v) * u7
noncomputable def bzF3 (u _v w : ℝ) : ℝ := 0.161 * (u - w)

/-- one of the three blocks of `operator()`, BZ.hpp 87-91, 94-98, 101-105: `res` and `y` of the text
are the arrays from `off` on; the reaction reads the three species. -/
def bzBlock (nd off : ℤ) (eh2 : ℝ) (f : ℝ → ℝ → ℝ → ℝ) (y res : Buf ℝ) : Option (Buf ℝ) :=
  let r i := (y.rd i).bind fun u => (y.rd (nd + i)).bind fun v => (y.rd (2 * nd + i)).map fun w => f u v w
  ((y.rd (off + 1)).bind fun y1 => (y.rd (off + 0)).bind fun y0 => (r 0).bind fun r =>
    res.wr (off + 0) (2 * eh2 * (y1 - y0) + r)).bind fun res =>
  (forUp 1 (nd - 1 - 1) (fun i res => (y.rd (off + (i - 1))).bind fun a => (y.rd (off + i)).bind fun b =>
    (y.rd (off + (i + 1))).bind fun c => (r i).bind fun r =>
      res.wr (off + i) (eh2 * (a - 2 * b + c) + r)) res).bind fun res =>
  (y.rd (off + (nd - 2))).bind fun a => (y.rd (off + (nd - 1))).bind fun b => (r (nd - 1)).bind fun r =>
    res.wr (off + (nd - 1)) (2 * eh2 * (a - b) + r)

/-- `operator()`, BZ.hpp 77-106. -/
noncomputable def bzRhs (nd : ℤ) (eps : Fin 3 → ℝ) (y res : Buf ℝ) : Option (Buf ℝ) :=
  (bzBlock nd 0 (eps 0) bzF1 y res).bind fun res =>
  (bzBlock nd nd (eps 1) bzF2 y res).bind fun res =>
  bzBlock nd (2 * nd) (eps 2) bzF3 y res

/-- `eps`, BZ.hpp 61-64. -/
noncomputable def bzEps (nd : ℤ) : Fin 3 → ℝ :=
  let h := 1 / ((nd : ℝ) - 1)
  ![0.0025 / (h * h), 0.0025 / (h * h), 0.0015 / (h * h)]

/-- `df`, BZ.hpp 28-39. -/
noncomputable def bzDf (u v _w : ℝ) : Fin 3 → Fin 3 → ℝ := oreJacRadau ![u, v, _w]

/-- one of the three linear blocks of `Jacobian`, BZ.hpp 114-122, 125-132, 134-141; the matrix has two
sub- and two superdiagonals. -/
def bzLin (nd off : ℤ) (eh2 : ℝ) (J : Buf ℝ) : Option (Buf ℝ) :=
  (frSet 2 2 J (off + 1) (off + 1) (-2 * eh2)).bind fun J =>
  (frSet 2 2 J (off + 1) (off + 2) (2 * eh2)).bind fun J =>
  (forUp 2 (nd - 1) (fun i J => (frSet 2 2 J (off + i) (off + i) (-2 * eh2)).bind fun J =>
    (frSet 2 2 J (off + i) (off + i - 1) eh2).bind fun J =>
    frSet 2 2 J (off + i) (off + i + 1) eh2) J).bind fun J =>
  (frSet 2 2 J (off + nd) (off + nd) (-2 * eh2)).bind fun J =>
  frSet 2 2 J (off + nd - 1) (off + nd) (2 * eh2)

/-- the nonlinear part of `Jacobian`, BZ.hpp 143-154. -/
noncomputable def bzReact (nd : ℤ) (y J : Buf ℝ) : Option (Buf ℝ) :=
  forUp 1 nd (fun i J => (y.rd (i - 1)).bind fun u => (y.rd (i + nd - 1)).bind fun v =>
    (y.rd (i + 2 * nd - 1)).bind fun w =>
      forUp 1 3 (fun j1 J => forUp 1 3 (fun i1 J =>
        (frGet 2 2 J (i + (i1 - 1) * nd) (i + (j1 - 1) * nd)).bind fun a =>
        frSet 2 2 J (i + (i1 - 1) * nd) (i + (j1 - 1) * nd)
          (a + bzDf u v w (Fin.ofNat 3 (i1 - 1).toNat) (Fin.ofNat 3 (j1 - 1).toNat))) J) J) J

/-- `Jacobian`, BZ.hpp 107-155; the third block uses `eps[1]` again (134). -/
noncomputable def bzJac (nd : ℤ) (eps : Fin 3 → ℝ) (y J : Buf ℝ) : Option (Buf ℝ) :=
  (bzLin nd 0 (eps 0) J).bind fun J => (bzLin nd nd (eps 1) J).bind fun J =>
  (bzLin nd (2 * nd) (eps 1) J).bind fun J => bzReact nd y J

/-! ### Fisher-KPP, Rock4-NG -/

/-- `f`, FKPPOMP.hpp 14-19. -/
noncomputable def fisherF (u : ℝ) : ℝ := min 1 (max 0 (0.5 * u * (1 - u)))

/-- `uh2`, FKPPOMP.hpp 26-27. -/
noncomputable def fisherUh2 (size : ℤ) : ℝ :=
  0.002 / (1 / ((size : ℝ) - 1) * (1 / ((size : ℝ) - 1)))

/-- `rho()`, FKPPOMP.hpp 27, 46-48. -/
noncomputable def fisherRho (size : ℤ) : ℝ := 4 * fisherUh2 size + 1

/-- `operator()`, FKPPOMP.hpp 34-44. -/
noncomputable def fisherRhs (size : ℤ) (x y : Buf ℝ) : Option (Buf ℝ) :=
  ((x.rd 1).bind fun x1 => (x.rd 0).bind fun x0 =>
    y.wr 0 (fisherUh2 size * (x1 - x0) + fisherF x0)).bind fun y =>
  (forUp 1 (size - 1 - 1) (fun i y => (x.rd (i - 1)).bind fun a => (x.rd i).bind fun b =>
    (x.rd (i + 1)).bind fun c => y.wr i (fisherUh2 size * (a - 2.0 * b + c) + fisherF b)) y).bind fun y =>
  (x.rd (size - 2)).bind fun a => (x.rd (size - 1)).bind fun b =>
    y.wr (size - 1) (fisherUh2 size * (a - b) + fisherF b)

end Odes.Stiff
