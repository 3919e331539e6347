import Verif.Model.Rock4LTest
import Verif.Model.Rock4Tables
import Verif.Model.Machine

/-!
# Rock4-L/test/main.cpp

The program compares a solution computed by Radau5 with solutions computed by Rock4L for 30 step
sizes.  Not modelled: the output, and the allocations (a missing `destroyDoubleArray(b)` included).
-/

namespace Odes.Rock4L.Main

/-- `normdiff(n,x,y)`, test/main.cpp 20-27; the loop *assigns* `ret`. -/
noncomputable def normdiff (n : ℕ) (x y : ℕ → ℝ) : ℝ :=
  √((List.range n).foldl (fun _ i => (x i - y i) ^ 2) 0)

/-- `FRadau5::init`, test/FRadau5.hpp 48-54, which sets the initial value of both methods; both loops
together write the entries `0..n-1`. -/
noncomputable def init (n : ℕ) : Fin n → ℝ := fun i => if i.1 ≤ n / 2 then 0.9999999 else 0

/-- `Tinteg`, 41. -/
noncomputable def tinteg : ℝ := 0.5

/-- the value of `dt` in the pass `l` of the loop, 90-93. -/
noncomputable def dt : ℕ → ℝ
  | 0 => tinteg / 2 / 1.25
  | l + 1 => dt l / 1.25

open Test in
/-- the class `F`, test/F.hpp 36-106, on numbers which may be infinite or not a number (compare
`Test.oper`, the same lines over a field). -/
noncomputable def operX (m : ℕ) : Rock4L.Oper X (m + 2) where
  op5 v s a b := fun i =>
    let h1 := X.fin (mesh ℝ m) * X.fin (mesh ℝ m)
    let ah1 := a / h1
    if i.1 = 0 then (X.fin (-2) * v 0 + X.fin 2 * v 1) * ah1 + b * s 0
    else if i.1 = m + 1 then
      (X.fin 2 * v ⟨m, by omega⟩ - X.fin 2 * v ⟨m + 1, by omega⟩) * ah1 + b * s ⟨m + 1, by omega⟩
    else (v (lft i) - X.fin 2 * v i + v (rgt i)) * ah1 + b * s i
  op6 v s a b g := fun i =>
    let h1 := X.fin (mesh ℝ m) * X.fin (mesh ℝ m)
    if i.1 = 0 then a * ((X.fin (-2) * v 0 + X.fin 2 * v 1) / h1 + g 0) + b * s 0
    else if i.1 = m + 1 then
      a * ((X.fin 2 * v ⟨m, by omega⟩ - X.fin 2 * v ⟨m + 1, by omega⟩) / h1 + g ⟨m + 1, by omega⟩)
        + b * s ⟨m + 1, by omega⟩
    else a * ((v (lft i) - X.fin 2 * v i + v (rgt i)) / h1 + g i) + b * s i
  op7 v s a b c := fun i =>
    let h1 := X.fin (mesh ℝ m) * X.fin (mesh ℝ m)
    let ah1 := a / h1
    (if i.1 = 0 then (X.fin (-2) * v 0 + X.fin 2 * v 1) * ah1
     else if i.1 = m + 1 then (X.fin 2 * v ⟨m, by omega⟩ - X.fin 2 * v ⟨m + 1, by omega⟩) * ah1
     else (v (lft i) - X.fin 2 * v i + v (rgt i)) * ah1) + b * v i + c * s i
  op8 v s a b c g := fun i =>
    let h1 := X.fin (mesh ℝ m) * X.fin (mesh ℝ m)
    if i.1 = 0 then a * ((X.fin (-2) * v 0 + X.fin 2 * v 1) / h1 + g 0) + b * v 0 + c * s 0
    else if i.1 = m + 1 then
      a * ((X.fin 2 * v ⟨m, by omega⟩ - X.fin 2 * v ⟨m + 1, by omega⟩) / h1 + g ⟨m + 1, by omega⟩)
        + b * v ⟨m + 1, by omega⟩ + c * s ⟨m + 1, by omega⟩
    else a * ((v (lft i) - X.fin 2 * v i + v (rgt i)) / h1 + g i) + b * v i + c * s i

/-- the tables of `Rock4Coeffs.hpp`. -/
noncomputable def tab : Rock4L.Tab X :=
  ⟨fun i => X.fin (shipped.recf i), fun i j => X.fin (shipped.fpa i j), fun i j => X.fin (shipped.fpb i j)⟩

/-- the call in the pass `l`, 90-105: a new object (`o` is what its constructor and `init(yR)` leave,
the array `yR` being block `p`), `t0 = 0`, end at `Tinteg`; `affine` is false. -/
noncomputable def body : St 100 → Res (St 100) := Rock4L.step false (operX 98) tab (X.fin tinteg)

/-- the first state of that call. -/
noncomputable def first (o : St 100) (p q l : ℕ) : St 100 :=
  Rock4L.start o (X.fin (Test.rho 98)) p q (X.fin 0) (X.fin (dt l))

/-- variables of the loop which looks for tolerances Radau5 accepts. -/
structure Search where
  atol : ℝ
  rtol : ℝ
  calls : ℕ

/-- one pass of that loop, 52-72: `attempt k` tells whether the call number `k` of Radau5 ends without
an exception (each call starts from `t = 0`, `h = Tinteg` and the initial value). -/
noncomputable def search (attempt : ℕ → Bool) (s : Search) : Res Search :=
  if attempt s.calls then .ret { s with calls := s.calls + 1 }
  else .next ⟨s.atol * 2, s.rtol * 2, s.calls + 1⟩

end Odes.Rock4L.Main
