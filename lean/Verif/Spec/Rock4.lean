import Verif.Model.Num

/-!
# Reference definition of one ROCK4 step

Independent of the implementation: A. Abdulle's ROCK4 formula, i.e. the
three-term recurrence followed by the four-stage finishing method and the embedded error.
-/

namespace Odes.Spec

noncomputable section

variable {n : ℕ}

/-- Position (one-based) in the table of recurrence coefficients at which the block of the
`k`-th formula (zero-based) starts when the blocks of the degrees `ds` follow each other:
a formula of degree `d` needs `2 d - 1` coefficients. -/
def blockStart (ds : List ℤ) (k : ℕ) : ℤ := 1 + ((ds.take k).map fun d => 2 * d - 1).sum

/-- `g_0 = y`, `g_1 = y + h mu_1 F(y)`,
`g_j = h mu_j F(g_{j-1}) + (1+kappa_j) g_{j-1} - kappa_j g_{j-2}`. -/
def gRec (F : (Fin n → X) → Fin n → X) (mu kap : ℕ → X) (h : X) (y : Fin n → X) :
    ℕ → Fin n → X
  | 0 => y
  | 1 => fun i => y i + h * mu 1 * F y i
  | (j + 2) => fun i => h * mu (j + 2) * F (gRec F mu kap h y (j + 1)) i
      + (1 + kap (j + 2)) * gRec F mu kap h y (j + 1) i
      - kap (j + 2) * gRec F mu kap h y j i

/-- coefficients of one formula of the family. -/
structure Formula where
  /-- number of stages of the recurrence -/
  deg : ℕ
  mu : ℕ → X
  kap : ℕ → X
  /-- finishing method -/
  a21 : X
  a31 : X
  a32 : X
  a41 : X
  a42 : X
  a43 : X
  b : Fin 4 → X
  /-- embedded weights -/
  be : Fin 5 → X

/-- the stages of the finishing method. -/
structure Stages (n : ℕ) where
  k1 : Fin n → X
  k2 : Fin n → X
  k3 : Fin n → X
  k4 : Fin n → X
  /-- the new value -/
  ynew : Fin n → X
  /-- `F` at the new value -/
  fnew : Fin n → X

/-- finishing four-stage method started at the last term of the recurrence. -/
def stages (R : Formula) (F : (Fin n → X) → Fin n → X) (h : X) (y : Fin n → X) : Stages n :=
  let g := gRec F R.mu R.kap h y R.deg
  let k1 := F g
  let k2 := F (fun i => g i + h * R.a21 * k1 i)
  let k3 := F (fun i => g i + h * R.a31 * k1 i + h * R.a32 * k2 i)
  let k4 := F (fun i => g i + h * R.a41 * k1 i + h * R.a42 * k2 i + h * R.a43 * k3 i)
  let ynew := fun i => g i + h * R.b 0 * k1 i + h * R.b 1 * k2 i + h * R.b 2 * k3 i
    + h * R.b 3 * k4 i
  { k1 := k1, k2 := k2, k3 := k3, k4 := k4, ynew := ynew, fnew := F ynew }

/-- error estimate of component `i`. -/
def errVec (R : Formula) (h : X) (s : Stages n) (i : Fin n) : X :=
  (h * R.be 0 - h * R.b 0) * s.k1 i + (h * R.be 1 - h * R.b 1) * s.k2 i
    + (h * R.be 2 - h * R.b 2) * s.k3 i + (h * R.be 3 - h * R.b 3) * s.k4 i
    + h * R.be 4 * s.fnew i

/-- `Path F ok t y t' y'`: the value `y'` at time `t'` is obtained from `y` at time `t` by
finitely many steps of formulas of the family, each of positive length and each satisfying
`ok` (formula, step length, value it starts from); the lengths add up to `t' - t`. -/
inductive Path (F : (Fin n → X) → Fin n → X) (ok : Formula → ℝ → (Fin n → X) → Prop)
    (t : ℝ) (y : Fin n → X) : ℝ → (Fin n → X) → Prop
  | refl : Path F ok t y t y
  | tail {t' : ℝ} {y' : Fin n → X} (R : Formula) (h : ℝ) (hp : Path F ok t y t' y')
      (hpos : 0 < h) (hok : ok R h y') : Path F ok t y (t' + h) (stages R F (X.fin h) y').ynew

/-- root mean square of `e_i / (|y_i| rtol + atol)`. -/
def scaledRms (e y : Fin n → X) (atol rtol : X) : X :=
  X.sqrt ((List.finRange n).foldl (fun acc i =>
    acc + e i * e i * (1 / (X.ABS (y i) * rtol + atol)) * (1 / (X.ABS (y i) * rtol + atol))) 0
    / X.ofInt n)

end

end Odes.Spec
