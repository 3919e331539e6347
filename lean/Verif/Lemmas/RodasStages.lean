import Verif.Model.Rodas
import Verif.Spec.Rodas

/-! The stages of Rodas satisfy the Rosenbrock equations, in exact arithmetic. -/

namespace Odes.Rodas

open Spec

variable {K : Type} [Field K] {n : ℕ}

/-- the six-stage method with the coefficients of a table. -/
def method (c : Coef K) : Rosenbrock K 6 where
  gamma := c.GAMMA
  alpha := ![0, c.C2, c.C3, c.C4, 1, 1]
  d := ![c.D1, c.D2, c.D3, c.D4, 0, 0]
  a := ![![0, 0, 0, 0, 0, 0], ![c.A21, 0, 0, 0, 0, 0], ![c.A31, c.A32, 0, 0, 0, 0],
    ![c.A41, c.A42, c.A43, 0, 0, 0], ![c.A51, c.A52, c.A53, c.A54, 0, 0],
    ![c.A51, c.A52, c.A53, c.A54, 1, 0]]
  c := ![![0, 0, 0, 0, 0, 0], ![c.C21, 0, 0, 0, 0, 0], ![c.C31, c.C32, 0, 0, 0, 0],
    ![c.C41, c.C42, c.C43, 0, 0, 0], ![c.C51, c.C52, c.C53, c.C54, 0, 0],
    ![c.C61, c.C62, c.C63, c.C64, c.C65, 0]]
  m := ![c.A51, c.A52, c.A53, c.A54, 1, 1]

/-- contract of the linear algebra: `R J s` = the object `s` holds the Jacobian `J` (possibly
already reduced); `Shape` = the matrices which the storage can hold. -/
structure LinSpec (L : Lin K n) (Shape : (Fin n → Fin n → K) → Prop) where
  R : (Fin n → Fin n → K) → L.σ → Prop
  load : ∀ J, Shape J → R J (L.load J)
  decomr : ∀ J s fac s', R J s → L.decomr fac s = some s' → R J s' ∧
    ∀ b, (fac • (1 : Matrix (Fin n) (Fin n) K) - Matrix.of J).mulVec (L.solvereal s' b) = b

/-- the equations defining the stages, in terms of the stages themselves. -/
structure Chain {α : Type} [Add α] [Mul α] [Div α] [OfNat α 0] (L : Lin α n) (P : Prob α n)
    (c : Coef α) (x h : α) (Y DY1 FX : Fin n → α) (s : L.σ) (k : Stages α n) : Prop where
  h1 : k.AK1 = slvrod L P.autonms s (if P.autonms then 0 else h * c.D1) DY1 FX Y false
  h2 : k.AK2 = slvrod L P.autonms s (if P.autonms then 0 else h * c.D2)
    (P.F (x + c.C2 * h) (fun i => c.A21 * k.AK1 i + Y i)) FX (fun i => c.C21 / h * k.AK1 i) true
  h3 : k.AK3 = slvrod L P.autonms s (if P.autonms then 0 else h * c.D3)
    (P.F (x + c.C3 * h) (fun i => Y i + c.A31 * k.AK1 i + c.A32 * k.AK2 i)) FX
    (fun i => c.C31 / h * k.AK1 i + c.C32 / h * k.AK2 i) true
  h4 : k.AK4 = slvrod L P.autonms s (if P.autonms then 0 else h * c.D4)
    (P.F (x + c.C4 * h) (fun i => Y i + c.A41 * k.AK1 i + c.A42 * k.AK2 i + c.A43 * k.AK3 i)) FX
    (fun i => c.C41 / h * k.AK1 i + c.C42 / h * k.AK2 i + c.C43 / h * k.AK3 i) true
  h5 : k.AK5 = slvrod L P.autonms s 0
    (P.F (x + h) (fun i => Y i + c.A51 * k.AK1 i + c.A52 * k.AK2 i + c.A53 * k.AK3 i
      + c.A54 * k.AK4 i)) FX
    (fun i => c.C52 / h * k.AK2 i + c.C54 / h * k.AK4 i + c.C51 / h * k.AK1 i
      + c.C53 / h * k.AK3 i) true
  h6 : k.AK6 = slvrod L P.autonms s 0
    (P.F (x + h) (fun i => Y i + c.A51 * k.AK1 i + c.A52 * k.AK2 i + c.A53 * k.AK3 i
      + c.A54 * k.AK4 i + k.AK5 i)) FX
    (fun i => c.C61 / h * k.AK1 i + c.C62 / h * k.AK2 i + c.C65 / h * k.AK5 i + c.C64 / h * k.AK4 i
      + c.C63 / h * k.AK3 i) true
  hy : k.YNEW = fun i => Y i + c.A51 * k.AK1 i + c.A52 * k.AK2 i + c.A53 * k.AK3 i
      + c.A54 * k.AK4 i + k.AK5 i + k.AK6 i

theorem stages_chain {α : Type} [Add α] [Mul α] [Div α] [OfNat α 0] (L : Lin α n) (P : Prob α n)
    (c : Coef α) (x h : α) (Y DY1 FX : Fin n → α) (s : L.σ) :
    Chain L P c x h Y DY1 FX s (stages L P c x h Y DY1 FX s) :=
  ⟨rfl, rfl, rfl, rfl, rfl, rfl, rfl⟩

theorem stages_solve {L : Lin K n} {P : Prob K n} {c : Coef K} {x h : K} {Y FX : Fin n → K}
    {J : Matrix (Fin n) (Fin n) K} {s : L.σ}
    (hs : ∀ b, ((1 / (h * c.GAMMA)) • (1 : Matrix (Fin n) (Fin n) K) - J).mulVec
      (L.solvereal s b) = b) {k : Stages K n} (hk : Chain L P c x h Y (P.F x Y) FX s k) :
    (method c).Step P.F J (if P.autonms then 0 else FX) x h Y
      ![k.AK1, k.AK2, k.AK3, k.AK4, k.AK5, k.AK6] k.YNEW := by
  constructor
  · have e : ∀ hd DY Z b, ((1 / (h * c.GAMMA)) • (1 : Matrix (Fin n) (Fin n) K) - J).mulVec
        (slvrod L P.autonms s hd DY FX Z b) =
        DY + (if b then Z else 0) + hd • (if P.autonms then 0 else FX) := by
      intro hd DY Z b
      unfold slvrod
      dsimp only
      rw [hs]
      cases b <;> cases P.autonms <;> funext i <;> simp <;> ring
    have e2 : ∀ a : K, (if P.autonms then (0 : K) else a) •
        (if P.autonms then (0 : Fin n → K) else FX)
        = a • (if P.autonms then (0 : Fin n → K) else FX) := by
      intro a; cases P.autonms <;> simp
    intro i
    fin_cases i
    · refine ((congrArg _ hk.h1).trans (e _ _ _ _)).trans ?_
      refine congrArg₂ (· + ·) (congrArg₂ (· + ·) ?_ ?_) (e2 _)
      · simp [method, Fin.sum_univ_succ]
      · simp [Fin.sum_univ_succ]
    · refine ((congrArg _ hk.h2).trans (e _ _ _ _)).trans ?_
      refine congrArg₂ (· + ·) (congrArg₂ (· + ·) (congrArg₂ P.F rfl ?_) ?_) (e2 _)
      all_goals
        funext j
        simp [method, Fin.sum_univ_succ]
      ring
    · refine ((congrArg _ hk.h3).trans (e _ _ _ _)).trans ?_
      refine congrArg₂ (· + ·) (congrArg₂ (· + ·) (congrArg₂ P.F rfl ?_) ?_) (e2 _)
      all_goals
        funext j
        simp [method, Fin.sum_univ_succ]
      ring
    · refine ((congrArg _ hk.h4).trans (e _ _ _ _)).trans ?_
      refine congrArg₂ (· + ·) (congrArg₂ (· + ·) (congrArg₂ P.F rfl ?_) ?_) (e2 _)
      all_goals
        funext j
        simp [method, Fin.sum_univ_succ]
        ring
    · refine ((congrArg _ hk.h5).trans (e _ _ _ _)).trans ?_
      refine congrArg₂ (· + ·) (congrArg₂ (· + ·) (congrArg₂ P.F (by simp [method]) ?_) ?_)
        (by simp [method])
      all_goals
        funext j
        simp [method, Fin.sum_univ_succ]
        ring
    · refine ((congrArg _ hk.h6).trans (e _ _ _ _)).trans ?_
      refine congrArg₂ (· + ·) (congrArg₂ (· + ·) (congrArg₂ P.F (by simp [method]) ?_) ?_)
        (by simp [method])
      all_goals
        funext j
        simp [method, Fin.sum_univ_succ]
        ring
  · rw [hk.hy]
    funext i
    simp [method, Fin.sum_univ_succ]
    ring

end Odes.Rodas
