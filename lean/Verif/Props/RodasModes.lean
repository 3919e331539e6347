import Verif.Props.Rodas

/-! # Rodas: C42, the autonomous mode against the non-autonomous mode -/

namespace Odes.Rodas

open Classical

variable {n : ℕ} {L : Lin X n} {P : Prob X n} {g : Cfg n} {q : ℝ}

/-! ### C42 -/

/-- the problem in non-autonomous mode, with the time derivative approximated by a difference
quotient. -/
def nonAuto (P : Prob X n) : Prob X n := { P with autonms := false, useDFt := false }

/-- the problem in autonomous mode. -/
def auto (P : Prob X n) : Prob X n := { P with autonms := true }

theorem zero_add_X (a : X) : (.fin 0 : X) + a = a := by
  cases a <;> simp

theorem slvrod_auto (s : L.σ) {hd : X} {r : ℝ} (hr : hd = .fin r) (DY FX Y : Fin n → X) (b : Bool) :
    slvrod L false s hd DY (fins 0) Y b = slvrod L true s 0 DY FX Y b := by
  have e : (fun i => hd * fins (0 : Fin n → ℝ) i + DY i) = DY := by
    funext i
    rw [hr]
    show X.fin r * X.fin 0 + DY i = DY i
    rw [X.fin_mul, mul_zero, zero_add_X]
  show L.solvereal s (if b then fun i => (fun i => hd * fins (0 : Fin n → ℝ) i + DY i) i + Y i
    else fun i => hd * fins (0 : Fin n → ℝ) i + DY i) = L.solvereal s
      (if b then fun i => DY i + Y i else DY)
  rw [e]

/-- the stages of both modes when the time derivative is 0. -/
theorem stages_auto (P : Prob X n) {c : Coef X} {cr : Coef ℝ} (hc : c = cr.map X.fin) {x h : X}
    {r : ℝ} (hh : h = .fin r) (Y DY1 FX : Fin n → X) (s : L.σ) :
    stages L (nonAuto P) c x h Y DY1 (fins 0) s = stages L (auto P) c x h Y DY1 FX s := by
  have e : ∀ d : ℝ, h * X.fin d = X.fin (r * d) := fun d => by rw [hh, X.fin_mul]
  unfold stages
  simp only [nonAuto, auto, Bool.false_eq_true, if_false, if_true]
  rw [slvrod_auto (FX := FX) s (r := r * cr.D1) (by rw [hc]; exact e cr.D1)]
  rw [slvrod_auto (FX := FX) s (r := r * cr.D2) (by rw [hc]; exact e cr.D2)]
  rw [slvrod_auto (FX := FX) s (r := r * cr.D3) (by rw [hc]; exact e cr.D3)]
  rw [slvrod_auto (FX := FX) s (r := r * cr.D4) (by rw [hc]; exact e cr.D4)]
  rw [slvrod_auto (FX := FX) s (hd := 0) (r := 0) X.zero_eq]
  rw [slvrod_auto (FX := FX) s (hd := 0) (r := 0) X.zero_eq]

/-- forget the vector `FX`. -/
def clr (s : St n L.σ) : St n L.σ := { s with FX := fun _ => 0 }

/-- forget the vector `FX` in a result. -/
def clrRes : Res (St n L.σ) → Res (St n L.σ)
  | .next s => .next (clr s)
  | .ret s => .ret (clr s)
  | .throw e => .throw e
  | .ub u => .ub u

theorem control_FX (s : St n L.σ) (YNEW FX : Fin n → X) (err : X) :
    control g { s with FX := FX } YNEW err = { control g s YNEW err with FX := FX } := by
  unfold control
  split_ifs <;> rfl

/-- one transition in both modes. -/
theorem step_auto {cr : Coef ℝ} (hc : g.coef = cr.map X.fin) (s : St n L.σ) (FX : Fin n → X)
    (h0 : s.inner = false → dfx (nonAuto P) g.uround s.x s.Y (P.F s.x s.Y) = fins 0)
    (h1 : s.inner = true → FX = fins 0 ∧ ∃ r, s.h = .fin r) :
    (∃ t, step L (auto P) g s = .next t ∧ ∃ FX', step L (nonAuto P) g { s with FX := FX }
      = .next { t with FX := FX' } ∧ (t.inner = true → FX' = fins 0)) ∨
    ((∀ t, step L (auto P) g s ≠ .next t) ∧
      clrRes (step L (nonAuto P) g { s with FX := FX }) = clrRes (step L (auto P) g s)) := by
  by_cases hi : s.inner = false
  · have e1 : step L (auto P) g s = if s.last then .ret s else prepare L (auto P) g s := by
      unfold step; rw [if_neg (by simp [hi])]
    have e2 : step L (nonAuto P) g { s with FX := FX } =
        if s.last then .ret { s with FX := FX } else prepare L (nonAuto P) g { s with FX := FX } := by
      unfold step; rw [if_neg (by simp [hi])]
    rw [e1, e2]
    by_cases hl : s.last = true
    · right
      rw [if_pos hl, if_pos hl]
      exact ⟨fun t h => by simp at h, rfl⟩
    · rw [if_neg hl, if_neg hl, prepare_eq, prepare_eq]
      by_cases hs : 0.1e0 * X.ABS s.h ≤ X.ABS s.x * g.uround
      · right
        rw [if_pos hs, if_pos hs]
        exact ⟨fun t h => by simp at h, rfl⟩
      · left
        rw [if_neg hs, if_neg hs]
        refine ⟨_, rfl, fins 0, ?_, fun _ => rfl⟩
        have e3 : (prepared L (nonAuto P) g { s with FX := FX }).FX
            = dfx (nonAuto P) g.uround s.x s.Y (P.F s.x s.Y) := rfl
        have e4 : prepared L (nonAuto P) g { s with FX := FX } =
            { prepared L (auto P) g s with
              FX := (prepared L (nonAuto P) g { s with FX := FX }).FX } := rfl
        rw [e4, e3, h0 hi]
  · replace hi : s.inner = true := by simpa using hi
    obtain ⟨rfl, r, hr⟩ := h1 hi
    have ea : attempt L (nonAuto P) g.coef s.x s.h s.Y s.DY1 (fins 0) s.jac =
        attempt L (auto P) g.coef s.x s.h s.Y s.DY1 s.FX s.jac := by
      unfold attempt
      congr 1
      funext s'
      rw [stages_auto P hc hr s.Y s.DY1 s.FX s']
    have e1 : step L (auto P) g s = body L (auto P) g s := by unfold step; rw [if_pos hi]
    have e2 : step L (nonAuto P) g { s with FX := fins 0 } =
        body L (nonAuto P) g { s with FX := fins 0 } := by unfold step; rw [if_pos hi]
    rw [e1, e2]
    unfold body
    dsimp only
    rw [ea]
    cases attempt L (auto P) g.coef s.x s.h s.Y s.DY1 s.FX s.jac with
    | none => exact Or.inr ⟨fun t h => by simp at h, rfl⟩
    | some jk =>
      obtain ⟨j, k⟩ := jk
      dsimp only
      have ec := control_FX (g := g) { s with jac := j, ndec := s.ndec + 1, nstep := s.nstep + 1 }
        k.YNEW (fins 0) (errNorm g s.Y k.YNEW k.AK6)
      dsimp only at ec
      rw [ec]
      generalize control g { s with jac := j, ndec := s.ndec + 1, nstep := s.nstep + 1 }
        k.YNEW (errNorm g s.Y k.YNEW k.AK6) = s1
      dsimp only
      by_cases h2 : s1.reject = true
      · left
        rw [if_pos h2, if_pos h2]
        exact ⟨_, rfl, _, rfl, fun _ => rfl⟩
      · rw [if_neg h2, if_neg h2]
        by_cases h3 : s1.nstep > g.nmax
        · right
          rw [if_pos h3, if_pos h3]
          exact ⟨fun t h => by simp at h, rfl⟩
        · rw [if_neg h3, if_neg h3]
          by_cases h4 : g.onlyOneStep = true
          · right
            rw [if_pos h4, if_pos h4]
            exact ⟨fun t h => by simp at h, rfl⟩
          · left
            rw [if_neg h4, if_neg h4]
            exact ⟨_, rfl, _, rfl, fun _ => rfl⟩

/-- the difference quotient of a right hand side which does not depend on `x`. -/
theorem dfx_auto {Q : Prob ℝ n} (hP : ProbX (auto P) Q) (hA : ∀ x x' y, Q.F x y = Q.F x' y)
    (hu : g.uround = .fin 1.0e-16) (x : ℝ) (y : Fin n → ℝ) :
    dfx (nonAuto P) g.uround (.fin x) (fins y) (P.F (.fin x) (fins y)) = fins 0 := by
  have hF : ∀ x y, P.F (.fin x) (fins y) = fins (Q.F x y) := hP.F
  rw [hu, hF]
  unfold dfx
  rw [if_neg (by simp [nonAuto]), delta_fin]
  have hd : deltaR x ≠ 0 := (deltaR_pos x).ne'
  funext i
  have e : (nonAuto P).F (X.fin x + X.fin (deltaR x)) (fins y) = fins (Q.F x y) := by
    show P.F _ _ = _
    rw [X.fin_add, hF, hA _ x]
  rw [e, X.ofSci_eq, X.fin_div _ _ hd]
  show X.fin _ * X.fin _ + -X.fin _ * X.fin _ = X.fin 0
  rw [X.fin_mul, X.fin_neg, X.fin_mul, X.fin_add]
  rw [neg_mul, add_neg_cancel]

/-- C42: for a real right hand side which does not depend on `x`, the two modes give the same run:
after any number of transitions the states (or the results) agree in everything except the vector
`FX`, for forward integration, any initial step, and linear algebra satisfying the contracts. -/
theorem rodas_autonomous_modes_agree {Lr : Lin ℝ n} {Q : Prob ℝ n} {c : Coef ℝ} {a r : Fin n → ℝ}
    {Shape : (Fin n → Fin n → ℝ) → Prop} (hn : 0 < n) (hq : Std g q)
    (hL : LinX L Lr) (hS : LinSpec Lr Shape) (hP : ProbX (auto P) Q) (hg : RealCfg g c a r)
    (hSh : ∀ x y, Shape (jacR Q x y)) (hA : ∀ x x' y, Q.F x y = Q.F x' y)
    {x0 xe : ℝ} (hx : x0 < xe) (y0 : Fin n → ℝ) (o : St n L.σ) (h : X) (k : ℕ) :
    clrRes (run (step L (nonAuto P) g) k (start o h (.fin x0) (.fin xe) (fins y0))) =
    clrRes (run (step L (auto P) g) k (start o h (.fin x0) (.fin xe) (fins y0))) := by
  have key : ∀ (k : ℕ) (s : St n L.σ) (FX : Fin n → X),
      Reach (step L (auto P) g) (start o h (.fin x0) (.fin xe) (fins y0)) s →
      (s.inner = true → FX = fins 0) →
      clrRes (run (step L (nonAuto P) g) k { s with FX := FX }) =
      clrRes (run (step L (auto P) g) k s) := by
    intro k
    induction k with
    | zero => intro s FX _ _; rfl
    | succ k ih =>
      intro s FX hr hFX
      obtain ⟨-, x, y, hR⟩ := rinv_reach hn hq hL hS hP hg hSh hx hr
      rcases step_auto (P := P) hg.coef s FX (fun hi => by
        rw [hR.time, hR.Y]; exact dfx_auto hP hA hq.uround x y)
        (fun hi => ⟨hFX hi, hR.h hi⟩) with ⟨t, h1, FX', h2, h3⟩ | ⟨h1, h2⟩
      · rw [run_succ_next h1, run_succ_next h2]
        exact ih t FX' (hr.tail h1) h3
      · simp only [run]
        cases hs : step L (auto P) g s with
        | next t => exact absurd hs (h1 t)
        | ret t =>
          rw [hs] at h2
          cases hs' : step L (nonAuto P) g { s with FX := FX } with
          | ret t' => rw [hs'] at h2; exact h2
          | next t' => rw [hs'] at h2; simp [clrRes] at h2
          | throw e => rw [hs'] at h2; simp [clrRes] at h2
          | ub e => rw [hs'] at h2; simp [clrRes] at h2
        | throw e =>
          rw [hs] at h2
          cases hs' : step L (nonAuto P) g { s with FX := FX } with
          | ret t' => rw [hs'] at h2; simp [clrRes] at h2
          | next t' => rw [hs'] at h2; simp [clrRes] at h2
          | throw e => rw [hs'] at h2; exact h2
          | ub e => rw [hs'] at h2; simp [clrRes] at h2
        | ub e =>
          rw [hs] at h2
          cases hs' : step L (nonAuto P) g { s with FX := FX } with
          | ret t' => rw [hs'] at h2; simp [clrRes] at h2
          | next t' => rw [hs'] at h2; simp [clrRes] at h2
          | throw e => rw [hs'] at h2; simp [clrRes] at h2
          | ub e => rw [hs'] at h2; exact h2
  exact key k _ (start o h (.fin x0) (.fin xe) (fins y0)).FX (Reach.refl _ _) (fun hi => by
    simp [start] at hi)

/-- the hypotheses are met by a linear autonomous problem of any dimension. -/
example (n : ℕ) (A : Matrix (Fin n) (Fin n) ℝ) :
    ∃ Q : Prob ℝ n, (∀ x x' y, Q.F x y = Q.F x' y) ∧ ProbX (auto (lift Q)) Q :=
  ⟨{ F := fun _ y => A.mulVec y, jac := fun _ _ _ i j => A i j, DFt := fun _ _ => 0,
     computeJacobianNumerically := false, autonms := true, useDFt := false
     stored := fun _ _ => true }, fun _ _ _ => rfl, lift_probX _⟩

end Odes.Rodas
