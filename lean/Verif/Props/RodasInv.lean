import Verif.Props.Rodas
import Verif.Props.StiffOre

/-! # Linear invariants and Rodas: C94

If `Σ w_i F_i(x,y) = 0` for all `(x,y)` then `Σ w_i y_i` is constant along the solutions.  A whole run
of Rodas keeps it exactly when the Jacobian is the one computed by the code for full matrices. -/

namespace Odes.Rodas

open Classical

variable {n : ℕ} {L : Lin X n} {P : Prob X n} {g : Cfg n} {q : ℝ}

/-- a Rosenbrock step keeps the linear invariants of the right hand side, if the matrix and the time
derivative are compatible with them. -/
theorem step_invariant {s : ℕ} {R : Spec.Rosenbrock ℝ s} {F : ℝ → (Fin n → ℝ) → Fin n → ℝ}
    {J : Matrix (Fin n) (Fin n) ℝ} {ft : Fin n → ℝ} {x h : ℝ} {y ynew : Fin n → ℝ}
    {k : Fin s → Fin n → ℝ} {w : Fin n → ℝ} (hγ : R.gamma ≠ 0) (h0 : h ≠ 0)
    (hF : ∀ x y, w ⬝ᵥ F x y = 0) (hJ : Matrix.vecMul w J = 0) (hft : w ⬝ᵥ ft = 0)
    (hs : R.Step F J ft x h y k ynew) : w ⬝ᵥ ynew = w ⬝ᵥ y := by
  have hk : ∀ m : ℕ, ∀ i : Fin s, (i : ℕ) < m → w ⬝ᵥ k i = 0 := by
    intro m
    induction m with
    | zero => intro i hi; omega
    | succ m ih =>
      intro i hi
      have e := congrArg (fun v => w ⬝ᵥ v) (hs.1 i)
      have e3 : w ⬝ᵥ (∑ j, if j < i then (R.c i j / h) • k j else 0) = 0 := by
        rw [dotProduct_sum]
        refine Finset.sum_eq_zero fun j _ => ?_
        split_ifs with hj
        · rw [dotProduct_smul, ih j (by have : (j : ℕ) < i := hj; omega), smul_zero]
        · exact dotProduct_zero _
      simp only [dotProduct_add, hF, e3, dotProduct_smul, hft, smul_zero, add_zero] at e
      rw [Matrix.sub_mulVec, dotProduct_sub, Matrix.dotProduct_mulVec, Matrix.dotProduct_mulVec, hJ,
        zero_dotProduct, sub_zero, Matrix.vecMul_smul, Matrix.vecMul_one, smul_dotProduct,
        smul_eq_mul, mul_eq_zero] at e
      rcases e with e | e
      · exact absurd e (one_div_ne_zero (mul_ne_zero h0 hγ))
      · exact e
  rw [hs.2, dotProduct_add, dotProduct_sum, Finset.sum_eq_zero, add_zero]
  intro i _
  rw [dotProduct_smul, hk _ i (Nat.lt_succ_self _), smul_zero]

/-- the numerical Jacobian of the code is compatible with every linear invariant when the matrix is full. -/
theorem numJac_invariant {Q : Prob ℝ n} {w : Fin n → ℝ} (hF : ∀ x y, w ⬝ᵥ Q.F x y = 0)
    (hnum : Q.computeJacobianNumerically = true) (hst : ∀ i j, Q.stored i j = true) (x : ℝ)
    (y : Fin n → ℝ) : Matrix.vecMul w (Matrix.of (jacR Q x y)) = 0 := by
  funext j
  show ∑ i, w i * jacR Q x y i j = 0
  have e : ∀ i, w i * jacR Q x y i j = 1 / deltaR (y j)
      * (w i * Q.F x (Function.update y j (y j + deltaR (y j))) i - w i * Q.F x y i) := fun i => by
    unfold jacR
    rw [if_pos hnum, if_pos (hst i j)]
    ring
  rw [Finset.sum_congr rfl fun i _ => e i, ← Finset.mul_sum, Finset.sum_sub_distrib]
  have h1 := hF x (Function.update y j (y j + deltaR (y j)))
  have h2 := hF x y
  unfold dotProduct at h1 h2
  rw [h1, h2]
  simp

/-- the time derivative of the code is compatible with every linear invariant, unless it is supplied by the
user. -/
theorem dfx_invariant {Q : Prob ℝ n} {w : Fin n → ℝ} (hF : ∀ x y, w ⬝ᵥ Q.F x y = 0)
    (hd : Q.autonms = true ∨ Q.useDFt = false) (x : ℝ) (y : Fin n → ℝ) : w ⬝ᵥ dfxR Q x y = 0 := by
  by_cases ha : Q.autonms = true
  · have : dfxR Q x y = 0 := by funext i; unfold dfxR; rw [if_pos ha]; rfl
    rw [this, dotProduct_zero]
  · have hu : Q.useDFt = false := hd.resolve_left ha
    have : dfxR Q x y = (1 / deltaR x) • Q.F (x + deltaR x) y + (-(1 / deltaR x)) • Q.F x y := by
      funext i; unfold dfxR; rw [if_neg ha, hu]; simp
    rw [this, dotProduct_add, dotProduct_smul, dotProduct_smul, hF, hF, smul_zero, smul_zero, add_zero]

/-- C94: a run of Rodas which returns has kept every linear invariant of the right hand side, if the
Jacobian is computed by the code and the matrix is full; for every number of steps, tolerances and
coefficients. -/
theorem rodas_linear_invariant {Lr : Lin ℝ n} {Q : Prob ℝ n} {c : Coef ℝ} {a r : Fin n → ℝ}
    {Shape : (Fin n → Fin n → ℝ) → Prop} (hn : 0 < n) (hq : Std g q)
    (hL : LinX L Lr) (hS : LinSpec Lr Shape) (hP : ProbX P Q) (hg : RealCfg g c a r)
    (hSh : ∀ x y, Shape (jacR Q x y)) (ho : g.onlyOneStep = false) {w : Fin n → ℝ}
    (hF : ∀ x y, w ⬝ᵥ Q.F x y = 0) (hnum : Q.computeJacobianNumerically = true)
    (hst : ∀ i j, Q.stored i j = true) (hd : Q.autonms = true ∨ Q.useDFt = false)
    {x0 xe : ℝ} (hx : x0 < xe) {y0 : Fin n → ℝ} {o : St n L.σ} {h : X} {s : St n L.σ}
    (hr : Returns (step L P g) (start o h (.fin x0) (.fin xe) (fins y0)) s) :
    ∃ y, s.Y = fins y ∧ w ⬝ᵥ y = w ⬝ᵥ y0 := by
  obtain ⟨y, l, -, hy, -, hp⟩ := rodas_run_is_rosenbrock hn hq hL hS hP hg hSh ho hx hr
  replace hp := hp.path
  refine ⟨y, hy, ?_⟩
  clear hy hr hx
  induction hp with
  | refl => rfl
  | step _ h0 hk ih =>
    obtain ⟨k, hk, -⟩ := hk
    exact (step_invariant hg.gamma h0.ne' hF (numJac_invariant hF hnum hst _ _)
      (dfx_invariant hF hd _ _) hk).trans ih

/-! ### E5 -/

/-- the E5 problem as seen by Rodas, Rodas-NG/test/E5.hpp 7-27, 47-60 (full numerical Jacobian,
autonomous); `jac` and `DFt` are not used. -/
noncomputable def e5Q : Prob ℝ 4 where
  F _ y := Stiff.e5 y
  jac _ _ _ _ _ := 0
  DFt _ _ := 0
  computeJacobianNumerically := true
  autonms := true
  useDFt := false
  stored _ _ := true

theorem e5_dot (y : Fin 4 → ℝ) : ![0, 1, -1, -1] ⬝ᵥ y = y 1 - y 2 - y 3 := by
  unfold dotProduct
  rw [Fin.sum_univ_four]
  simp
  ring

/-- C94: for all positive tolerances, initial values, end points and initial steps the integration of E5 by
Rodas (with a linear solver which solves the systems or throws) ends, and if it returns then
`y1 - y2 - y3` is unchanged. -/
theorem rodas_e5 {meth : ℤ} {c : Coef ℚ} (hc : rocoe meth = some c) {a r : Fin 4 → ℝ}
    (ha : ∀ i, 0 < a i) (hr : ∀ i, 0 ≤ r i) {x0 xe : ℝ} (hx : x0 < xe) (y0 : Fin 4 → ℝ)
    (o : St 4 (exactLinX 4).σ) (h : X) :
    Terminates (step (exactLinX 4) (lift e5Q) (Cfg.default c (fins a) (fins r)))
      (start o h (.fin x0) (.fin xe) (fins y0)) ∧
    ∀ s, Returns (step (exactLinX 4) (lift e5Q) (Cfg.default c (fins a) (fins r)))
      (start o h (.fin x0) (.fin xe) (fins y0)) s →
      ∃ y, s.Y = fins y ∧ y 1 - y 2 - y 3 = y0 1 - y0 2 - y0 3 := by
  have hγ : c.GAMMA ≠ 0 := by rw [gamma_pos hc]; norm_num
  constructor
  · refine rodas_terminates_partial (by norm_num) (std_default c _ _) (by norm_num) (exactLin_finite 4)
      (exactLin_spec 4) (lift_probX _) (realCfg_default c hγ a r ha hr) ?_ (fun _ _ => trivial) ?_ hx
      y0 o h
    · show (0 : ℝ) < ((c.GAMMA : ℚ) : ℝ)
      rw [gamma_pos hc]; norm_num
    · refine Spec.boundedNear_of_continuous (continuous_pi fun i => ?_)
      show Continuous fun p : ℝ × (Fin 4 → ℝ) => Stiff.e5 p.2 i
      fin_cases i <;> simp only [Stiff.e5_eq] <;> simp <;> fun_prop
  · intro s hs
    obtain ⟨y, h1, h2⟩ := rodas_linear_invariant (by norm_num) (std_default c _ _) (exactLin_finite 4)
      (exactLin_spec 4) (lift_probX e5Q) (realCfg_default c hγ a r ha hr) (fun _ _ => trivial) rfl
      (w := ![0, 1, -1, -1])
      (fun x y => by rw [e5_dot]; exact Stiff.e5_invariant y) rfl (fun _ _ => rfl) (Or.inl rfl) hx hs
    rw [e5_dot, e5_dot] at h2
    exact ⟨y, h1, h2⟩

end Odes.Rodas
