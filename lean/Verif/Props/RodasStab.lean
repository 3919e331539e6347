import Verif.Lemmas.RodasEnergy
import Verif.Props.Rodas
import Verif.Spec.Dissipative
import Mathlib.LinearAlgebra.Matrix.DotProduct
import Mathlib.LinearAlgebra.Matrix.ToLinearEquiv

/-! # Stability of Rodas on linear problems: C100

`y' = A (y - ye)` with `A` dissipative for some inner product.  For each of the three coefficient sets, exactly
as they are printed in the code, for every number of components, every step size and every tolerance, the
length of `y - ye` never increases; if all rates are at least `m` a step of size `h` divides it by `h m / 44`. -/

namespace Odes.Rodas

open Classical

variable {n : ℕ} {L : Lin X n} {P : Prob X n} {g : Cfg n} {q : ℝ}
  {B : LinearMap.BilinForm ℝ (Fin n → ℝ)} {A : Matrix (Fin n) (Fin n) ℝ}

/-- the problem `y' = A (y - ye)`, with a Jacobian which is the exact one up to the difference quotients:
computed numerically with the nonzero entries of `A` inside the stored shape, or supplied by the user; declared
autonomous, or with the time derivative computed numerically, or supplied as 0. -/
structure LinearProb (Q : Prob ℝ n) (A : Matrix (Fin n) (Fin n) ℝ) (ye : Fin n → ℝ) : Prop where
  F : ∀ x y, Q.F x y = A.mulVec (y - ye)
  jac : if Q.computeJacobianNumerically then ∀ i j, Q.stored i j = false → A i j = 0
    else ∀ x y d i j, Q.jac x y d i j = A i j
  ft : Q.autonms = true ∨ Q.useDFt = false ∨ ∀ x y i, Q.DFt x y i = 0

/-- the difference quotients of the code are exact. -/
theorem LinearProb.jac_eq {Q : Prob ℝ n} {ye : Fin n → ℝ} (h : LinearProb Q A ye) (x : ℝ) (y : Fin n → ℝ) :
    Matrix.of (jacR Q x y) = A := by
  ext i j
  have hj := h.jac
  show jacR Q x y i j = A i j
  unfold jacR
  by_cases hn : Q.computeJacobianNumerically = true
  · rw [if_pos hn] at hj ⊢
    by_cases hs : Q.stored i j = true
    · have e : Function.update y j (y j + deltaR (y j)) - ye = (y - ye) + Pi.single j (deltaR (y j)) := by
        funext k
        by_cases hk : k = j
        · subst hk; simp; ring
        · simp [hk]
      rw [if_pos hs, h.F, h.F, e, Matrix.mulVec_add, Matrix.mulVec_single]
      have := (deltaR_pos (y j)).ne'
      simp
      field_simp
    · rw [if_neg hs]
      exact (hj i j (by simpa using hs)).symm
  · rw [if_neg hn] at hj ⊢
    exact hj _ _ _ _ _

theorem LinearProb.ft_eq {Q : Prob ℝ n} {ye : Fin n → ℝ} (h : LinearProb Q A ye) (x : ℝ) (y : Fin n → ℝ) :
    dfxR Q x y = 0 := by
  funext i
  unfold dfxR
  by_cases ha : Q.autonms = true
  · rw [if_pos ha]; rfl
  · rw [if_neg ha]
    rcases h.ft with hf | hf | hf
    · exact absurd hf ha
    · rw [if_neg (by simp [hf]), h.F, h.F]; simp
    · rw [hf]
      split_ifs
      · rfl
      · rw [h.F, h.F]; simp

/-- scaled matrix. -/
theorem energy_of {h : ℝ} (h0 : 0 < h) (hA : Spec.Dissipative B A) : Energy B (h • A.mulVecLin) where
  symm := hA.symm
  pos := hA.pos
  diss x := by
    have := mul_nonpos_of_nonneg_of_nonpos h0.le (hA.diss x)
    simpa using this

/-- the systems solved by the code are nonsingular for every step size. -/
theorem rodas_matrix_nonsingular {meth : ℤ} {c : Coef ℚ} (hc : rocoe meth = some c)
    (hA : Spec.Dissipative B A) {h : ℝ} (h0 : 0 < h) {x : Fin n → ℝ}
    (hx : ((1 / (h * (c.GAMMA : ℝ))) • (1 : Matrix (Fin n) (Fin n) ℝ) - A).mulVec x = 0) : x = 0 := by
  have hg : (0 : ℝ) < c.GAMMA := by rw [gamma_pos hc]; norm_num
  apply fac_injective (energy_of h0 hA) hg.le
  rw [map_zero, fac_apply]
  rw [Matrix.sub_mulVec, Matrix.smul_mulVec, Matrix.one_mulVec, sub_eq_zero] at hx
  simp only [LinearMap.smul_apply, Matrix.mulVecLin_apply]
  rw [← hx, smul_smul, smul_smul, sub_eq_zero]
  have : (c.GAMMA : ℝ) * h * (1 / (h * c.GAMMA)) = 1 := by field_simp
  rw [this, one_smul]

/-- a step of every size exists from every point: the linear algebra of the code does not throw. -/
theorem rodas_step_exists {meth : ℤ} {c : Coef ℚ} (hc : rocoe meth = some c)
    (hA : Spec.Dissipative B A) {h : ℝ} (h0 : 0 < h) (x : ℝ) (ye y : Fin n → ℝ) :
    ∃ u ynew, (method c.real).Step (fun _ y => A.mulVec (y - ye)) A 0 x h y u ynew := by
  let Q : Prob ℝ n := ⟨fun _ y => A.mulVec (y - ye), fun _ _ _ => A, fun _ _ => 0, false, true, false,
    fun _ _ => true⟩
  have hd : (shifted A (1 / (h * (c.GAMMA : ℝ)))).det ≠ 0 := by
    intro hd
    obtain ⟨v, hv, h2⟩ := Matrix.exists_mulVec_eq_zero_iff.2 hd
    exact hv (rodas_matrix_nonsingular hc hA h0 h2)
  have ha : ∃ j k, attempt (exactLin n) Q c.real x h y (Q.F x y) 0 ((exactLin n).load A) = some (j, k) := by
    unfold attempt
    have : (exactLin n).decomr (1 / (h * c.real.GAMMA)) ((exactLin n).load A) =
        some (A, 1 / (h * c.real.GAMMA)) := if_neg hd
    rw [this]
    exact ⟨_, _, rfl⟩
  obtain ⟨j, k, ha⟩ := ha
  have hs := (rodas_stages (exactLin_spec n) Q c.real x h y 0 (J := A)
    ((exactLin_spec n).load A trivial) ha).2
  rw [if_pos rfl] at hs
  exact ⟨_, _, hs⟩

/-- the stages of a step on a linear problem. -/
theorem linStages_of {meth : ℤ} {c : Coef ℚ} (hc : rocoe meth = some c) {h : ℝ} (h0 : 0 < h) {x : ℝ}
    {ye y ynew : Fin n → ℝ} {u : Fin 6 → Fin n → ℝ}
    (hs : (method c.real).Step (fun _ y => A.mulVec (y - ye)) A 0 x h y u ynew) :
    ∃ k : Fin 6 → Fin n → ℝ, LinStages (classic c) (h • A.mulVecLin) (y - ye) k ∧
      ynew - ye = (y - ye) + ∑ i, (((classic c).b i : ℚ) : ℝ) • k i := by
  obtain ⟨k, hk, hn⟩ := rodas_step_classic hc h0.ne' hs
  refine ⟨k, fun i => ?_, ?_⟩
  · rw [hk i]
    simp only [smul_zero, add_zero, LinearMap.smul_apply, Matrix.mulVecLin_apply]
    rw [← smul_add, ← Matrix.mulVec_add]
    congr 2
    simp only [classicR, Rat.cast_add, add_smul, Finset.sum_add_distrib]
    abel
  · rw [hn]
    simp only [classicR]
    abel

/-- C100: one step, any size: A-stability for every inner product. -/
theorem rodas_step_contractive {meth : ℤ} {c : Coef ℚ} (hc : rocoe meth = some c)
    (hA : Spec.Dissipative B A) {h : ℝ} (h0 : 0 < h) {x : ℝ} {ye y ynew : Fin n → ℝ}
    {u : Fin 6 → Fin n → ℝ}
    (hs : (method c.real).Step (fun _ y => A.mulVec (y - ye)) A 0 x h y u ynew) :
    Spec.len B (ynew - ye) ≤ Spec.len B (y - ye) := by
  obtain ⟨k, hk, hn⟩ := linStages_of hc h0 hs
  obtain ⟨S, hS⟩ := valid hc
  exact Real.sqrt_le_sqrt (step_energy (energy_of h0 hA) hS hk hn)

/-- C100: one step, any size: L-stability. -/
theorem rodas_step_damps {meth : ℤ} {c : Coef ℚ} (hc : rocoe meth = some c)
    (hA : Spec.Dissipative B A) {m : ℝ} (hm : 0 ≤ m) (hst : Spec.Stiff B A m) {h : ℝ} (h0 : 0 < h) {x : ℝ}
    {ye y ynew : Fin n → ℝ} {u : Fin 6 → Fin n → ℝ}
    (hs : (method c.real).Step (fun _ y => A.mulVec (y - ye)) A 0 x h y u ynew) :
    h * m * Spec.len B (ynew - ye) ≤ 44 * Spec.len B (y - ye) := by
  obtain ⟨k, hk, hn⟩ := linStages_of hc h0 hs
  obtain ⟨S, hS⟩ := valid hc
  refine step_damps (energy_of h0 hA) hS hk hn (mul_nonneg h0.le hm) fun x => ?_
  have e : nrm B ((h • A.mulVecLin) x) = h * Spec.len B (A.mulVec x) := by
    rw [LinearMap.smul_apply, nrm_smul, abs_of_pos h0]; rfl
  rw [e, mul_assoc]
  exact mul_le_mul_of_nonneg_left (hst x) h0.le

/-- C100: a run which returns has gone from the initial value to `xend` by steps each of which satisfies the
two bounds, whatever the tolerances; the distance to the equilibrium has not increased. -/
theorem rodas_run_contractive {Lr : Lin ℝ n} {Q : Prob ℝ n} {meth : ℤ} {c : Coef ℚ}
    (hc : rocoe meth = some c) {a r : Fin n → ℝ}
    {Shape : (Fin n → Fin n → ℝ) → Prop} (hn : 0 < n) (hq : Std g q)
    (hL : LinX L Lr) (hS : LinSpec Lr Shape) (hP : ProbX P Q) (hg : RealCfg g c.real a r)
    (hSh : Shape A) (ho : g.onlyOneStep = false) {ye : Fin n → ℝ} (hQ : LinearProb Q A ye)
    (hA : Spec.Dissipative B A) {m : ℝ} (hm : 0 ≤ m) (hst : Spec.Stiff B A m)
    {x0 xe : ℝ} (hx : x0 < xe) {y0 : Fin n → ℝ} {o : St n L.σ} {h : X} {s : St n L.σ}
    (hr : Returns (step L P g) (start o h (.fin x0) (.fin xe) (fins y0)) s) :
    ∃ y, s.x = .fin xe ∧ s.Y = fins y ∧ Spec.len B (y - ye) ≤ Spec.len B (y0 - ye) ∧
      Spec.StepPath (fun _ h y ynew => Spec.len B (ynew - ye) ≤ Spec.len B (y - ye) ∧
        h * m * Spec.len B (ynew - ye) ≤ 44 * Spec.len B (y - ye)) x0 y0 xe y := by
  obtain ⟨y, l, h1, hy, -, hp⟩ := rodas_run_is_rosenbrock hn hq hL hS hP hg
    (fun x y => by
      have : jacR Q x y = A := hQ.jac_eq x y
      rw [this]; exact hSh) ho hx hr
  replace hp := hp.path
  refine ⟨y, h1, hy, ?_⟩
  have hF : Q.F = fun _ y => A.mulVec (y - ye) := by funext x y; exact hQ.F x y
  clear hy h1 hr hx
  induction hp with
  | refl => exact ⟨le_rfl, .refl⟩
  | step _ h0 hk ih =>
    obtain ⟨k, hk, -⟩ := hk
    rw [hQ.jac_eq, hQ.ft_eq, hF] at hk
    have b1 := rodas_step_contractive hc hA h0 hk
    exact ⟨b1.trans ih.1, .step ih.2 h0 ⟨b1, rodas_step_damps hc hA hm hst h0 hk⟩⟩

/-! ### the test equation -/

/-- the Euclidean inner product. -/
noncomputable def dot (n : ℕ) : LinearMap.BilinForm ℝ (Fin n → ℝ) :=
  LinearMap.mk₂ ℝ (fun x y => x ⬝ᵥ y) (fun _ _ _ => add_dotProduct _ _ _) (fun _ _ _ => smul_dotProduct _ _ _)
    (fun _ _ _ => dotProduct_add _ _ _) (fun _ _ _ => dotProduct_smul _ _ _)

theorem dot_apply (x y : Fin n → ℝ) : dot n x y = x ⬝ᵥ y := rfl

theorem dot_pos (x : Fin n → ℝ) (hx : x ≠ 0) : 0 < dot n x x := by
  rw [dot_apply]
  exact lt_of_le_of_ne (Finset.sum_nonneg fun i _ => mul_self_nonneg _)
    fun h => hx (dotProduct_self_eq_zero.1 h.symm)

/-- multiplication by `a + ib`. -/
def cmat (a b : ℝ) : Matrix (Fin 2) (Fin 2) ℝ := !![a, -b; b, a]

theorem cmat_dissipative {a : ℝ} (ha : a ≤ 0) (b : ℝ) : Spec.Dissipative (dot 2) (cmat a b) where
  symm x y := by rw [dot_apply, dot_apply]; exact dotProduct_comm _ _
  pos := dot_pos
  diss x := by
    rw [dot_apply]
    simp [cmat, Matrix.mulVec, dotProduct, Fin.sum_univ_two]
    nlinarith [mul_self_nonneg (x 0), mul_self_nonneg (x 1)]

theorem cmat_stiff (a b : ℝ) : Spec.Stiff (dot 2) (cmat a b) (Real.sqrt (a ^ 2 + b ^ 2)) := by
  intro x
  unfold Spec.len
  rw [← Real.sqrt_mul (by positivity)]
  apply le_of_eq
  congr 1
  rw [dot_apply, dot_apply]
  simp [cmat, Matrix.mulVec, dotProduct, Fin.sum_univ_two]
  ring

/-- steps of the test equation exist and the bounds apply: `λ = -1000 + 300 i`, `h = 1`: the modulus is divided
by more than 20. -/
example {meth : ℤ} {c : Coef ℚ} (hc : rocoe meth = some c) (y : Fin 2 → ℝ) :
    ∃ u ynew, (method c.real).Step (fun _ y => (cmat (-1000) 300).mulVec (y - 0)) (cmat (-1000) 300) 0 0 1 y
      u ynew ∧ 20 * Spec.len (dot 2) ynew ≤ Spec.len (dot 2) y := by
  have hA := cmat_dissipative (by norm_num : (-1000 : ℝ) ≤ 0) 300
  obtain ⟨u, ynew, hs⟩ := rodas_step_exists hc hA one_pos 0 0 y
  refine ⟨u, ynew, hs, ?_⟩
  have h1 := rodas_step_damps hc hA (by norm_num : (0 : ℝ) ≤ 1000) (fun x => (mul_le_mul_of_nonneg_right
    (Real.le_sqrt_of_sq_le (by norm_num)) (Real.sqrt_nonneg _)).trans (cmat_stiff (-1000) 300 x)) one_pos hs
  rw [sub_zero, sub_zero] at h1
  have : 0 ≤ Spec.len (dot 2) y := Real.sqrt_nonneg _
  have : 0 ≤ Spec.len (dot 2) ynew := Real.sqrt_nonneg _
  linarith

/-- the test equation `y' = λ y`, `λ = a + ib`, as a real system; the Jacobian is computed by the code. -/
noncomputable def testQ (a b : ℝ) : Prob ℝ 2 where
  F _ y := (cmat a b).mulVec y
  jac _ _ _ _ _ := 0
  DFt _ _ := 0
  computeJacobianNumerically := true
  autonms := true
  useDFt := false
  stored _ _ := true

theorem testQ_linear (a b : ℝ) : LinearProb (testQ a b) (cmat a b) 0 where
  F x y := by rw [sub_zero]; rfl
  jac := by
    show ∀ i j, _ → _
    intro i j h
    exact absurd h (by simp [testQ])
  ft := Or.inl rfl

/-- C100: the test equation with `Re λ <= 0`: for all tolerances, initial values, end points and initial steps
the run ends, and if it returns the modulus of the solution has not grown. -/
theorem rodas_test_equation {meth : ℤ} {c : Coef ℚ} (hc : rocoe meth = some c) {at' rt : Fin 2 → ℝ}
    (ha : ∀ i, 0 < at' i) (hr : ∀ i, 0 ≤ rt i) {a : ℝ} (hre : a ≤ 0) (b : ℝ) {x0 xe : ℝ} (hx : x0 < xe)
    (y0 : Fin 2 → ℝ) (o : St 2 (exactLinX 2).σ) (h : X) :
    Terminates (step (exactLinX 2) (lift (testQ a b)) (Cfg.default c (fins at') (fins rt)))
      (start o h (.fin x0) (.fin xe) (fins y0)) ∧
    ∀ s, Returns (step (exactLinX 2) (lift (testQ a b)) (Cfg.default c (fins at') (fins rt)))
      (start o h (.fin x0) (.fin xe) (fins y0)) s →
      ∃ y, s.Y = fins y ∧ y 0 ^ 2 + y 1 ^ 2 ≤ y0 0 ^ 2 + y0 1 ^ 2 := by
  have hγ : c.GAMMA ≠ 0 := by rw [gamma_pos hc]; norm_num
  constructor
  · refine rodas_terminates_partial (by norm_num) (std_default c _ _) (by norm_num) (exactLin_finite 2)
      (exactLin_spec 2) (lift_probX _) (realCfg_default c hγ at' rt ha hr) ?_ (fun _ _ => trivial) ?_ hx
      y0 o h
    · show (0 : ℝ) < ((c.GAMMA : ℚ) : ℝ)
      rw [gamma_pos hc]; norm_num
    · refine Spec.boundedNear_of_continuous (continuous_pi fun i => ?_)
      show Continuous fun p : ℝ × (Fin 2 → ℝ) => (cmat a b).mulVec p.2 i
      unfold Matrix.mulVec dotProduct
      fun_prop
  · intro s hs
    obtain ⟨y, -, h1, h2, -⟩ := rodas_run_contractive hc (by norm_num) (std_default c _ _)
      (exactLin_finite 2) (exactLin_spec 2) (lift_probX (testQ a b)) (realCfg_default c hγ at' rt ha hr)
      trivial rfl (testQ_linear a b) (cmat_dissipative hre b) (Real.sqrt_nonneg _) (cmat_stiff a b) hx hs
    refine ⟨y, h1, ?_⟩
    unfold Spec.len at h2
    rw [sub_zero, sub_zero, Real.sqrt_le_sqrt_iff ((lt_or_ge 0 _).elim le_of_lt fun h => by
      rw [dot_apply]; exact Finset.sum_nonneg fun i _ => mul_self_nonneg _), dot_apply, dot_apply] at h2
    simp only [dotProduct, Fin.sum_univ_two] at h2
    nlinarith

end Odes.Rodas
