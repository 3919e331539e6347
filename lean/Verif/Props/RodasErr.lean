import Verif.Lemmas.RodasErr
import Verif.Props.RodasStab
import Mathlib.Analysis.SpecialFunctions.Trigonometric.Deriv

/-! # C104: error of Rodas on dissipative linear problems

`y' = A (y - ye)` with `A` dissipative for some inner product.  All constants are explicit and none depends on
`A`, on the dimension or on the inner product: the order 4 is not reduced by stiffness. -/

namespace Odes.Spec

variable {n : ℕ}

/-- a solution of `y' = A (y - ye)`. -/
def LinearSolution (A : Matrix (Fin n) (Fin n) ℝ) (ye : Fin n → ℝ) (y : ℝ → Fin n → ℝ) : Prop :=
  ∀ t, HasDerivAt y (A.mulVec (y t - ye)) t

/-- `h^4/3 |A^4 v| + 1e-14 (|v| + h |A v| + h^2 |A^2 v| + h^3 |A^3 v|)` -/
noncomputable def rodasBound (B : LinearMap.BilinForm ℝ (Fin n → ℝ)) (A : Matrix (Fin n) (Fin n) ℝ)
    (v : Fin n → ℝ) (h : ℝ) : ℝ :=
  h ^ 4 / 3 * len B ((A ^ 4).mulVec v) + 1e-14 * (len B v + h * len B (A.mulVec v)
    + h ^ 2 * len B ((A ^ 2).mulVec v) + h ^ 3 * len B ((A ^ 3).mulVec v))

end Odes.Spec

namespace Odes.Rodas

open Classical

variable {n : ℕ} {L : Lin X n} {P : Prob X n} {g : Cfg n} {q : ℝ}
  {B : LinearMap.BilinForm ℝ (Fin n → ℝ)} {A : Matrix (Fin n) (Fin n) ℝ}

theorem mulVecLin_pow (A : Matrix (Fin n) (Fin n) ℝ) (k : ℕ) (v : Fin n → ℝ) :
    (A.mulVecLin ^ k) v = (A ^ k).mulVec v := by
  induction k with
  | zero => simp
  | succ k ih => rw [pow_succ', Module.End.mul_apply, ih, Matrix.mulVecLin_apply, Matrix.mulVec_mulVec, pow_succ']

theorem energy_one (hA : Spec.Dissipative B A) : Energy B A.mulVecLin where
  symm := hA.symm
  pos := hA.pos
  diss := hA.diss

theorem flow_of {ye : Fin n → ℝ} {y : ℝ → Fin n → ℝ} (hy : Spec.LinearSolution A ye y) :
    Flow A.mulVecLin (fun t => y t - ye) := fun t => (hy t).sub_const ye

theorem rodasBound_nonneg (v : Fin n → ℝ) {h : ℝ} (h0 : 0 ≤ h) : 0 ≤ Spec.rodasBound B A v h := by
  unfold Spec.rodasBound Spec.len
  positivity

theorem rodasBound_mono (v : Fin n → ℝ) {h H : ℝ} (h0 : 0 ≤ h) (hH : h ≤ H) :
    Spec.rodasBound B A v h ≤ Spec.rodasBound B A v H := by
  have f : ∀ x : Fin n → ℝ, 0 ≤ Spec.len B x := fun x => Real.sqrt_nonneg _
  unfold Spec.rodasBound
  have h2 := f ((A ^ 4).mulVec v)
  have h3 := f ((A ^ 3).mulVec v)
  have h4 := f ((A ^ 2).mulVec v)
  have h5 := f (A.mulVec v)
  generalize Spec.len B ((A ^ 4).mulVec v) = a4 at *
  generalize Spec.len B ((A ^ 3).mulVec v) = a3 at *
  generalize Spec.len B ((A ^ 2).mulVec v) = a2 at *
  generalize Spec.len B (A.mulVec v) = a1 at *
  gcongr

/-- the bound decreases along a solution. -/
theorem rodasBound_decay (hA : Spec.Dissipative B A) {ye : Fin n → ℝ} {y : ℝ → Fin n → ℝ}
    (hy : Spec.LinearSolution A ye y) {t s : ℝ} (hs : t ≤ s) {h : ℝ} (h0 : 0 ≤ h) :
    Spec.rodasBound B A (A.mulVec (y s - ye)) h ≤ Spec.rodasBound B A (A.mulVec (y t - ye)) h := by
  have d : ∀ k : ℕ, Spec.len B ((A ^ k).mulVec (A.mulVec (y s - ye)))
      ≤ Spec.len B ((A ^ k).mulVec (A.mulVec (y t - ye))) := by
    intro k
    have hk : ∀ k : ℕ, Flow A.mulVecLin (fun t => (A ^ k).mulVec (A.mulVec (y t - ye))) := by
      intro k
      induction k with
      | zero => simpa using (flow_of hy).image
      | succ k ih =>
        have := ih.image
        simp only [Matrix.mulVecLin_apply, Matrix.mulVec_mulVec] at this ⊢
        rw [← mul_assoc, ← pow_succ'] at this
        exact this
    exact (hk k).decay (energy_one hA) hs
  have d0 := d 0
  have d1 := d 1
  have d2 := d 2
  have d3 := d 3
  have d4 := d 4
  rw [pow_zero, Matrix.one_mulVec, Matrix.one_mulVec] at d0
  rw [pow_one] at d1
  unfold Spec.rodasBound
  generalize A.mulVec (y s - ye) = v at *
  generalize A.mulVec (y t - ye) = u at *
  gcongr

/-- C104: one step, from a value `u` at the time `t`. -/
theorem rodas_step_error {meth : ℤ} {c : Coef ℚ} (hc : rocoe meth = some c)
    (hA : Spec.Dissipative B A) {h : ℝ} (h0 : 0 < h) {x : ℝ} {ye u unew : Fin n → ℝ}
    {k : Fin 6 → Fin n → ℝ}
    (hs : (method c.real).Step (fun _ y => A.mulVec (y - ye)) A 0 x h u k unew)
    {y : ℝ → Fin n → ℝ} (hy : Spec.LinearSolution A ye y) (t : ℝ) :
    Spec.len B (unew - y (t + h))
      ≤ Spec.len B (u - y t) + h * Spec.rodasBound B A (A.mulVec (y t - ye)) h := by
  obtain ⟨S, hS, hC⟩ := valid_close hc
  have hE := energy_of h0 hA
  obtain ⟨k1, hk1, hn1⟩ := linStages_of hc h0 hs
  obtain ⟨k', ynew, hs'⟩ := rodas_step_exists hc hA h0 x ye (y t)
  obtain ⟨k2, hk2, hn2⟩ := linStages_of hc h0 hs'
  have s1 : nrm B (unew - ynew) ≤ nrm B (u - y t) := by
    apply Real.sqrt_le_sqrt
    refine step_energy hE hS (k := fun i => k1 i - k2 i) (fun i => ?_) ?_
    · have e : k1 i - k2 i = (h • A.mulVecLin) (u - ye + ∑ j, (((classic c).alpha i j
          + (classic c).gam i j : ℚ) : ℝ) • k1 j) - (h • A.mulVecLin) (y t - ye +
          ∑ j, (((classic c).alpha i j + (classic c).gam i j : ℚ) : ℝ) • k2 j) := by rw [← hk1 i, ← hk2 i]
      show k1 i - k2 i = _
      rw [e, ← map_sub]
      congr 1
      simp only [smul_sub, Finset.sum_sub_distrib]
      abel
    · have e : unew - ynew = (unew - ye) - (ynew - ye) := by abel
      rw [e, hn1, hn2]
      simp only [smul_sub, Finset.sum_sub_distrib]
      abel
  have s2 := step_taylor hE hS hC hk2 hn2
  have s3 := (flow_of hy).taylor (energy_one hA) 5 t h0.le
  have hp : ∀ (k : ℕ) (v : Fin n → ℝ), ((h • A.mulVecLin) ^ k) v = h ^ k • (A.mulVecLin ^ k) v := by
    intro k v
    rw [smul_pow]; rfl
  have et : taylor4 (h • A.mulVecLin) (y t - ye)
      = ∑ j ∈ Finset.range 5, (h ^ j / (j.factorial : ℝ)) • (A.mulVecLin ^ j) (y t - ye) := by
    unfold taylor4
    refine Finset.sum_congr rfl fun j _ => ?_
    rw [hp, smul_smul]
    congr 1
    ring
  rw [← et] at s3
  have hb : ∀ k : ℕ, nrm B ((A.mulVecLin ^ (k + 1)) (y t - ye))
      = Spec.len B ((A ^ k).mulVec (A.mulVec (y t - ye))) := by
    intro k
    rw [mulVecLin_pow, Matrix.mulVec_mulVec, pow_succ]; rfl
  have hb' : ∀ k : ℕ, nrm B (((h • A.mulVecLin) ^ (k + 1)) (y t - ye))
      = h ^ (k + 1) * Spec.len B ((A ^ k).mulVec (A.mulVec (y t - ye))) := by
    intro k
    rw [hp, nrm_smul, hb, abs_of_pos (pow_pos h0 _)]
  have q1 := hb' 0
  rw [zero_add, pow_one, pow_one, pow_zero, Matrix.one_mulVec] at q1
  rw [q1, hb' 1, hb' 2, hb' 3, hb' 4] at s2
  rw [hb 4] at s3
  have e : unew - y (t + h) = (unew - ynew) + (((ynew - ye) - taylor4 (h • A.mulVecLin) (y t - ye))
      + (-1 : ℝ) • (y (t + h) - ye - taylor4 (h • A.mulVecLin) (y t - ye))) := by
    rw [neg_one_smul]
    abel
  show nrm B (unew - y (t + h)) ≤ nrm B (u - y t) + _
  rw [e]
  refine (nrm_add hE _ _).trans (add_le_add s1 ((nrm_add hE _ _).trans ?_))
  rw [nrm_smul, abs_neg, abs_one, one_mul]
  refine (add_le_add s2 s3).trans ?_
  unfold Spec.rodasBound
  have p4 : 0 ≤ h ^ 5 * Spec.len B ((A ^ 4).mulVec (A.mulVec (y t - ye))) :=
    mul_nonneg (by positivity) (Real.sqrt_nonneg _)
  rw [pow_one A]
  generalize Spec.len B ((A ^ 4).mulVec (A.mulVec (y t - ye))) = a4 at *
  generalize Spec.len B ((A ^ 3).mulVec (A.mulVec (y t - ye))) = a3 at *
  generalize Spec.len B ((A ^ 2).mulVec (A.mulVec (y t - ye))) = a2 at *
  generalize Spec.len B (A.mulVec (A.mulVec (y t - ye))) = a1 at *
  generalize Spec.len B (A.mulVec (y t - ye)) = a0 at *
  norm_num [Nat.factorial] at *
  nlinarith

/-- C104: **the error of a run of Rodas.**  A run on `[x0, xe]` which returns has made steps of positive lengths
adding up to `xe - x0`, and the distance of the result to a solution is at most the initial distance plus the
sum of `h (h^4/3 |A^4 v| + 1e-14 (|v| + h |A v| + h^2 |A^2 v| + h^3 |A^3 v|))` over the steps, where `v` is the
derivative of the solution at `x0`; the lengths are those the object records as accepted; nothing is assumed about the tolerances. -/
theorem rodas_run_error {Lr : Lin ℝ n} {Q : Prob ℝ n} {meth : ℤ} {c : Coef ℚ}
    (hc : rocoe meth = some c) {a r : Fin n → ℝ}
    {Shape : (Fin n → Fin n → ℝ) → Prop} (hn : 0 < n) (hq : Std g q)
    (hL : LinX L Lr) (hS : LinSpec Lr Shape) (hP : ProbX P Q) (hg : RealCfg g c.real a r)
    (hSh : Shape A) (ho : g.onlyOneStep = false) {ye : Fin n → ℝ} (hQ : LinearProb Q A ye)
    (hA : Spec.Dissipative B A)
    {x0 xe : ℝ} (hx : x0 < xe) {y0 : Fin n → ℝ} {o : St n L.σ} {h : X} {s : St n L.σ}
    (hr : Returns (step L P g) (start o h (.fin x0) (.fin xe) (fins y0)) s)
    {y : ℝ → Fin n → ℝ} (hy : Spec.LinearSolution A ye y) :
    ∃ (u : Fin n → ℝ) (l : List ℝ), s.x = .fin xe ∧ s.Y = fins u ∧ s.taken = l.map X.fin ∧
      (∀ h ∈ l, 0 < h) ∧ l.sum = xe - x0 ∧
      Spec.len B (u - y xe) ≤ Spec.len B (y0 - y x0)
        + (l.map fun h => h * Spec.rodasBound B A (A.mulVec (y x0 - ye)) h).sum ∧
      ∀ H, (∀ h ∈ l, h ≤ H) → Spec.len B (u - y xe) ≤ Spec.len B (y0 - y x0)
        + (xe - x0) * Spec.rodasBound B A (A.mulVec (y x0 - ye)) H := by
  obtain ⟨u, l, h1, hu, ht, hp⟩ := rodas_run_is_rosenbrock hn hq hL hS hP hg
    (fun x y => by
      have : jacR Q x y = A := hQ.jac_eq x y
      rw [this]; exact hSh) ho hx hr
  have hF : Q.F = fun _ y => A.mulVec (y - ye) := by funext x y; exact hQ.F x y
  have key : (∀ h ∈ l, 0 < h) ∧ xe = x0 + l.sum ∧
      Spec.len B (u - y xe) ≤ Spec.len B (y0 - y x0)
        + (l.map fun h => h * Spec.rodasBound B A (A.mulVec (y x0 - ye)) h).sum := by
    clear hu h1 hr hx ht
    induction hp with
    | nil => exact ⟨by simp, by simp, by simp⟩
    | @cons l x h u unew _ h0 hk ih =>
      obtain ⟨k, hk, -⟩ := hk
      obtain ⟨l1, l2, l3⟩ := ih
      rw [hQ.jac_eq, hQ.ft_eq, hF] at hk
      have b1 := rodas_step_error hc hA h0 hk hy x
      have hsum : 0 ≤ l.sum := List.sum_nonneg fun x hx => (l1 x hx).le
      have b2 := rodasBound_decay hA hy (by linarith : x0 ≤ x) h0.le
      have b3 := mul_le_mul_of_nonneg_left b2 h0.le
      refine ⟨?_, ?_, ?_⟩
      · intro z hz
        rcases List.mem_cons.1 hz with rfl | hz
        · exact h0
        · exact l1 z hz
      · rw [List.sum_cons, l2]; ring
      · rw [List.map_cons, List.sum_cons]
        linarith
  obtain ⟨l1, l2, l3⟩ := key
  refine ⟨u, l, h1, hu, ht, l1, by linarith, l3, fun H hH => l3.trans ?_⟩
  have e : xe - x0 = l.sum := by linarith
  have e2 : l.sum * Spec.rodasBound B A (A.mulVec (y x0 - ye)) H
      = (l.map fun x => x * Spec.rodasBound B A (A.mulVec (y x0 - ye)) H).sum := by
    rw [List.sum_map_mul_right, List.map_id']
  rw [e, e2, add_le_add_iff_left]
  refine List.sum_le_sum fun x hx => ?_
  exact mul_le_mul_of_nonneg_left (rodasBound_mono _ (l1 x hx).le (hH x hx)) (l1 x hx).le

/-! ### the test equation -/

/-- `exp(λ t) y0`, `λ = a + ib`. -/
noncomputable def testSol (a b : ℝ) (y0 : Fin 2 → ℝ) (t : ℝ) : Fin 2 → ℝ :=
  ![Real.exp (a * t) * (Real.cos (b * t) * y0 0 - Real.sin (b * t) * y0 1),
    Real.exp (a * t) * (Real.sin (b * t) * y0 0 + Real.cos (b * t) * y0 1)]

theorem testSol_solution (a b : ℝ) (y0 : Fin 2 → ℝ) : Spec.LinearSolution (cmat a b) 0 (testSol a b y0) := by
  intro t
  rw [hasDerivAt_pi]
  have he : HasDerivAt (fun t => Real.exp (a * t)) (Real.exp (a * t) * (a * 1)) t :=
    ((hasDerivAt_id t).const_mul a).exp
  have hc : HasDerivAt (fun t => Real.cos (b * t)) (-Real.sin (b * t) * (b * 1)) t :=
    ((hasDerivAt_id t).const_mul b).cos
  have hs : HasDerivAt (fun t => Real.sin (b * t)) (Real.cos (b * t) * (b * 1)) t :=
    ((hasDerivAt_id t).const_mul b).sin
  intro i
  fin_cases i
  · have h := he.mul ((hc.mul_const (y0 0)).sub (hs.mul_const (y0 1)))
    have e : (cmat a b).mulVec (testSol a b y0 t - 0) 0 = Real.exp (a * t) * (a * 1) *
        (Real.cos (b * t) * y0 0 - Real.sin (b * t) * y0 1) + Real.exp (a * t) *
        (-Real.sin (b * t) * (b * 1) * y0 0 - Real.cos (b * t) * (b * 1) * y0 1) := by
      simp [cmat, testSol, Matrix.mulVec, dotProduct, Fin.sum_univ_two]
      ring
    exact e ▸ h
  · have h := he.mul ((hs.mul_const (y0 0)).add (hc.mul_const (y0 1)))
    have e : (cmat a b).mulVec (testSol a b y0 t - 0) 1 = Real.exp (a * t) * (a * 1) *
        (Real.sin (b * t) * y0 0 + Real.cos (b * t) * y0 1) + Real.exp (a * t) *
        (Real.cos (b * t) * (b * 1) * y0 0 + -Real.sin (b * t) * (b * 1) * y0 1) := by
      simp [cmat, testSol, Matrix.mulVec, dotProduct, Fin.sum_univ_two]
      ring
    exact e ▸ h

theorem testSol_zero (a b : ℝ) (y0 : Fin 2 → ℝ) : testSol a b y0 0 = y0 := by
  funext i
  fin_cases i <;> simp [testSol]

theorem cmat_len (a b : ℝ) (v : Fin 2 → ℝ) :
    Spec.len (dot 2) ((cmat a b).mulVec v) = Real.sqrt (a ^ 2 + b ^ 2) * Spec.len (dot 2) v := by
  unfold Spec.len
  rw [← Real.sqrt_mul (by positivity)]
  congr 1
  rw [dot_apply, dot_apply]
  simp [cmat, Matrix.mulVec, dotProduct, Fin.sum_univ_two]
  ring

theorem cmat_pow_len (a b : ℝ) (k : ℕ) (v : Fin 2 → ℝ) :
    Spec.len (dot 2) ((cmat a b ^ k).mulVec v) = Real.sqrt (a ^ 2 + b ^ 2) ^ k * Spec.len (dot 2) v := by
  induction k with
  | zero => simp
  | succ k ih => rw [pow_succ', ← Matrix.mulVec_mulVec, cmat_len, ih]; ring

/-- C104, the test equation `y' = λ y`, `Re λ <= 0`, on `[0, xe]`: if the run returns then the error is at most
`Σ h |λ| (h^4 |λ|^4 / 3 + 1e-14 (1 + h |λ| + h^2 |λ|^2 + h^3 |λ|^3)) |y0|`. -/
theorem rodas_test_equation_error {meth : ℤ} {c : Coef ℚ} (hc : rocoe meth = some c) {at' rt : Fin 2 → ℝ}
    (ha : ∀ i, 0 < at' i) (hr : ∀ i, 0 ≤ rt i) {a : ℝ} (hre : a ≤ 0) (b : ℝ) {xe : ℝ} (hx : 0 < xe)
    (y0 : Fin 2 → ℝ) (o : St 2 (exactLinX 2).σ) (h : X) {s : St 2 (exactLinX 2).σ}
    (hs : Returns (step (exactLinX 2) (lift (testQ a b)) (Cfg.default c (fins at') (fins rt)))
      (start o h (.fin 0) (.fin xe) (fins y0)) s) {m : ℝ} (hm : m = Real.sqrt (a ^ 2 + b ^ 2)) :
    ∃ (u : Fin 2 → ℝ) (l : List ℝ), s.x = .fin xe ∧ s.Y = fins u ∧ s.taken = l.map X.fin ∧
      (∀ h ∈ l, 0 < h) ∧ l.sum = xe ∧
      Spec.len (dot 2) (u - testSol a b y0 xe) ≤ (l.map fun h => h * (m * ((h * m) ^ 4 / 3
        + 1e-14 * (1 + h * m + (h * m) ^ 2 + (h * m) ^ 3)))).sum * Spec.len (dot 2) y0 := by
  have hγ : c.GAMMA ≠ 0 := by rw [gamma_pos hc]; norm_num
  obtain ⟨u, l, h1, h2, ht, h3, h4, h5, -⟩ := rodas_run_error hc (by norm_num) (std_default c _ _)
    (exactLin_finite 2) (exactLin_spec 2) (lift_probX (testQ a b)) (realCfg_default c hγ at' rt ha hr)
    trivial rfl (testQ_linear a b) (cmat_dissipative hre b) hx hs (testSol_solution a b y0)
  refine ⟨u, l, h1, h2, ht, h3, by rw [h4, sub_zero], h5.trans (le_of_eq ?_)⟩
  have z : Spec.len (dot 2) (y0 - testSol a b y0 0) = 0 := by
    rw [testSol_zero, sub_self]
    simp [Spec.len]
  rw [z, zero_add, testSol_zero, sub_zero, ← List.sum_map_mul_right]
  congr 1
  refine List.map_congr_left fun h _ => ?_
  unfold Spec.rodasBound
  simp only [cmat_pow_len, cmat_len, ← hm]
  ring

end Odes.Rodas
