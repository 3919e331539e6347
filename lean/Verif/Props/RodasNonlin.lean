import Verif.Lemmas.RosErr
import Verif.Props.Rock4Nonlin
import Verif.Props.RodasErr
import Verif.Props.RodasInv

/-!
# C120: convergence of Rodas on nonlinear problems

`y' = f(y)`, `f` a polynomial field, `y` a solution on `[x0, xe]`.  `D` bounds the elementary differentials of
`f` along the solution, `Λ` is a Lipschitz constant of `f` near it, `κ` bounds the difference between the matrix
used by the code and the Jacobian.  With the exact Jacobian (`κ = 0`) the order is four; with the Jacobian
computed by differences of `f` there is an additional term `C κ h²` per step, `κ` of the size of `1e-8` times the
second derivatives of `f`.  The constant `C` is not explicit; it is the same for all matrices with `κ ≤ κm`, and is
found only in front of powers of the step length, so that the limit of the bound for small steps,
`8e-14 D T exp(Λ' T)`, is explicit.
-/

namespace Odes.Rodas

open Spec Germ

noncomputable section

variable {n : ℕ} {x0 xe : ℝ}

/-- the real problem `Q` is `y' = f(y)` for the polynomial field `f`, with the exact Jacobian or with one
computed by differences, in which case no entry that is different from zero is left out. -/
structure PolyProb (P : Fin n → MvPolynomial (Fin n) ℝ) (Q : Prob ℝ n) : Prop where
  F : ∀ x v, Q.F x v = polyField P v
  ft : Q.autonms = true ∨ Q.useDFt = false ∨ ∀ x v, Q.DFt x v = 0
  num : Q.computeJacobianNumerically = true → ∀ i j, MvPolynomial.pderiv j (P i) ≠ 0 → Q.stored i j = true
  jac : Q.computeJacobianNumerically = false → ∀ x v i j, Q.jac x v (Q.F x v) i j
    = MvPolynomial.aeval v (MvPolynomial.pderiv j (P i))

/-- the matrix used by the code differs from the Jacobian by at most `κ`, on a ball. -/
def JacLe (P : Fin n → MvPolynomial (Fin n) ℝ) (Q : Prob ℝ n) (R κ : ℝ) : Prop :=
  ∀ x v, ‖v‖ ≤ R → MatLe (Matrix.of (jacR Q x v) - Jac P v) κ

theorem deltaR_le (a : ℝ) : deltaR a ≤ 1e-8 * (|a| + 1) := by
  unfold deltaR
  rw [Real.sqrt_le_left (by positivity)]
  have h : max 1e-5 |a| ≤ |a| + 1 := by
    have := abs_nonneg a
    exact max_le (by norm_num; linarith) (by linarith)
  have h0 := abs_nonneg a
  nlinarith

/-- C120 (exact Jacobian). -/
theorem jac_exact {P : Fin n → MvPolynomial (Fin n) ℝ} {Q : Prob ℝ n} (hQ : PolyProb P Q)
    (hn : Q.computeJacobianNumerically = false) (R : ℝ) : JacLe P Q R 0 := by
  intro x v _
  have e : Matrix.of (jacR Q x v) - Jac P v = 0 := by
    ext i j
    rw [Matrix.sub_apply, Matrix.of_apply]
    unfold jacR
    rw [if_neg (by simp [hn]), hQ.jac hn]
    exact sub_self _
  rw [e]
  intro x
  simp

/-- C120 (numerical Jacobian): **the matrix computed by differences is off by at most `5e-9 n B (R + 1)`**, `B` a
bound for the second derivatives of `f` on the ball of radius `2 R + 1`. -/
theorem jac_numerical {P : Fin n → MvPolynomial (Fin n) ℝ} {Q : Prob ℝ n} (hQ : PolyProb P Q) {R B : ℝ}
    (hR : 0 ≤ R) (h0 : 0 ≤ B)
    (hB : ∀ v : Fin n → ℝ, ‖v‖ ≤ 2 * R + 1 → ∀ i j,
      |MvPolynomial.aeval v (MvPolynomial.pderiv j (MvPolynomial.pderiv j (P i)))| ≤ B)
    (hn : Q.computeJacobianNumerically = true) : JacLe P Q R (n * (5e-9 * B * (R + 1))) := by
  intro x v hv
  refine matLe_of (by positivity) fun i j => ?_
  rw [Matrix.sub_apply, Matrix.of_apply]
  have hj : |v j| ≤ R := (norm_le_pi_norm v j).trans hv
  have hd : deltaR (v j) ≤ 1e-8 * (R + 1) :=
    (deltaR_le _).trans (mul_le_mul_of_nonneg_left (by linarith) (by norm_num))
  unfold jacR
  rw [if_pos hn]
  by_cases hst : Q.stored i j = true
  · rw [if_pos hst, hQ.F, hQ.F]
    refine (quotient_error P v (B := B) i j (deltaR_pos _) fun r hr => ?_).trans ?_
    · refine hB _ ?_ i j
      rw [pi_norm_le_iff_of_nonneg (by positivity)]
      intro l
      by_cases hl : l = j
      · subst hl
        rw [Function.update_self, Real.norm_eq_abs]
        refine (abs_add_le _ _).trans ?_
        rw [abs_of_nonneg hr.1]
        linarith [hr.2]
      · rw [Function.update_of_ne hl]
        exact (norm_le_pi_norm v l).trans (by linarith)
    · have := mul_le_mul_of_nonneg_left hd (by positivity : 0 ≤ B / 2)
      refine this.trans (le_of_eq ?_)
      ring
  · have h0 : MvPolynomial.pderiv j (P i) = 0 := by
      by_contra h
      exact hst (hQ.num hn i j h)
    have e : Jac P v i j = 0 := by simp [Jac, h0]
    rw [if_neg hst, e, sub_zero, abs_zero]
    positivity

theorem dfx_zero {P : Fin n → MvPolynomial (Fin n) ℝ} {Q : Prob ℝ n} (hQ : PolyProb P Q) (x : ℝ)
    (v : Fin n → ℝ) : dfxR Q x v = 0 := by
  funext i
  unfold dfxR
  rcases hQ.ft with h | h | h
  · rw [if_pos h]; rfl
  · split_ifs with h1 h2
    · rfl
    · rw [h] at h2; cases h2
    · rw [hQ.F, hQ.F]; simp
  · split_ifs with h1 h2
    · rfl
    · rw [h]
    · rw [hQ.F, hQ.F]; simp

/-- the weights of the three methods. -/
theorem rodas_below {meth : ℤ} {c : Coef ℚ} (hc : rocoe meth = some c) :
    Below 1e-14 ((classicR c).result.add (Taylor.exact8.smul (-1))) := by
  have hg := (good hc).2.2.1
  have cast : ∀ {a b : ℚ}, Near 1e-14 a b → |(a : ℝ) - b| ≤ 1e-14 := by
    intro a b h
    have h2 : ((|a - b| : ℚ) : ℝ) < ((1e-14 : ℚ) : ℝ) := by exact_mod_cast h
    push_cast at h2
    norm_num at h2 ⊢
    exact h2.le
  obtain ⟨⟨n1, n2, n3, n4⟩, n5, n6, n7, n8⟩ := hg
  have c1 := cast n1
  have c2 := cast n2
  have c3 := cast n3
  have c4 := cast n4
  have c5 := cast n5
  have c6 := cast n6
  have c7 := cast n7
  have c8 := cast n8
  push_cast at c1 c2 c3 c4 c5 c6 c7 c8
  unfold Below
  simp only [W8.add, W8.smul, Taylor.exact8, Classic.result, wsum, Classic.weights, Classic.beta, classicR,
    mul_one, neg_mul, one_mul, ← sub_eq_add_neg]
  simp only [Classic.beta, Rat.cast_add] at c2 c4 c6 c7 c8
  refine ⟨c1, ?_, c3, c4, c5, ?_, c7, c8⟩
  · simp only [Finset.mul_sum] at c2 ⊢
    exact c2
  · simp only [mul_assoc] at c6 ⊢
    exact c6

theorem rodas_tri {meth : ℤ} {c : Coef ℚ} (hc : rocoe meth = some c) : ∃ γ, Tri (classicR c) γ := by
  have key : ∀ m ∈ [(1 : ℤ), 2, 3], ∀ c ∈ rocoe m, (∀ i, (classic c).gam i i = (method c).gamma) ∧
      0 ≤ (method c).gamma ∧
      (∀ i j, ¬ j < i → (classic c).alpha i j = 0) ∧ (∀ i j, i < j → (classic c).gam i j = 0) := by
    decide +kernel
  obtain ⟨k1, k0, k2, k3⟩ := key meth (by rcases rocoe_cases hc with h | h | h <;> simp [h]) c hc
  refine ⟨((method c).gamma : ℚ), fun i j h => ?_, fun i j h => ?_, fun i => ?_, ?_⟩
  · simp [classicR, k2 i j h]
  · simp [classicR, k3 i j h]
  · simp [classicR, k1 i]
  · exact_mod_cast k0

/-- C120 (one step): **a Rosenbrock step of the code with one of its three coefficient sets, from a point `v`
near the solution.**  The error is at most `1 + Λ' h + C h²` times the error of `v` plus
`C h^5 + 8e-14 D h + C κ h²`, if `C h ≤ 1`. -/
theorem rodas_nonlinear_step {meth : ℤ} {c : Coef ℚ} (hc : rocoe meth = some c)
    {P : Fin n → MvPolynomial (Fin n) ℝ} {y : ℝ → Fin n → ℝ} (hy : SolOn (polyField P) y x0 xe)
    {R Λ D κm : ℝ} (hR : ∀ t ∈ Set.Icc x0 xe, ‖y t‖ ≤ R) (hΛ0 : 0 ≤ Λ) (hΛ : LipOn P (R + 1) Λ) (hD : 0 ≤ D)
    (hel : ElemLe P y x0 xe D) (hκm : 0 ≤ κm) :
    ∃ C, 0 ≤ C ∧ ∀ Q κ, PolyProb P Q → 0 ≤ κ → κ ≤ κm → JacLe P Q (R + 1) κ →
      ∀ x h v k vnew, x0 ≤ x → 0 < h → x + h ≤ xe → C * h ≤ 1 →
      ‖v - y x‖ ≤ 1 → (method c.real).Step Q.F (Matrix.of (jacR Q x v)) (dfxR Q x v) x h v k vnew →
      ‖vnew - y (x + h)‖ ≤ (1 + (1 + 1e-14) * Λ * h + C * h ^ 2) * ‖v - y x‖
        + (C * h ^ 5 + 8e-14 * D * h + C * κ * h ^ 2) := by
  obtain ⟨γ, hγ⟩ := rodas_tri hc
  obtain ⟨h0, C, h0p, -, c0, hS⟩ := ros_step_error hy hR hγ (rodas_below hc) hD hel hΛ hκm
  have hb : |∑ j, (classicR c).b j| ≤ 1 + 1e-14 := by
    have := (rodas_below hc).1
    simp only [W8.add, W8.smul, Taylor.exact8, Classic.result, wsum, Classic.weights, mul_one] at this
    rw [abs_le] at this ⊢
    constructor <;> linarith [this.1, this.2]
  refine ⟨1 / h0 + C, by positivity, ?_⟩
  intro Q κ hQ hκ hκ2 hJ x h v k vnew h1 h2 h3 h4 h5 hk
  obtain ⟨k', hk', e⟩ := rodas_step_classic hc h2.ne' hk
  have hv : ‖v‖ ≤ R + 1 := by
    have e : v = (v - y x) + y x := by abel
    rw [e]
    exact (norm_add_le _ _).trans (by linarith [hR x ⟨h1, by linarith⟩])
  have hh0 : h ≤ h0 := by
    have p : 0 ≤ C * h := by positivity
    have q : 1 / h0 * h ≤ 1 := by linarith
    rw [div_mul_eq_mul_div, one_mul, div_le_one h0p] at q
    exact q
  have hst : Odes.Stages (classicR c) P (Matrix.of (jacR Q x v)) h v k' := by
    intro i
    rw [hk' i, hQ.F, dfx_zero hQ, smul_zero, add_zero]
  have key := hS x h v _ k' κ h1 h2.le hh0 h3 h5 (hJ x v hv) hκ hκ2 hst
  rw [e]
  refine key.trans ?_
  have n0 := norm_nonneg (v - y x)
  have p0 : 0 ≤ 1 / h0 := by positivity
  generalize 1 / h0 = w at *
  have a1 : 0 ≤ w * h ^ 2 * ‖v - y x‖ := by positivity
  have a2 : 0 ≤ w * h ^ 5 := by positivity
  have a3 : 0 ≤ w * κ * h ^ 2 := by positivity
  have a4 := mul_le_mul_of_nonneg_right hb (by positivity : 0 ≤ Λ * h * ‖v - y x‖)
  linarith

/-- C120: **convergence of Rodas.**  For every polynomial problem, solution on `[x0, xe]` and coefficient set
there is a constant `C` such that for every run which starts on the solution and returns, if no step is longer
than `H`, `C H ≤ 1`, and the bound is at most 1, the result differs from the solution by at most
`exp((Λ' + C H)(xe - x0)) Σ (C h^5 + 8e-14 D h + C κ h²)`, where `Λ' = (1 + 1e-14) Λ` and the sum is over the
steps; whatever the tolerances, the linear algebra and the problem object. -/
theorem rodas_nonlinear_run {meth : ℤ} {c : Coef ℚ} (hc : rocoe meth = some c)
    (P : Fin n → MvPolynomial (Fin n) ℝ) {y : ℝ → Fin n → ℝ} (hn : 0 < n) (hx : x0 < xe)
    (hy : SolOn (polyField P) y x0 xe) {R Λ D κm : ℝ} (hR : ∀ t ∈ Set.Icc x0 xe, ‖y t‖ ≤ R) (hΛ0 : 0 ≤ Λ)
    (hΛ : LipOn P (R + 1) Λ) (hD : 0 ≤ D) (hel : ElemLe P y x0 xe D) (hκm : 0 ≤ κm) :
    ∃ C, 0 ≤ C ∧ ∀ (L : Lin X n) (Lr : Lin ℝ n) (Shape : (Fin n → Fin n → ℝ) → Prop) (_ : LinX L Lr)
      (_ : LinSpec Lr Shape) (Pr : Prob X n) (Q : Prob ℝ n) (_ : ProbX Pr Q) (_ : PolyProb P Q)
      (_ : ∀ x v, Shape (jacR Q x v)) (κ : ℝ) (_ : 0 ≤ κ) (_ : κ ≤ κm) (_ : JacLe P Q (R + 1) κ)
      (g : Cfg n) (q : ℝ) (a r : Fin n → ℝ) (_ : Std g q)
      (_ : RealCfg g c.real a r) (_ : g.onlyOneStep = false) (o : St n L.σ) (h : X) (s : St n L.σ)
      (_ : Returns (step L Pr g) (start o h (.fin x0) (.fin xe) (fins (y x0))) s),
      ∃ (u : Fin n → ℝ) (l : List ℝ), s.x = .fin xe ∧ s.Y = fins u ∧ s.taken = l.map X.fin ∧
        (∀ h ∈ l, 0 < h) ∧ l.sum = xe - x0 ∧
        ∀ H E, C * H ≤ 1 → (∀ h ∈ l, h ≤ H) →
          E = Real.exp (((1 + 1e-14) * Λ + C * H) * (xe - x0))
            * (l.map fun h => C * h ^ 5 + 8e-14 * D * h + C * κ * h ^ 2).sum → E ≤ 1 → ‖u - y xe‖ ≤ E := by
  obtain ⟨C, k0, hK⟩ := rodas_nonlinear_step hc hy hR hΛ0 hΛ hD hel hκm
  refine ⟨C, k0, ?_⟩
  intro L Lr Shape hL hS Pr Q hP hQ hSh κ hκ hκ2 hJ g q a r hq hg ho o h s hr
  obtain ⟨u, l, h1, h2, h3, h4⟩ := rodas_run_is_rosenbrock hn hq hL hS hP hg hSh ho hx hr
  obtain ⟨cf, hcf⟩ : ∃ cf : ℝ → ℝ, cf = fun h => C * h ^ 4 + 8e-14 * D + C * κ * h := ⟨_, rfl⟩
  have hcf0 : ∀ h, 0 < h → 0 ≤ cf h := fun h hp => by rw [hcf]; positivity
  have key : ∀ {l x v}, Spec.StepList (fun x h v vnew => ∃ k, (method c.real).Step Q.F (Matrix.of (jacR Q x v))
        (dfxR Q x v) x h v k vnew ∧ Spec.wrms a r v vnew (k 5) ≤ 1) x0 (y x0) l x v → x ≤ xe →
      x = x0 + l.sum ∧ (∀ h ∈ l, 0 < h) ∧ ∀ H, C * H ≤ 1 → (∀ h ∈ l, h ≤ H) →
        Real.exp (((1 + 1e-14) * Λ + C * H) * (xe - x0)) * contrib cf l ≤ 1 →
        ‖v - y x‖ ≤ Real.exp (((1 + 1e-14) * Λ + C * H) * l.sum) * contrib cf l := by
    intro l x v hl
    induction hl with
    | nil => intro _; simp [contrib]
    | @cons l x h v vnew _ hp hk ih =>
      intro hxe
      obtain ⟨e1, e2, e3⟩ := ih (by linarith)
      obtain ⟨k, hk, -⟩ := hk
      have hpos : ∀ z ∈ h :: l, 0 < z := by
        intro z hz
        rcases List.mem_cons.1 hz with rfl | hz
        · exact hp
        · exact e2 z hz
      have hs0 := sum_nonneg_of e2
      refine ⟨by rw [e1, List.sum_cons]; ring, hpos, fun H q0 q1 q2 => ?_⟩
      have hA := contrib_nonneg hcf0 e2
      rw [contrib_cons] at q2 ⊢
      have hhH : h ≤ H := q1 h (by simp)
      have hH0 : 0 ≤ H := hp.le.trans hhH
      generalize hG : (1 + 1e-14) * Λ + C * H = G at q2 ⊢
      have hG0 : 0 ≤ G := by rw [← hG]; positivity
      have hcc : (0 : ℝ) ≤ cf h * h := mul_nonneg (hcf0 h hp) hp.le
      have q3 : Real.exp (G * (xe - x0)) * contrib cf l ≤ 1 := by
        have : 0 ≤ Real.exp (G * (xe - x0)) * (cf h * h) := by positivity
        linarith
      have he := e3 H q0 (fun z hz => q1 z (by simp [hz])) (by rw [hG]; exact q3)
      rw [hG] at he
      have hv1 : ‖v - y x‖ ≤ 1 := by
        refine (he.trans ?_).trans q3
        refine mul_le_mul_of_nonneg_right (Real.exp_le_exp.2 ?_) hA
        exact mul_le_mul_of_nonneg_left (by linarith) hG0
      rw [List.sum_cons]
      have hCh : C * h ≤ 1 := (mul_le_mul_of_nonneg_left hhH k0).trans q0
      have st := hK Q κ hQ hκ hκ2 hJ x h v k vnew (by linarith) hp hxe hCh hv1 hk
      have n0 := norm_nonneg (v - y x)
      refine accumulate hG0 hp.le hs0 hA hcc he (st.trans ?_)
      have p1 : (1 + (1 + 1e-14) * Λ * h + C * h ^ 2) * ‖v - y x‖ ≤ (1 + G * h) * ‖v - y x‖ := by
        refine mul_le_mul_of_nonneg_right ?_ n0
        have := mul_le_mul_of_nonneg_left hhH (mul_nonneg k0 hp.le)
        rw [← hG]
        nlinarith
      have p2 : cf h * h = C * h ^ 5 + 8e-14 * D * h + C * κ * h ^ 2 := by rw [hcf]; ring
      linarith
  obtain ⟨e1, e2, e3⟩ := key h4 le_rfl
  have es : l.sum = xe - x0 := by linarith
  refine ⟨u, l, h1, h2, h3, e2, es, fun H E q1 q2 hE hE1 => ?_⟩
  have ec : (l.map fun h => C * h ^ 5 + 8e-14 * D * h + C * κ * h ^ 2).sum = contrib cf l := by
    unfold contrib
    congr 2
    funext h
    rw [hcf]; ring
  rw [ec] at hE
  have := e3 H q1 q2 (by rw [← hE]; exact hE1)
  rw [es, ← hE] at this
  exact this

/-- C120: the result: **if no accepted step was longer than `H`, the error is at most
`exp((Λ' + C H) T) T (C H^4 + 8e-14 D + C κ H)`**, `T = xe - x0`, provided `C H ≤ 1` and this bound is at most
1. -/
theorem rodas_nonlinear_call {meth : ℤ} {c : Coef ℚ} (hc : rocoe meth = some c)
    (P : Fin n → MvPolynomial (Fin n) ℝ) {y : ℝ → Fin n → ℝ} (hn : 0 < n) (hx : x0 < xe)
    (hy : SolOn (polyField P) y x0 xe) {R Λ D κm : ℝ} (hR : ∀ t ∈ Set.Icc x0 xe, ‖y t‖ ≤ R) (hΛ0 : 0 ≤ Λ)
    (hΛ : LipOn P (R + 1) Λ) (hD : 0 ≤ D) (hel : ElemLe P y x0 xe D) (hκm : 0 ≤ κm) :
    ∃ C, 0 ≤ C ∧ ∀ (L : Lin X n) (Lr : Lin ℝ n) (Shape : (Fin n → Fin n → ℝ) → Prop) (_ : LinX L Lr)
      (_ : LinSpec Lr Shape) (Pr : Prob X n) (Q : Prob ℝ n) (_ : ProbX Pr Q) (_ : PolyProb P Q)
      (_ : ∀ x v, Shape (jacR Q x v)) (κ : ℝ) (_ : 0 ≤ κ) (_ : κ ≤ κm) (_ : JacLe P Q (R + 1) κ)
      (g : Cfg n) (q : ℝ) (a r : Fin n → ℝ) (_ : Std g q)
      (_ : RealCfg g c.real a r) (_ : g.onlyOneStep = false) (o : St n L.σ) (h : X) (s : St n L.σ)
      (_ : Returns (step L Pr g) (start o h (.fin x0) (.fin xe) (fins (y x0))) s) (H E : ℝ)
      (_ : ∀ h ∈ s.taken, h ≤ X.fin H) (_ : C * H ≤ 1)
      (_ : E = Real.exp (((1 + 1e-14) * Λ + C * H) * (xe - x0))
        * ((xe - x0) * (C * H ^ 4 + 8e-14 * D + C * κ * H))) (_ : E ≤ 1),
      ∃ u : Fin n → ℝ, s.Y = fins u ∧ ‖u - y xe‖ ≤ E := by
  obtain ⟨C, k0, hK⟩ := rodas_nonlinear_run hc P hn hx hy hR hΛ0 hΛ hD hel hκm
  refine ⟨C, k0, ?_⟩
  intro L Lr Shape hL hS Pr Q hP hQ hSh κ hκ hκ2 hJ g q a r hq hg ho o h s hr H E hH h1 hE h2
  obtain ⟨u, l, -, e2, e3, e4, e5, e6⟩ := hK L Lr Shape hL hS Pr Q hP hQ hSh κ hκ hκ2 hJ g q a r hq hg ho o h s hr
  have hH' : ∀ z ∈ l, z ≤ H := fun z hz =>
    (X.fin_le _ _).1 (hH (X.fin z) (by rw [e3]; exact List.mem_map_of_mem hz))
  have hb : Real.exp (((1 + 1e-14) * Λ + C * H) * (xe - x0))
      * (l.map fun h => C * h ^ 5 + 8e-14 * D * h + C * κ * h ^ 2).sum ≤ E := by
    rw [hE]
    refine mul_le_mul_of_nonneg_left ?_ (Real.exp_pos _).le
    have ec : (l.map fun h => C * h ^ 5 + 8e-14 * D * h + C * κ * h ^ 2).sum
        = contrib (fun h => C * h ^ 4 + 8e-14 * D + C * κ * h) l := by
      unfold contrib
      congr 2
      funext h
      ring
    rw [ec, ← e5, mul_comm l.sum]
    refine contrib_le (c := fun h => C * h ^ 4 + 8e-14 * D + C * κ * h) (fun h p1 p2 => ?_) e4 hH'
    have q1 := mul_le_mul_of_nonneg_left (pow_le_pow_left₀ p1.le p2 4) k0
    have q2 := mul_le_mul_of_nonneg_left p2 (mul_nonneg k0 hκ)
    show C * h ^ 4 + 8e-14 * D + C * κ * h ≤ C * H ^ 4 + 8e-14 * D + C * κ * H
    linarith
  exact ⟨u, e2, (e6 H _ h1 hH' rfl (hb.trans h2)).trans hb⟩

/-! ### an instance: the logistic equation -/

/-- `y' = y - y^2` as seen by Rodas, with the Jacobian computed by differences or given. -/
def logisticQ (b : Bool) : Prob ℝ 1 where
  F _ v := fun _ => v 0 - v 0 ^ 2
  jac _ v _ _ _ := 1 - 2 * v 0
  DFt _ _ := 0
  computeJacobianNumerically := b
  autonms := true
  useDFt := false
  stored _ _ := true

theorem logisticQ_poly (b : Bool) : PolyProb logistic (logisticQ b) where
  F x v := by
    funext i
    simp [logisticQ, polyField, logistic]
  ft := Or.inl rfl
  num _ _ _ _ := rfl
  jac _ x v i j := by
    have : j = 0 := Subsingleton.elim _ _
    subst this
    simp [logisticQ, logistic]

/-- the difference quotients are off by at most 3e-8. -/
theorem logisticQ_jac (b : Bool) : JacLe logistic (logisticQ b) 2 (if b then 3e-8 else 0) := by
  cases b with
  | false => exact jac_exact (logisticQ_poly false) rfl 2
  | true =>
    have h := jac_numerical (R := 2) (B := 2) (logisticQ_poly true) (by norm_num) (by norm_num) (fun v _ i j => by
      have : j = 0 := Subsingleton.elim _ _
      subst this
      have hp : MvPolynomial.pderiv (0 : Fin 1) (2 : MvPolynomial (Fin 1) ℝ) = 0 := by
        have e : (2 : MvPolynomial (Fin 1) ℝ) = MvPolynomial.C 2 := (map_ofNat MvPolynomial.C 2).symm
        rw [e, MvPolynomial.pderiv_C]
      simp [logistic, hp]) rfl
    have e : ((1 : ℕ) : ℝ) * (5e-9 * 2 * (2 + 1)) = 3e-8 := by norm_num
    rw [e] at h
    exact h

/-- C120 on the logistic equation, all constants explicit except `C`. -/
theorem rodas_logistic (b : Bool) {meth : ℤ} {c : Coef ℚ} (hc : rocoe meth = some c) {te : ℝ} (ht : 0 < te) :
    ∃ C, 0 ≤ C ∧ ∀ (a r : Fin 1 → ℝ) (_ : ∀ i, 0 < a i) (_ : ∀ i, 0 ≤ r i) (o : St 1 (exactLinX 1).σ) (h : X)
      (s : St 1 (exactLinX 1).σ)
      (_ : Returns (step (exactLinX 1) (lift (logisticQ b)) (Cfg.default c (fins a) (fins r)))
        (start o h (.fin 0) (.fin te) (fins fun _ => 1 / 2)) s) (H E : ℝ)
      (_ : ∀ h ∈ s.taken, h ≤ X.fin H) (_ : C * H ≤ 1)
      (_ : E = Real.exp (((1 + 1e-14) * 5 + C * H) * te)
        * (te * (C * H ^ 4 + 8e-14 + C * (if b then 3e-8 else 0) * H))) (_ : E ≤ 1),
      ∃ u : Fin 1 → ℝ, s.Y = fins u ∧ |u 0 - (1 + Real.exp (-te))⁻¹| ≤ E := by
  have h2 : (1 : ℝ) + 1 = 2 := by norm_num
  obtain ⟨K, k0, hK⟩ := rodas_nonlinear_call hc logistic (by norm_num) ht (logistic_sol 0 te)
    (logistic_bound 0 te) (by norm_num) logistic_lip zero_le_one (logistic_elem 0 te)
    (κm := 3e-8) (by norm_num)
  have hγ : c.GAMMA ≠ 0 := by rw [gamma_pos hc]; norm_num
  refine ⟨K, k0, fun a r ha hr o h s hs H E h1 h3 hE h4 => ?_⟩
  have e : (fun _ : Fin 1 => (1 + Real.exp (-(0 : ℝ)))⁻¹) = fun _ => 1 / 2 := by
    funext _; norm_num
  obtain ⟨u, hu, hb⟩ := hK _ _ _ (exactLin_finite 1) (exactLin_spec 1) _ _ (lift_probX (logisticQ b))
    (logisticQ_poly b) (fun _ _ => trivial) (if b then 3e-8 else 0) (by split_ifs <;> norm_num)
    (by split_ifs <;> norm_num) (by rw [h2]; exact logisticQ_jac b)
    _ _ a r (std_default c _ _) (realCfg_default c hγ a r ha hr) rfl
    o h s (by rw [e]; exact hs) H E h1 h3 (by rw [hE, sub_zero, mul_one]) h4
  refine ⟨u, hu, le_trans ?_ hb⟩
  have := norm_le_pi_norm (u - fun _ => (1 + Real.exp (-te))⁻¹) 0
  simpa using this

/-! ### the Oregonator and E5 -/

/-- the right hand side of the Oregonator. -/
def orePoly : Fin 3 → MvPolynomial (Fin 3) ℝ :=
  ![.C 77.27 * (.X 1 + .X 0 * (1 - .C 8.375e-06 * .X 0 - .X 1)),
    (.X 2 - (1 + .X 0) * .X 1) * .C Stiff.u7, .C 0.161 * (.X 0 - .X 2)]

/-- the Oregonator as seen by Rodas, Rodas-NG/test/Oregonator.hpp 10-60 (full numerical Jacobian,
autonomous). -/
def oreQ : Prob ℝ 3 where
  F _ v := Stiff.oreRhs v
  jac _ v _ := Stiff.oreJacRodas v
  DFt _ _ := 0
  computeJacobianNumerically := true
  autonms := true
  useDFt := false
  stored _ _ := true

theorem oreQ_poly : PolyProb orePoly oreQ where
  F x v := by
    funext i
    fin_cases i <;> simp [oreQ, polyField, orePoly, Stiff.oreRhs]
  ft := Or.inl rfl
  num _ _ _ _ := rfl
  jac h := by cases h

/-- the right hand side of E5. -/
def e5Poly : Fin 4 → MvPolynomial (Fin 4) ℝ :=
  let r1 : MvPolynomial (Fin 4) ℝ := .C 7.89e-10 * .X 0 - .C (1e+06 * 1.13e+03) * .X 1 * .X 2
  let r3 : MvPolynomial (Fin 4) ℝ := .C 1.1e+07 * .X 0 * .X 2 - .C 1.13e+03 * .X 3
  ![-.C 7.89e-10 * .X 0 - .C 1.1e+07 * .X 0 * .X 2, r1, r1 - r3, r3]

theorem e5Q_poly : PolyProb e5Poly e5Q where
  F x v := by
    funext i
    fin_cases i <;> simp [e5Q, polyField, e5Poly, Stiff.e5]
  ft := Or.inl rfl
  num _ _ _ _ := rfl
  jac h := by cases h

/-- second derivatives of the Oregonator. -/
theorem orePoly_second (v : Fin 3 → ℝ) (i j : Fin 3) :
    |MvPolynomial.aeval v (MvPolynomial.pderiv j (MvPolynomial.pderiv j (orePoly i)))| ≤ 2e-3 := by
  fin_cases i <;> fin_cases j <;>
    simp [orePoly, MvPolynomial.pderiv_X] <;> norm_num [abs_le]

/-- C120 for the Oregonator with the settings of the test program (method 1, full matrix, numerical Jacobian,
initial value (1,2,3)): the error at `te` is at most
`exp((Λ' + C H) te) te (C H^4 + 8e-14 D + C 3e-11 (R + 2) H)`. -/
theorem rodas_oregonator {c : Coef ℚ} (hc : rocoe 1 = some c) {te : ℝ} (ht : 0 < te) {y : ℝ → Fin 3 → ℝ}
    (hy : SolOn Stiff.oreRhs y 0 te) (h0 : y 0 = ![1, 2, 3]) {R Λ D : ℝ}
    (hR : ∀ t ∈ Set.Icc 0 te, ‖y t‖ ≤ R) (hΛ0 : 0 ≤ Λ)
    (hΛ : LipOn orePoly (R + 1) Λ) (hD : 0 ≤ D) (hel : ElemLe orePoly y 0 te D) :
    ∃ C, 0 ≤ C ∧ ∀ (a r : Fin 3 → ℝ) (_ : ∀ i, 0 < a i) (_ : ∀ i, 0 ≤ r i) (o : St 3 (exactLinX 3).σ) (h : X)
      (s : St 3 (exactLinX 3).σ)
      (_ : Returns (step (exactLinX 3) (lift oreQ) (Cfg.default c (fins a) (fins r)))
        (start o h (.fin 0) (.fin te) (fins ![1, 2, 3])) s) (H E : ℝ)
      (_ : ∀ h ∈ s.taken, h ≤ X.fin H) (_ : C * H ≤ 1)
      (_ : E = Real.exp (((1 + 1e-14) * Λ + C * H) * te)
        * (te * (C * H ^ 4 + 8e-14 * D + C * (3e-11 * (R + 2)) * H))) (_ : E ≤ 1),
      ∃ u : Fin 3 → ℝ, s.Y = fins u ∧ ‖u - y te‖ ≤ E := by
  have e : Stiff.oreRhs = polyField orePoly := by
    funext v
    exact (oreQ_poly.F 0 v)
  rw [e] at hy
  have hR0 : 0 ≤ R := (norm_nonneg _).trans (hR 0 ⟨le_rfl, ht.le⟩)
  have hκ : (0 : ℝ) ≤ 3e-11 * (R + 2) := by positivity
  obtain ⟨K, k0, hK⟩ := rodas_nonlinear_call hc orePoly (by norm_num) ht hy hR hΛ0 hΛ hD hel hκ
  have hγ : c.GAMMA ≠ 0 := by rw [gamma_pos hc]; norm_num
  refine ⟨K, k0, fun a r ha hr o h s hs H E h1 h2 hE h3 => ?_⟩
  have hJ : JacLe orePoly oreQ (R + 1) (3e-11 * (R + 2)) := by
    have h := jac_numerical (R := R + 1) (B := 2e-3) oreQ_poly (by positivity) (by norm_num)
      (fun v _ i j => orePoly_second v i j) rfl
    have e : ((3 : ℕ) : ℝ) * (5e-9 * 2e-3 * (R + 1 + 1)) = 3e-11 * (R + 2) := by push_cast; ring
    rw [e] at h
    exact h
  exact hK _ _ _ (exactLin_finite 3) (exactLin_spec 3) _ _ (lift_probX oreQ) oreQ_poly (fun _ _ => trivial)
    _ hκ le_rfl hJ _ _ a r (std_default c _ _) (realCfg_default c hγ a r ha hr) rfl o h s (by rw [h0]; exact hs)
    H E h1 h2 (by rw [hE, sub_zero]) h3

end

end Odes.Rodas
