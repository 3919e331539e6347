import Verif.Lemmas.GermErr
import Verif.Props.Rock4Err
import Verif.Props.Rock4Tables
import Mathlib.Analysis.Calculus.Deriv.Inv

/-!
# C119: convergence of order four of the adaptive ROCK4 solver, nonlinear problems

`y' = f(y)`, `f` a polynomial field (as in KPP, BZ, the Oregonator and E5; the test problem of ROCK4 clips its
reaction term outside `[0, 1]` and is polynomial inside only), `y` a solution on `[t0, te]`.  `D` bounds the
elementary differentials of `f` along the solution, `Λ` is a Lipschitz constant of `f` near it.  The constant `C`
is not explicit, but is only found in front of powers of the step length; the level below which the error is not
brought by smaller steps, because of the decimals of the coefficients, is explicit: `8e-14 D T exp(Λ T)`.
-/

namespace Odes

open Rock4 (Sel)
open Spec

noncomputable section

variable {n : ℕ} {t0 te : ℝ}

theorem Small4.below {δ : W8 ℝ} (h : Small4 δ) : Below 1e-14 δ :=
  ⟨h.1.1, h.1.2.1, h.1.2.2.1, h.1.2.2.2, h.2.1, h.2.2.1, h.2.2.2.1, h.2.2.2.2⟩

/-- one constant for all formulas of the table. -/
theorem sel_uniform {p : ℤ → ℤ → ℤ → ℝ → Prop} (mono : ∀ d a b C D, C ≤ D → p d a b C → p d a b D)
    (h : ∀ d a b, Sel d a b → ∃ C, p d a b C) : ∃ C, 0 ≤ C ∧ ∀ d a b, Sel d a b → p d a b C := by
  have h' : ∀ k : ℕ, ∃ C, ∀ d : ℤ, k < 50 → Rock4.MS[k]? = some d →
      p d (k + 1) (blockStart Rock4.MS k) C := by
    intro k
    by_cases hk : k < 50
    · cases e : Rock4.MS[k]? with
      | none => exact ⟨0, fun d _ hd => by cases hd⟩
      | some d0 =>
        obtain ⟨C, hC⟩ := h d0 (k + 1) (blockStart Rock4.MS k) ⟨k, hk, e, rfl, rfl⟩
        exact ⟨C, fun d _ hd => by cases hd; exact hC⟩
    · exact ⟨0, fun d hd => absurd hd hk⟩
  choose C hC using h'
  refine ⟨∑ k ∈ Finset.range 50, |C k|, Finset.sum_nonneg fun k _ => abs_nonneg _, ?_⟩
  rintro d a b ⟨k, hk, e, rfl, rfl⟩
  refine mono _ _ _ (C k) _ ?_ (hC k d hk e)
  exact (le_abs_self _).trans (Finset.single_le_sum (f := fun k => |C k|) (fun j _ => abs_nonneg _)
    (Finset.mem_range.2 hk))

/-- C119 (one step): **every formula of the table makes an error of at most `C h^5 + 8e-14 D h` in a step
of length `h ≤ 1` that starts on the solution**, with one constant for all formulas and all starting
times. -/
theorem rock4_local_error {P : Fin n → MvPolynomial (Fin n) ℝ} {y : ℝ → Fin n → ℝ}
    (hy : SolOn (polyField P) y t0 te) {D : ℝ} (hD : 0 ≤ D) (hel : ElemLe P y t0 te D) :
    ∃ C, 0 ≤ C ∧ ∀ d mz mr, Sel d mz mr → ∀ t h, t0 ≤ t → 0 ≤ h → h ≤ 1 → t + h ≤ te →
      ‖Gen.step (Rock4L.formulaOf Rock4.realTab d mz mr) (polyField P) h (y t) - y (t + h)‖
        ≤ C * h ^ 5 + 8e-14 * D * h := by
  obtain ⟨R, hR⟩ := hy.bounded
  refine sel_uniform (fun d a b C D' hCD h t h' h1 h2 h3 h4 => (h t h' h1 h2 h3 h4).trans ?_) ?_
  · have := mul_le_mul_of_nonneg_right hCD (by positivity : 0 ≤ h' ^ 5)
    linarith
  · intro d a b hs
    obtain ⟨C, -, hC⟩ := rock_local hy hR hD hel (Rock4L.formulaOf Rock4.realTab d a b)
      (small4 (Rock4.order_tab hs).1).below
    refine ⟨C, fun t h h1 h2 h3 h4 => (hC t h h1 h2 h3 h4).trans (le_of_eq ?_)⟩
    ring

/-- `Λ` is a Lipschitz constant of the field on the ball of radius `R`. -/
def LipOn (P : Fin n → MvPolynomial (Fin n) ℝ) (R Λ : ℝ) : Prop :=
  ∀ u v : Fin n → ℝ, ‖u‖ ≤ R → ‖v‖ ≤ R → ‖polyField P u - polyField P v‖ ≤ Λ * ‖u - v‖

/-- C119 (stability): on every ball the steps of all formulas are Lipschitz with constant
`1 + (1 + 1e-14) Λ h + L h²`, `Λ` the Lipschitz constant of the field. -/
theorem rock4_step_lipschitz (P : Fin n → MvPolynomial (Fin n) ℝ) {R Λ : ℝ} (h0 : 0 ≤ Λ) (hΛ : LipOn P R Λ) :
    ∃ L, 0 ≤ L ∧ ∀ d mz mr, Sel d mz mr → ∀ h u v, 0 ≤ h → h ≤ 1 → ‖u‖ ≤ R → ‖v‖ ≤ R →
      ‖Gen.step (Rock4L.formulaOf Rock4.realTab d mz mr) (polyField P) h u
        - Gen.step (Rock4L.formulaOf Rock4.realTab d mz mr) (polyField P) h v‖
        ≤ (1 + (1 + 1e-14) * Λ * h + L * h ^ 2) * ‖u - v‖ := by
  refine sel_uniform (fun d a b C D hCD h h' u v h1 h2 h3 h4 => (h h' u v h1 h2 h3 h4).trans ?_) ?_
  · refine mul_le_mul_of_nonneg_right ?_ (norm_nonneg _)
    have := mul_le_mul_of_nonneg_right hCD (by positivity : 0 ≤ h' ^ 2)
    linarith
  · intro d a b hs
    obtain ⟨L, -, hL⟩ := rock_stable P (Rock4L.formulaOf Rock4.realTab d a b) hΛ
    refine ⟨L, fun h u v h1 h2 h3 h4 => (hL h u v h1 h2 h3 h4).trans ?_⟩
    refine mul_le_mul_of_nonneg_right ?_ (norm_nonneg _)
    have hw : |(wStep (Rock4L.formulaOf Rock4.realTab d a b)).t1| ≤ 1 + 1e-14 := by
      have := (small4 (Rock4.order_tab hs).1).below.1
      simp only [W8.add, W8.smul, Taylor.exact8, mul_one] at this
      rw [abs_le] at this ⊢
      constructor <;> linarith [this.1, this.2]
    have := mul_le_mul_of_nonneg_right hw (mul_nonneg h0 h1)
    linarith

/-- what holds in every state of a call: lengths of the accepted steps `l` (last first), and the error. -/
structure NlInv (C D Λ : ℝ) (t0 te : ℝ) (y : ℝ → Fin n → ℝ) (s : Rock4.St n) (l : List ℝ) : Prop where
  acc : (l.length : ℤ) = s.nacc
  pos : ∀ h ∈ l, 0 < h
  time : s.t = X.fin (t0 + l.sum)
  val : ∃ v, s.heap s.y = Rock4L.up v ∧ ∀ H, H ≤ 1 → (∀ h ∈ l, h ≤ H) →
    Real.exp (((1 + 1e-14) * Λ + C * H) * (te - t0)) * contrib (fun h => C * h ^ 4 + 8e-14 * D) l ≤ 1 →
    ‖v - y (t0 + l.sum)‖
      ≤ Real.exp (((1 + 1e-14) * Λ + C * H) * l.sum) * contrib (fun h => C * h ^ 4 + 8e-14 * D) l

theorem nl_iter {Pr : Rock4.Problem n} {P : Fin n → MvPolynomial (Fin n) ℝ}
    (hP : ∀ v, Pr.F (Rock4L.up v) = Rock4L.up (polyField P v)) {y : ℝ → Fin n → ℝ} {R C D0 Λ : ℝ}
    (hR : ∀ t ∈ Set.Icc t0 te, ‖y t‖ ≤ R) (hC0 : 0 ≤ C) (hD0 : 0 ≤ D0) (hΛ0 : 0 ≤ Λ)
    (hC : ∀ d mz mr, Sel d mz mr → ∀ t h, t0 ≤ t → 0 ≤ h → h ≤ 1 → t + h ≤ te →
      ‖Gen.step (Rock4L.formulaOf Rock4.realTab d mz mr) (polyField P) h (y t) - y (t + h)‖
        ≤ C * h ^ 5 + 8e-14 * D0 * h)
    (hL : ∀ d mz mr, Sel d mz mr → ∀ h u v, 0 ≤ h → h ≤ 1 → ‖u‖ ≤ R + 1 → ‖v‖ ≤ R + 1 →
      ‖Gen.step (Rock4L.formulaOf Rock4.realTab d mz mr) (polyField P) h u
        - Gen.step (Rock4L.formulaOf Rock4.realTab d mz mr) (polyField P) h v‖
        ≤ (1 + (1 + 1e-14) * Λ * h + C * h ^ 2) * ‖u - v‖)
    {y0 : Rock4.Vec n} {s0 s s' : Rock4.St n} {l : List ℝ}
    (I : Rock4.Inv Pr Rock4.shipped te t0 y0 s0 s) (J : NlInv C D0 Λ t0 te y s l)
    (h : Rock4.step Pr Rock4.shipped (X.fin te) s = .next s') :
    ∃ l', NlInv C D0 Λ t0 te y s' l' := by
  obtain ⟨t, s1, hh, err, ht, hlt, -, D⟩ := Rock4.step_next Pr Rock4.shipped te t0 _ _ _ s' I h
  obtain ⟨v, hv, hN⟩ := J.val
  have et : t = t0 + l.sum := X.fin_inj.1 (ht.symm.trans J.time)
  have hpos : 0 < hh := lt_of_lt_of_le (by norm_num [Rock4.hmin]) D.hge
  have hle := D.hle
  by_cases ha : err < 1.0
  · obtain ⟨a1, a2, -, a4, -⟩ := D.accept ha
    rw [hv, stages_up Pr _ hP] at a4
    have hS := sum_nonneg_of J.pos
    have ets : t0 + (hh :: l).sum = t0 + l.sum + hh := by rw [List.sum_cons]; ring
    have hpos' : ∀ x ∈ hh :: l, 0 < x := by
      intro x hx
      rcases List.mem_cons.1 hx with rfl | hx
      · exact hpos
      · exact J.pos x hx
    refine ⟨hh :: l, by rw [a2, ← J.acc]; simp, hpos', by rw [a1, ets, et], _, a4, ?_⟩
    intro H hH1 h1 h2
    have hA := contrib_nonneg (c := fun h => C * h ^ 4 + 8e-14 * D0) (fun h _ => by positivity) J.pos
    rw [contrib_cons] at h2 ⊢
    have hhH : hh ≤ H := h1 hh (by simp)
    have hH0 : 0 ≤ H := hpos.le.trans hhH
    generalize hG : (1 + 1e-14) * Λ + C * H = G at h2 ⊢
    have hG0 : 0 ≤ G := by rw [← hG]; positivity
    have hex : (0 : ℝ) ≤ Real.exp (G * (te - t0)) := by positivity
    have hc : (0 : ℝ) ≤ (C * hh ^ 4 + 8e-14 * D0) * hh := by positivity
    have h3 : Real.exp (G * (te - t0)) * contrib (fun h => C * h ^ 4 + 8e-14 * D0) l ≤ 1 := by
      have := mul_nonneg hex hc
      linarith
    have he := hN H hH1 (fun x hx => h1 x (by simp [hx])) (by rw [hG]; exact h3)
    rw [hG] at he
    have htin : t0 + l.sum ∈ Set.Icc t0 te := ⟨by linarith, by linarith⟩
    have hy1 := hR _ htin
    have hv1 : ‖v‖ ≤ R + 1 := by
      have e1 : v = (v - y (t0 + l.sum)) + y (t0 + l.sum) := by abel
      have e2 : ‖v - y (t0 + l.sum)‖ ≤ 1 := by
        refine (he.trans ?_).trans h3
        refine mul_le_mul_of_nonneg_right (Real.exp_le_exp.2 ?_) hA
        exact mul_le_mul_of_nonneg_left (by linarith [htin.2]) hG0
      rw [e1]
      refine (norm_add_le _ _).trans ?_
      linarith
    have hh1 : hh ≤ 1 := hhH.trans hH1
    have p1 := hL _ _ _ D.chosen.sel hh v (y (t0 + l.sum)) hpos.le hh1 hv1 (by linarith)
    have p2 := hC _ _ _ D.chosen.sel (t0 + l.sum) hh htin.1 hpos.le hh1 (by linarith)
    rw [ets, List.sum_cons]
    refine accumulate hG0 hpos.le hS hA hc he ?_
    have p3 : (1 + (1 + 1e-14) * Λ * hh + C * hh ^ 2) * ‖v - y (t0 + l.sum)‖
        ≤ (1 + G * hh) * ‖v - y (t0 + l.sum)‖ := by
      refine mul_le_mul_of_nonneg_right ?_ (norm_nonneg _)
      have := mul_le_mul_of_nonneg_left hhH (mul_nonneg hC0 hpos.le)
      rw [← hG]
      nlinarith
    have p4 : (C * hh ^ 4 + 8e-14 * D0) * hh = C * hh ^ 5 + 8e-14 * D0 * hh := by ring
    rw [p4]
    refine le_trans ?_ (add_le_add (p1.trans p3) p2)
    refine le_trans (le_of_eq ?_) (norm_add_le _ _)
    congr 1
    abel
  · obtain ⟨a1, a2, -, a4, -, a6, -⟩ := D.reject ha
    have e : s'.heap s'.y = Rock4L.up v := by rw [a4, a6, hv]
    exact ⟨l, by rw [a2]; exact J.acc, J.pos, by rw [a1]; exact J.time, v, e, hN⟩

/-- C119: **convergence of order four.**  For every polynomial problem and every solution on `[t0, te]`
there is a constant `C` such that in every state of every call of the solver which starts on the solution, if no
accepted step is longer than `H ≤ 1` and the bound is at most 1, the value held by the solver differs from the
solution by at most `exp((Λ' + C H)(te - t0)) Σ (C h^5 + 8e-14 D h)`, where `Λ' = (1 + 1e-14) Λ` and the sum
is over the accepted steps. -/
theorem rock4_nonlinear_run (P : Fin n → MvPolynomial (Fin n) ℝ) {y : ℝ → Fin n → ℝ} (hle : t0 ≤ te)
    (hy : SolOn (polyField P) y t0 te) {R Λ D : ℝ} (hR : ∀ t ∈ Set.Icc t0 te, ‖y t‖ ≤ R) (hΛ0 : 0 ≤ Λ)
    (hΛ : LipOn P (R + 1) Λ) (hD : 0 ≤ D) (hel : ElemLe P y t0 te D) :
    ∃ C, 0 ≤ C ∧ ∀ (Pr : Rock4.Problem n) (_ : ∀ v, Pr.F (Rock4L.up v) = Rock4L.up (polyField P v))
      (o : Rock4.St n) (p : ℕ) (h0 : X) (_ : Rock4.Valid o p) (_ : o.heap p = Rock4L.up (y t0))
      (s : Rock4.St n)
      (_ : Reach (Rock4.step Pr Rock4.shipped (X.fin te)) (Rock4.start Pr o p (X.fin t0) h0) s),
      ∃ (l : List ℝ) (v : Fin n → ℝ), (l.length : ℤ) = s.nacc ∧ (∀ h ∈ l, 0 < h) ∧
        s.t = X.fin (t0 + l.sum) ∧ s.heap s.y = Rock4L.up v ∧
        ∀ H E, H ≤ 1 → (∀ h ∈ l, h ≤ H) →
          E = Real.exp (((1 + 1e-14) * Λ + C * H) * (te - t0))
            * (l.map fun h => C * h ^ 5 + 8e-14 * D * h).sum → E ≤ 1 → ‖v - y (t0 + l.sum)‖ ≤ E := by
  obtain ⟨C, hC0, hC⟩ := rock4_local_error hy hD hel
  obtain ⟨L, hL0, hL⟩ := rock4_step_lipschitz P hΛ0 hΛ
  refine ⟨C + L, by positivity, ?_⟩
  intro Pr hP o p h0 hv hy0 s h
  have key : Rock4.Inv Pr Rock4.shipped te t0 (o.heap p) (Rock4.start Pr o p (X.fin t0) h0) s ∧
      ∃ l, NlInv (C + L) D Λ t0 te y s l := by
    refine Reach.inv (I := fun s => Rock4.Inv Pr Rock4.shipped te t0 (o.heap p)
      (Rock4.start Pr o p (X.fin t0) h0) s ∧ ∃ l, NlInv (C + L) D Λ t0 te y s l) ?_ ?_ h
    · rintro s s' ⟨I, l, J⟩ hst
      refine ⟨Rock4.step_inv Pr Rock4.shipped te t0 _ _ _ _ I hst, nl_iter hP hR (by positivity) hD hΛ0
        (fun d mz mr hs t h h1 h2 h3 h4 => (hC d mz mr hs t h h1 h2 h3 h4).trans ?_)
        (fun d mz mr hs h u v h1 h2 h3 h4 => (hL d mz mr hs h u v h1 h2 h3 h4).trans ?_) I J hst⟩
      · have : 0 ≤ L * h ^ 5 := by positivity
        linarith
      · refine mul_le_mul_of_nonneg_right ?_ (norm_nonneg _)
        have : 0 ≤ C * h ^ 2 := by positivity
        linarith
    · refine ⟨hv.inv Pr Rock4.shipped hle h0, [], rfl, by simp, ?_, y t0, ?_, ?_⟩
      · show X.fin t0 = _
        simp
      · have hne : p ≠ o.fn := by
          have := hv.nodup
          rw [List.nodup_cons] at this
          intro e
          exact this.1 (by rw [e]; simp)
        show Rock4.upd o.heap o.fn (Pr.F (o.heap p)) p = _
        rw [Rock4.upd, if_neg hne]; exact hy0
      · simp [contrib]
  obtain ⟨I, l, J⟩ := key
  obtain ⟨v, hv1, hv2⟩ := J.val
  refine ⟨l, v, J.acc, J.pos, J.time, hv1, fun H E h1 h2 hE hE1 => ?_⟩
  have ec : (l.map fun h => (C + L) * h ^ 5 + 8e-14 * D * h).sum
      = contrib (fun h => (C + L) * h ^ 4 + 8e-14 * D) l := by
    unfold contrib
    congr 2
    funext h
    ring
  rw [ec] at hE
  have h3 := hv2 H h1 h2 (by rw [← hE]; exact hE1)
  refine h3.trans ?_
  rw [hE]
  obtain ⟨t, ht, -, hte, -⟩ := I.time
  have et : t = t0 + l.sum := X.fin_inj.1 (ht.symm.trans J.time)
  have hA := contrib_nonneg (c := fun h => (C + L) * h ^ 4 + 8e-14 * D) (fun h _ => by positivity) J.pos
  rcases l with _ | ⟨z, l⟩
  · simp [contrib]
  · refine mul_le_mul_of_nonneg_right (Real.exp_le_exp.2 ?_) hA
    have hH0 : 0 ≤ H := (J.pos z (by simp)).le.trans (h2 z (by simp))
    exact mul_le_mul_of_nonneg_left (by linarith) (by positivity)

/-- C119: the value returned: **if no accepted step was longer than `H ≤ 1`, and the bound is at most 1, the
error at `te` is at most `exp((Λ' + C H) T) T (C H^4 + 8e-14 D)`**, `T = te - t0`. -/
theorem rock4_nonlinear_call (P : Fin n → MvPolynomial (Fin n) ℝ) {y : ℝ → Fin n → ℝ} (hle : t0 ≤ te)
    (hy : SolOn (polyField P) y t0 te) {R Λ D : ℝ} (hR : ∀ t ∈ Set.Icc t0 te, ‖y t‖ ≤ R) (hΛ0 : 0 ≤ Λ)
    (hΛ : LipOn P (R + 1) Λ) (hD : 0 ≤ D) (hel : ElemLe P y t0 te D) :
    ∃ C, 0 ≤ C ∧ ∀ (Pr : Rock4.Problem n) (_ : ∀ v, Pr.F (Rock4L.up v) = Rock4L.up (polyField P v))
      (o : Rock4.St n) (p : ℕ) (h0 : X) (_ : Rock4.Valid o p) (_ : o.heap p = Rock4L.up (y t0))
      (s : Rock4.St n)
      (_ : Returns (Rock4.step Pr Rock4.shipped (X.fin te)) (Rock4.start Pr o p (X.fin t0) h0) s),
      ∃ (l : List ℝ) (v : Fin n → ℝ), (l.length : ℤ) = s.nacc ∧ (∀ h ∈ l, 0 < h) ∧ l.sum = te - t0 ∧
        s.heap s.y = Rock4L.up v ∧
        ∀ H E, H ≤ 1 → (∀ h ∈ l, h ≤ H) →
          E = Real.exp (((1 + 1e-14) * Λ + C * H) * (te - t0)) * ((te - t0) * (C * H ^ 4 + 8e-14 * D)) →
          E ≤ 1 → ‖v - y te‖ ≤ E := by
  obtain ⟨C, hC0, hC⟩ := rock4_nonlinear_run P hle hy hR hΛ0 hΛ hD hel
  refine ⟨C, hC0, ?_⟩
  intro Pr hP o p h0 hv hy0 s h
  obtain ⟨u, hu, hr⟩ := h.last
  have hI : Rock4.Inv Pr Rock4.shipped te t0 (o.heap p) (Rock4.start Pr o p (X.fin t0) h0) u :=
    Reach.inv (I := fun s => Rock4.Inv Pr Rock4.shipped te t0 (o.heap p)
      (Rock4.start Pr o p (X.fin t0) h0) s)
      (fun s s' hI hst => Rock4.step_inv Pr Rock4.shipped te t0 _ _ _ _ hI hst)
      (hv.inv Pr Rock4.shipped hle h0) hu
  obtain ⟨rfl, hte⟩ := Rock4.step_ret Pr Rock4.shipped te t0 _ _ _ _ hI hr
  obtain ⟨l, v, h1, h2, h3, h4, h5⟩ := hC Pr hP o p h0 hv hy0 s hu
  have et : t0 + l.sum = te := X.fin_inj.1 (h3.symm.trans hte)
  rw [et] at h5
  refine ⟨l, v, h1, h2, by linarith, h4, fun H E hH1 hH hE hE1 => ?_⟩
  have hb : Real.exp (((1 + 1e-14) * Λ + C * H) * (te - t0)) * (l.map fun h => C * h ^ 5 + 8e-14 * D * h).sum
      ≤ E := by
    rw [hE]
    refine mul_le_mul_of_nonneg_left ?_ (Real.exp_pos _).le
    have hc := contrib_le (c := fun h => C * h ^ 4 + 8e-14 * D) (H := H) (fun h a b => by
      have := mul_le_mul_of_nonneg_left (pow_le_pow_left₀ a.le b 4) hC0
      show C * h ^ 4 + 8e-14 * D ≤ C * H ^ 4 + 8e-14 * D
      linarith) h2 hH
    have ec : (l.map fun h => C * h ^ 5 + 8e-14 * D * h).sum
        = contrib (fun h => C * h ^ 4 + 8e-14 * D) l := by
      unfold contrib
      congr 2
      funext h
      ring
    rw [ec]
    refine hc.trans (le_of_eq ?_)
    rw [← et]; ring
  exact (h5 H _ hH1 hH rfl (hb.trans hE1)).trans hb

/-- the constants exist for every polynomial problem and every solution. -/
theorem nonlinear_constants (P : Fin n → MvPolynomial (Fin n) ℝ) {y : ℝ → Fin n → ℝ}
    (hy : SolOn (polyField P) y t0 te) : ∃ R Λ D, (∀ t ∈ Set.Icc t0 te, ‖y t‖ ≤ R) ∧ 0 ≤ Λ ∧
      LipOn P (R + 1) Λ ∧ 0 ≤ D ∧ ElemLe P y t0 te D := by
  obtain ⟨R, hR⟩ := hy.bounded
  obtain ⟨Λ, l0, hΛ⟩ := polyField_lip P (R + 1)
  have hc : ∀ p : MvPolynomial (Fin n) ℝ, ContinuousOn (fun t => MvPolynomial.aeval (y t) p) (Set.Icc t0 te) := by
    intro p t ht
    induction p using MvPolynomial.induction_on with
    | C a => simpa using continuousWithinAt_const
    | add p q hp hq =>
      simp only [map_add]
      exact ContinuousWithinAt.add hp hq
    | mul_X p i hp =>
      have hi : ContinuousWithinAt (fun t => y t i) (Set.Icc t0 te) t :=
        (continuous_apply i).continuousAt.comp_continuousWithinAt (hy t ht).continuousWithinAt
      simp only [map_mul, MvPolynomial.aeval_X]
      exact ContinuousWithinAt.mul hp hi
  choose M hM using fun (k : Fin 8) i => isCompact_Icc.exists_bound_of_continuousOn (hc (elem P k i))
  refine ⟨R, Λ, ∑ k, ∑ i, |M k i|, hR, l0, fun u v hu hv => (hΛ u v hu hv).2,
    Finset.sum_nonneg fun k _ => Finset.sum_nonneg fun i _ => abs_nonneg _, fun t ht k i => ?_⟩
  refine (hM k i t ht).trans ((le_abs_self _).trans ?_)
  exact (Finset.single_le_sum (f := fun i => |M k i|) (fun j _ => abs_nonneg _) (Finset.mem_univ i)).trans
    (Finset.single_le_sum (f := fun k => ∑ i, |M k i|)
      (fun k _ => Finset.sum_nonneg fun j _ => abs_nonneg _) (Finset.mem_univ k))

/-! ### an instance: the logistic equation -/

/-- `y' = y - y^2`. -/
def logistic : Fin 1 → MvPolynomial (Fin 1) ℝ := fun _ => MvPolynomial.X 0 - MvPolynomial.X 0 ^ 2

/-- `y = 1 / (1 + exp(-t))` is a solution. -/
theorem logistic_sol (t0 te : ℝ) :
    SolOn (polyField logistic) (fun t _ => (1 + Real.exp (-t))⁻¹) t0 te := by
  intro t _
  refine HasDerivAt.hasDerivWithinAt ?_
  rw [hasDerivAt_pi]
  intro i
  have hp : 0 < 1 + Real.exp (-t) := by positivity
  have h0 : HasDerivAt (fun t : ℝ => 1 + Real.exp (-t)) (Real.exp (-id t) * -1) t :=
    ((hasDerivAt_id t).neg.exp).const_add 1
  have h := h0.inv hp.ne'
  have e : polyField logistic (fun _ => (1 + Real.exp (-t))⁻¹) i
      = -(Real.exp (-id t) * -1) / (1 + Real.exp (-t)) ^ 2 := by
    simp only [polyField, logistic, map_sub, map_pow, MvPolynomial.aeval_X, id]
    field_simp
    ring
  rw [e]
  exact h

/-- the solution lies between 0 and 1. -/
theorem logistic_range (t : ℝ) : 0 < (1 + Real.exp (-t))⁻¹ ∧ (1 + Real.exp (-t))⁻¹ < 1 := by
  have h := Real.exp_pos (-t)
  exact ⟨by positivity, inv_lt_one_of_one_lt₀ (by linarith)⟩

theorem logistic_bound (t0 te : ℝ) : ∀ t ∈ Set.Icc t0 te, ‖(fun _ : Fin 1 => (1 + Real.exp (-t))⁻¹)‖ ≤ 1 := by
  intro t _
  rw [pi_norm_le_iff_of_nonneg zero_le_one]
  intro _
  rw [Real.norm_eq_abs, abs_of_pos (logistic_range t).1]
  exact (logistic_range t).2.le

theorem logistic_lip : LipOn logistic (1 + 1) 5 := by
  intro u v hu hv
  have h1 : |u 0| ≤ 1 + 1 := (norm_le_pi_norm u 0).trans hu
  have h2 : |v 0| ≤ 1 + 1 := (norm_le_pi_norm v 0).trans hv
  have h3 : |u 0 - v 0| ≤ ‖u - v‖ := norm_le_pi_norm (u - v) 0
  rw [pi_norm_le_iff_of_nonneg (by positivity)]
  intro i
  have e : (polyField logistic u - polyField logistic v) i = (1 - (u 0 + v 0)) * (u 0 - v 0) := by
    simp [polyField, logistic]; ring
  rw [e, Real.norm_eq_abs, abs_mul]
  refine mul_le_mul ?_ h3 (abs_nonneg _) (by norm_num)
  rw [abs_le] at h1 h2 ⊢
  constructor <;> linarith [h1.1, h1.2, h2.1, h2.2]

/-- the elementary differentials of the logistic equation are at most 1. -/
theorem logistic_elem (t0 te : ℝ) : ElemLe logistic (fun t _ => (1 + Real.exp (-t))⁻¹) t0 te 1 := by
  intro t _ k i
  obtain ⟨h0, h1⟩ := logistic_range t
  change |MvPolynomial.aeval (fun _ : Fin 1 => (1 + Real.exp (-t))⁻¹) (elem logistic k i)| ≤ 1
  generalize (1 + Real.exp (-t))⁻¹ = z at *
  have hf : |z - z ^ 2| ≤ 1 / 4 := by rw [abs_le]; constructor <;> nlinarith [sq_nonneg (z - 1 / 2)]
  have hd : |1 - 2 * z| ≤ 1 := by rw [abs_le]; constructor <;> linarith
  have hp : MvPolynomial.pderiv (0 : Fin 1) (2 : MvPolynomial (Fin 1) ℝ) = 0 := by
    have e : (2 : MvPolynomial (Fin 1) ℝ) = MvPolynomial.C 2 := (map_ofNat MvPolynomial.C 2).symm
    rw [e, MvPolynomial.pderiv_C]
  have f0 := abs_nonneg (z - z ^ 2)
  have d0 := abs_nonneg (1 - 2 * z)
  have c1 : |1 - 2 * z| * |z - z ^ 2| ≤ 1 / 4 := by nlinarith
  have c2 : |1 - 2 * z| * (|1 - 2 * z| * |z - z ^ 2|) ≤ 1 / 4 := by nlinarith [mul_nonneg d0 f0]
  have c3 : 2 * |z - z ^ 2| * |z - z ^ 2| ≤ 1 / 2 := by nlinarith
  fin_cases k
  · simp [elem, logistic]
    linarith
  · simp [elem, der1, logistic]
    linarith
  · simp [elem, der1, der2, logistic, hp]
    linarith
  · simp [elem, der1, logistic]
    linarith
  · simp [elem, der1, der2, der3, logistic, hp]
  · simp [elem, der1, der2, logistic, hp]
    nlinarith [mul_nonneg d0 f0]
  · simp [elem, der1, der2, logistic, hp]
    nlinarith [mul_nonneg f0 f0]
  · simp [elem, der1, logistic]
    nlinarith [mul_nonneg d0 (mul_nonneg d0 f0)]

/-- a problem of the solver with this right hand side. -/
example : ∃ Pr : Rock4.Problem 1, ∀ v, Pr.F (Rock4L.up v) = Rock4L.up (polyField logistic v) :=
  ⟨⟨fun v _ => v 0 - v 0 * v 0, fun _ => X.fin 3⟩, fun v => by
    funext i
    simp [Rock4L.up, polyField, logistic, pow_two]⟩

end

end Odes
