import Verif.Props.SympReal
import Verif.Lemmas.SympMap
import Mathlib.Analysis.SpecialFunctions.Trigonometric.Deriv

/-!
# Symplectic methods: the computed map is symplectic (C86)

Exact arithmetic.  `firstStep` true is the only way `step` is called in the library (the statement which
sets it to false is commented out, SymplecticRK.hpp 71, and main.cc 31 initializes it to true); the
theorems also hold for every call with a new step size.
-/

namespace Odes.Symp

open Odes.Mem Spec

variable {n : ℕ}

theorem iter_picard {s : ℕ} (a : ℕ → ℕ → ℝ) {A : Fin s → Fin s → ℝ} {h : ℝ}
    (hA : ∀ i j : Fin s, a i j = A i j * h) (f : (Fin n → ℝ) → Fin n → ℝ) (u : Fin n → ℝ)
    {Y0 : ℕ → Fin n → ℝ} (hY : ∀ i, i < s → Y0 i = u) (m : ℕ) (i : Fin s) :
    iter a s f u Y0 m i = picard A h f u m i := by
  induction m generalizing i with
  | zero => exact hY i i.2
  | succ m ih =>
    funext l
    show sumL _ _ _ = _
    rw [sumL_real, picard]
    simp only [Pi.add_apply, Pi.smul_apply, Finset.sum_apply, smul_eq_mul, Finset.mul_sum]
    congr 1
    refine Finset.sum_congr rfl fun j _ => ?_
    rw [ih j, hA]
    ring

/-- C86: what a successful call computes, as a function of the initial value: the Runge-Kutta map with
`M` sweeps, `M` the number of iterations reported by `maxIter()`. -/
theorem symp_step_map {c : Cfg ℝ n} (hT : Tab c) (hS : Scal c) (hnar : ∀ x, c.narrow x = x)
    {st st' : St ℝ n} (hist : Hist c st) {h : ℝ} {u u' : Fin n → ℝ} {first : Bool}
    (hfirst : first = true ∨ ¬ c.eq st.oldH h) (hs : step c h u first st = some (true, u', st')) :
    u' = rkMap (tabA c) (tabB c) h c.f st'.iter.toNat u ∧ 0 ≤ st'.iter ∧ st'.iter < c.itermax := by
  obtain ⟨-, -, -, Y0, hY0, h1⟩ := step_cases hT hS (hist.inv hT hS) hs
  have he := symp_comp_zero hT hS hist
  rcases h1 with ⟨-, M, hM, -, -, -, hi, -, hd, hu, -⟩ | ⟨hf, -⟩
  · refine ⟨?_, by omega, by omega⟩
    funext l
    rw [hu, hd, sumL_real, he, hi]
    simp only [rkMap, Pi.add_apply, Pi.smul_apply, Finset.sum_apply, smul_eq_mul, Finset.mul_sum, hnar,
      Pi.zero_apply, zero_add, Int.toNat_natCast]
    congr 1
    refine Finset.sum_congr rfl fun j _ => ?_
    rw [iter_picard (A := tabA c) (h := h) _ (fun i j => rfl) c.f u (hY0 hfirst) M j]
    simp only [tabB]
    ring
  · cases hf

/-- C86: the map computed by a successful step (derivative with respect to the initial value, for the
number of iterations made) is symplectic up to the defect of the tables and a term which decreases like
`M θ^M`, `θ = |h| α L < 1`.  `f` is any Hamiltonian system with derivative bounded by `L` and Lipschitz
with constant `L2`. -/
theorem symp_symplectic {c : Cfg ℝ n} (hT : Tab c) (hS : Scal c) (hnar : ∀ x, c.narrow x = x)
    {st st' : St ℝ n} (hist : Hist c st) {h : ℝ} {u u' : Fin n → ℝ} {first : Bool}
    (hfirst : first = true ∨ ¬ c.eq st.oldH h) (hs : step c h u first st = some (true, u', st'))
    (hf : Differentiable ℝ c.f) {w : (Fin n → ℝ) →L[ℝ] (Fin n → ℝ) →L[ℝ] ℝ} {H : (Fin n → ℝ) → ℝ}
    (hH : Hamiltonian w H c.f) {α β ε L L2 : ℝ} (hα : ∀ i, ∑ j, |tabA c i j| ≤ α) (hα0 : 0 ≤ α)
    (hL : ∀ y, ‖fderiv ℝ c.f y‖ ≤ L) (hL2 : ∀ x y, ‖fderiv ℝ c.f x - fderiv ℝ c.f y‖ ≤ L2 * ‖x - y‖)
    (hL20 : 0 ≤ L2) (hθ : |h| * α * L < 1) (hε : ∀ i j, |defect (tabA c) (tabB c) i j| ≤ ε)
    (hβ : ∑ i, |tabB c i| ≤ β) :
    ∃ (Φ : (Fin n → ℝ) → Fin n → ℝ) (D : (Fin n → ℝ) →L[ℝ] Fin n → ℝ),
      (∀ v, Φ v = rkMap (tabA c) (tabB c) h c.f st'.iter.toNat v) ∧ u' = Φ u ∧ HasFDerivAt Φ D u ∧
      ∀ x y, |w (D x) (D y) - w x y| ≤
        (2 * |h| * β * (L / (1 - |h| * α * L)) * ((|h| * α * L) ^ (st'.iter.toNat + 1) +
          st'.iter.toNat * ((|h| * α) ^ 2 * L2 * ‖c.f u‖ / (1 - |h| * α * L)) *
            (|h| * α * L) ^ (st'.iter.toNat - 1)) +
         h ^ 2 * c.s ^ 2 * ε * (L / (1 - |h| * α * L)) ^ 2) * ‖w‖ * ‖x‖ * ‖y‖ :=
  ⟨_, _, fun _ => rfl, (symp_step_map hT hS hnar hist hfirst hs).1,
    (rkMap_deriv hf _ u).differentiableAt.hasFDerivAt,
    fun x y => rkMap_form_le hf hH hα hα0 hL hL2 hL20 hθ hε hβ u _ x y⟩

/-- C86, iterations carried to the end: if the stages are the solution of the stage equations,
depending in a differentiable way on the initial value, and `b_i a_ij + b_j a_ji = b_i b_j`, then the map
is symplectic. -/
theorem symp_symplectic_exact {E : Type} [NormedAddCommGroup E] [NormedSpace ℝ E] {s : ℕ}
    {A : Fin s → Fin s → ℝ} {b : Fin s → ℝ} (hsym : ∀ i j, defect A b i j = 0) {h : ℝ} {f : E → E}
    (hf : Differentiable ℝ f) {w : E →L[ℝ] E →L[ℝ] ℝ} {H : E → ℝ} (hH : Hamiltonian w H f) {u : E}
    {Y : E → Fin s → E} (hY : ∀ v i, Y v i = v + h • ∑ j, A i j • f (Y v j))
    (hd : ∀ i, DifferentiableAt ℝ (fun v => Y v i) u) :
    ∃ D : E →L[ℝ] E, HasFDerivAt (fun v => v + h • ∑ i, b i • f (Y v i)) D u ∧
      ∀ x y, w (D x) (D y) = w x y := by
  set dY := fun i => fderiv ℝ (fun v => Y v i) u with hdY
  set K := fun i => (fderiv ℝ f (Y u i)).comp (dY i) with hK
  have hfY : ∀ i, HasFDerivAt (fun v => f (Y v i)) (K i) u := fun i =>
    (hf _).hasFDerivAt.comp u (hd i).hasFDerivAt
  have e1 : ∀ i, dY i = ContinuousLinearMap.id ℝ E + h • ∑ j, A i j • K j := by
    intro i
    have h1 : HasFDerivAt (fun v => v + h • ∑ j, A i j • f (Y v j))
        (ContinuousLinearMap.id ℝ E + h • ∑ j, A i j • K j) u :=
      (hasFDerivAt_id u).add (HasFDerivAt.const_smul (HasFDerivAt.fun_sum fun j _ =>
        (hfY j).const_smul _) h)
    refine HasFDerivAt.unique (hd i).hasFDerivAt (h1.congr_of_eventuallyEq ?_)
    exact Filter.Eventually.of_forall fun v => hY v i
  refine ⟨ContinuousLinearMap.id ℝ E + h • ∑ j, b j • K j,
    (hasFDerivAt_id u).add (HasFDerivAt.const_smul (HasFDerivAt.fun_sum fun j _ =>
        (hfY j).const_smul _) h), fun x y => ?_⟩
  have key := form_sweep (w := w) (A := A) (b := b) (h := h) (x := x) (y := y)
    (x' := (ContinuousLinearMap.id ℝ E + h • ∑ j, b j • K j) x)
    (y' := (ContinuousLinearMap.id ℝ E + h • ∑ j, b j • K j) y)
    (kx := fun i => K i x) (ky := fun i => K i y) (zx := fun i => dY i x) (zy := fun i => dY i y)
    (fun i => by rw [e1]; simp [ContinuousLinearMap.sum_apply])
    (fun i => by rw [e1]; simp [ContinuousLinearMap.sum_apply])
    (by simp [ContinuousLinearMap.sum_apply]) (by simp [ContinuousLinearMap.sum_apply])
  have e2 : ∀ i, w (K i x) (dY i y) + w (dY i x) (K i y) = 0 := fun i =>
    hH.deriv_skew (hf (Y u i)).hasFDerivAt (dY i x) (dY i y)
  simp only [e2, hsym, mul_zero, zero_mul, Finset.sum_const_zero, sub_zero] at key
  linarith

/-- sums of the absolute values of the rows of the shipped tables, and of the weights. -/
theorem symp_table_sums :
    (∀ t ∈ gaussD ++ gaussL, ∀ i, ∑ j, |t.A i j| ≤ 1) ∧
    (∀ t ∈ gaussD ++ gaussL, ∑ i, |t.w i| ≤ 1 + 1 / 10 ^ 12) := by
  constructor
  · intro t ht i
    have h : ∀ t ∈ gaussD ++ gaussL, allLt t.s (fun i => decide
        (isum t.s (fun j => ((t.iA i j).natAbs : ℤ)) ≤ 10 ^ t.da)) = true := by decide +kernel
    have h1 := of_decide_eq_true (allLt_spec (h t ht) i i.2)
    rw [isum_spec] at h1
    have h2 : ∑ j : Fin t.s, |(t.iA i j : ℝ)| ≤ 10 ^ t.da := by
      have : ((∑ j : Fin t.s, ((t.iA i j).natAbs : ℤ) : ℤ) : ℝ) ≤ ((10 ^ t.da : ℤ) : ℝ) := by
        exact_mod_cast h1
      push_cast at this
      simpa only [Nat.cast_natAbs, Int.cast_abs] using this
    calc ∑ j, |t.A i j| = (∑ j : Fin t.s, |(t.iA i j : ℝ)|) / 10 ^ t.da := by
          rw [Finset.sum_div]
          refine Finset.sum_congr rfl fun j _ => ?_
          rw [GTab.A, abs_div, abs_of_pos (by positivity : (0 : ℝ) < 10 ^ t.da)]
      _ ≤ 1 := (div_le_one (by positivity)).2 h2
  · intro t ht
    have e : ∑ i, |t.w i| = ∑ i, t.w i := Finset.sum_congr rfl fun i _ =>
      abs_of_nonneg (by unfold GTab.w; positivity)
    rw [e]
    have h2 := (mem_s ht).1
    rcases List.mem_append.1 ht with h | h
    · have := (symp_table_order.1 t h).1 0 (by omega)
      simp only [pow_zero, mul_one, Nat.cast_zero, zero_add, div_one] at this
      linarith [(abs_le.1 this).2]
    · have := (symp_table_order.2 t h).1 0 (by omega)
      simp only [pow_zero, mul_one, Nat.cast_zero, zero_add, div_one] at this
      have h3 := (abs_le.1 this).2
      norm_num at h3 ⊢
      linarith

/-- C86 for the shipped tables of `double`: `|h| L < 1`. -/
theorem symp_gauss_symplectic {t : GTab} (ht : t ∈ gaussD) (itermax : ℤ)
    {f : (Fin n → ℝ) → Fin n → ℝ} (hf : Differentiable ℝ f)
    {w : (Fin n → ℝ) →L[ℝ] (Fin n → ℝ) →L[ℝ] ℝ} {H : (Fin n → ℝ) → ℝ} (hH : Hamiltonian w H f)
    {L L2 h : ℝ} (hL : ∀ y, ‖fderiv ℝ f y‖ ≤ L)
    (hL2 : ∀ x y, ‖fderiv ℝ f x - fderiv ℝ f y‖ ≤ L2 * ‖x - y‖) (hL20 : 0 ≤ L2) (hθ : |h| * L < 1)
    {st st' : St ℝ n} (hist : Hist (cfgR t itermax f) st) {u u' : Fin n → ℝ} {first : Bool}
    (hfirst : first = true ∨ st.oldH ≠ h)
    (hs : step (cfgR t itermax f) h u first st = some (true, u', st')) :
    ∃ (Φ : (Fin n → ℝ) → Fin n → ℝ) (D : (Fin n → ℝ) →L[ℝ] Fin n → ℝ),
      (∀ v, Φ v = rkMap t.A t.w h f st'.iter.toNat v) ∧ u' = Φ u ∧ HasFDerivAt Φ D u ∧
      ∀ x y, |w (D x) (D y) - w x y| ≤
        (3 * |h| * (L / (1 - |h| * L)) * ((|h| * L) ^ (st'.iter.toNat + 1) +
          st'.iter.toNat * (h ^ 2 * L2 * ‖f u‖ / (1 - |h| * L)) * (|h| * L) ^ (st'.iter.toNat - 1)) +
         h ^ 2 * t.s ^ 2 * (1 / (4 * 10 ^ 12)) * (L / (1 - |h| * L)) ^ 2) * ‖w‖ * ‖x‖ * ‖y‖ := by
  have htt : t ∈ gaussD ++ gaussL := List.mem_append_left _ ht
  have hA := tabA_cfgR htt itermax f
  have hb := tabB_cfgR (t := t) itermax f
  obtain ⟨Φ, D, h1, h2, h3, h4⟩ := symp_symplectic (cfgR_tab htt _ _) (cfgR_scal _ _ _) (fun _ => rfl)
    hist hfirst hs hf hH (α := 1) (β := 3 / 2) (ε := 1 / (4 * 10 ^ 12))
    (by rw [hA]; exact symp_table_sums.1 t htt) zero_le_one hL hL2 hL20 (by rwa [mul_one])
    (by rw [hA, hb]; exact symp_table_defect.1 t ht)
    (by rw [hb]; exact (symp_table_sums.2 t htt).trans (by norm_num))
  refine ⟨Φ, D, fun v => by rw [h1 v, hA, hb]; rfl, h2, h3, fun x y => (h4 x y).trans_eq ?_⟩
  have hc : (cfgR t itermax f).s = t.s := rfl
  have hff : (cfgR t itermax f).f = f := rfl
  rw [hc, hff, mul_one, sq_abs]
  ring

/-! ### examples -/

/-- the canonical form in dimension two. -/
noncomputable def form2 : (Fin 2 → ℝ) →L[ℝ] (Fin 2 → ℝ) →L[ℝ] ℝ :=
  (ContinuousLinearMap.proj 0).smulRight (ContinuousLinearMap.proj (R := ℝ) (φ := fun _ : Fin 2 => ℝ) 1) -
    (ContinuousLinearMap.proj 1).smulRight (ContinuousLinearMap.proj (R := ℝ) (φ := fun _ : Fin 2 => ℝ) 0)

theorem form2_apply (x y : Fin 2 → ℝ) : form2 x y = x 0 * y 1 - x 1 * y 0 := by
  simp [form2]

/-- the free particle is Hamiltonian. -/
theorem free_ham : Hamiltonian form2 (fun y => y 1 ^ 2 / 2) free where
  skew x y := by rw [form2_apply, form2_apply]; ring
  grad y := by
    have h1 : HasFDerivAt (fun y : Fin 2 → ℝ => y 1)
      (ContinuousLinearMap.proj (R := ℝ) (φ := fun _ : Fin 2 => ℝ) 1) y :=
      (ContinuousLinearMap.proj (R := ℝ) (φ := fun _ : Fin 2 => ℝ) 1).hasFDerivAt
    refine ((h1.pow 2).mul_const (1 / 2 : ℝ)).congr_fderiv ?_ |>.congr_of_eventuallyEq ?_
    · ext1 z
      rw [form2_apply]
      simp [free]
      ring
    · exact Filter.Eventually.of_forall fun z => by ring

/-- derivative of the free particle. -/
noncomputable def freeD : (Fin 2 → ℝ) →L[ℝ] Fin 2 → ℝ :=
  ContinuousLinearMap.pi ![ContinuousLinearMap.proj (R := ℝ) (φ := fun _ : Fin 2 => ℝ) 1, 0]

theorem freeD_eq : ⇑freeD = free := by
  funext y i
  fin_cases i <;> simp [freeD, free]

theorem free_deriv (y : Fin 2 → ℝ) : HasFDerivAt free freeD y := by
  have := freeD.hasFDerivAt (x := y)
  rwa [freeD_eq] at this

theorem freeD_norm : ‖freeD‖ ≤ 1 := by
  refine ContinuousLinearMap.opNorm_le_bound _ zero_le_one fun y => ?_
  rw [one_mul, freeD_eq, pi_norm_le_iff_of_nonneg (norm_nonneg _)]
  intro i
  fin_cases i
  · exact norm_le_pi_norm y 1
  · simp [free]

/-- the hypotheses of `symp_gauss_symplectic` are met, with any step size below one. -/
example (junk : St ℝ 2) {h : ℝ} (hh : |h| < 1) (u : Fin 2 → ℝ) : ∃ st u' st',
    Hist (cfgR gaussD2 10 free) st ∧ Differentiable ℝ free ∧
    Hamiltonian form2 (fun y => y 1 ^ 2 / 2) free ∧ (∀ y, ‖fderiv ℝ free y‖ ≤ 1) ∧
    (∀ x y, ‖fderiv ℝ free x - fderiv ℝ free y‖ ≤ 0 * ‖x - y‖) ∧ |h| * 1 < 1 ∧
    step (cfgR gaussD2 10 free) h u true st = some (true, u', st') := by
  obtain ⟨st, h1, u', st', h2⟩ := free_step junk h u
  refine ⟨st, u', st', Hist.new h1, fun y => (free_deriv y).differentiableAt, free_ham, fun y => ?_,
    fun x y => ?_, by rwa [mul_one], h2⟩
  · rw [(free_deriv y).fderiv]; exact freeD_norm
  · rw [(free_deriv x).fderiv, (free_deriv y).fderiv]; simp

/-- the pendulum: a system which is not linear. -/
noncomputable def pend (y : Fin 2 → ℝ) : Fin 2 → ℝ := ![y 1, - Real.sin (y 0)]

theorem pend_ham : Hamiltonian form2 (fun y => y 1 ^ 2 / 2 - Real.cos (y 0)) pend where
  skew x y := by rw [form2_apply, form2_apply]; ring
  grad y := by
    have h1 : ∀ i, HasFDerivAt (fun y : Fin 2 → ℝ => y i)
      (ContinuousLinearMap.proj (R := ℝ) (φ := fun _ : Fin 2 => ℝ) i) y := fun i =>
      (ContinuousLinearMap.proj (R := ℝ) (φ := fun _ : Fin 2 => ℝ) i).hasFDerivAt
    refine ((((h1 1).pow 2).mul_const (1 / 2 : ℝ)).sub (h1 0).cos).congr_fderiv ?_
      |>.congr_of_eventuallyEq ?_
    · ext1 z
      rw [form2_apply]
      simp [pend]
      ring
    · exact Filter.Eventually.of_forall fun z => by simp; ring

/-- the hypotheses of `symp_symplectic_exact` are met: implicit midpoint rule. -/
example (h : ℝ) : ∃ (A : Fin 1 → Fin 1 → ℝ) (b : Fin 1 → ℝ) (Y : (Fin 2 → ℝ) → Fin 1 → Fin 2 → ℝ),
    (∀ i j, defect A b i j = 0) ∧ (∀ v i, Y v i = v + h • ∑ j, A i j • free (Y v j)) ∧
    ∀ u i, DifferentiableAt ℝ (fun v => Y v i) u := by
  refine ⟨fun _ _ => 1 / 2, fun _ => 1, fun v _ => v + (h / 2) • free v, fun i j => ?_, fun v i => ?_,
    fun u i => ?_⟩
  · unfold defect; norm_num
  · funext l
    fin_cases l <;> simp [free]
    ring
  · exact differentiableAt_id.add ((free_deriv u).differentiableAt.fun_const_smul _)

end Odes.Symp
