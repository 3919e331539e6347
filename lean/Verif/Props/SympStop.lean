import Verif.Props.SympRev

/-!
# Symplectic methods: the stopping test in exact arithmetic (C69, C70)
-/

namespace Odes.Symp

open Odes.Mem Spec

variable {n : ℕ}

/-- the residuals of consecutive sweeps decrease. -/
theorem rho_contract {s : ℕ} {a : ℕ → ℕ → ℝ} {f : (Fin n → ℝ) → Fin n → ℝ} {u : Fin n → ℝ}
    {Y : ℕ → Fin n → ℝ} {L : ℝ}
    (hL : ∀ x y, ∑ l, (f x l - f y l) ^ 2 ≤ L ^ 2 * ∑ l, (x l - y l) ^ 2) (m : ℕ) :
    rho a s f u Y (m + 1) ≤ (∑ i : Fin s, ∑ j : Fin s, a i j ^ 2) * L ^ 2 * rho a s f u Y m := by
  rw [rho, rho, resid_real, resid_real]
  set P := fun j : Fin s => iter a s f u Y (m + 1) j
  set Q := fun j : Fin s => iter a s f u Y m j
  have e : ∀ i : Fin s, ∀ l, iter a s f u Y (m + 1 + 1) i l - iter a s f u Y (m + 1) i l =
      ∑ j : Fin s, a i j * (f (P j) l - f (Q j) l) := by
    intro i l
    show sumL _ _ _ - sumL _ _ _ = _
    rw [sumL_real, sumL_real]
    simp only [mul_sub, Finset.sum_sub_distrib]
    ring
  have h1 : ∀ i : Fin s, ∑ l, (iter a s f u Y (m + 1 + 1) i l - iter a s f u Y (m + 1) i l) ^ 2 ≤
      (∑ j : Fin s, a i j ^ 2) * (L ^ 2 * ∑ j, ∑ l, (P j l - Q j l) ^ 2) := by
    intro i
    calc _ ≤ ∑ l, (∑ j : Fin s, a i j ^ 2) * ∑ j, (f (P j) l - f (Q j) l) ^ 2 :=
          Finset.sum_le_sum fun l _ => by rw [e]; exact Finset.sum_mul_sq_le_sq_mul_sq _ _ _
      _ = (∑ j : Fin s, a i j ^ 2) * ∑ j, ∑ l, (f (P j) l - f (Q j) l) ^ 2 := by
          rw [← Finset.mul_sum, Finset.sum_comm]
      _ ≤ _ := by
          refine mul_le_mul_of_nonneg_left ?_ (Finset.sum_nonneg fun j _ => sq_nonneg _)
          rw [Finset.mul_sum]
          exact Finset.sum_le_sum fun j _ => hL _ _
  refine (Finset.sum_le_sum fun i _ => h1 i).trans_eq ?_
  rw [← Finset.sum_mul]
  ring

/-- C69 in exact arithmetic: when the iteration is a contraction (`h² ‖A‖² L² < 1`), a call succeeds
after the first sweep only if the last sweep changed nothing at all.  So `success` means that the stage
equations are solved exactly; for iterations which converge without reaching the limit the call returns
false: the test `v>=vold` relies on rounding errors. -/
theorem symp_stops_only_exact {c : Cfg ℝ n} (hT : Tab c) (hS : Scal c) (hnar : ∀ x, c.narrow x = x)
    {st st' : St ℝ n} (hist : Hist c st) {h : ℝ} {u u' : Fin n → ℝ} {first : Bool}
    (hs : step c h u first st = some (true, u', st')) (hit : 1 ≤ st'.iter) {L : ℝ}
    (hL : ∀ x y, ∑ l, (c.f x l - c.f y l) ^ 2 ≤ L ^ 2 * ∑ l, (x l - y l) ^ 2)
    (hθ : h ^ 2 * (∑ i, ∑ j, tabA c i j ^ 2) * L ^ 2 < 1) :
    st'.tv = 0 := by
  obtain ⟨-, -, -, Y0, hY0, h1⟩ := step_cases hT hS (hist.inv hT hS) hs
  rcases h1 with ⟨-, M, hM, hstop, -, htv, hi, -⟩ | ⟨hf, -⟩
  · obtain ⟨M, rfl⟩ : ∃ k, M = k + 1 := ⟨M - 1, by omega⟩
    set a := fun i j => c.la.getD (i * c.s + j) 0 * c.narrow h with ha
    have h2 : rho a c.s c.f u Y0 M ≤ rho a c.s c.f u Y0 (M + 1) := hstop.2
    have h3 := rho_contract (s := c.s) (a := a) (u := u) (Y := Y0) hL M
    have h4 : ∑ i : Fin c.s, ∑ j : Fin c.s, a i j ^ 2 = h ^ 2 * ∑ i, ∑ j, tabA c i j ^ 2 := by
      simp only [ha, hnar, Finset.mul_sum, tabA]
      exact Finset.sum_congr rfl fun i _ => Finset.sum_congr rfl fun j _ => by ring
    rw [h4] at h3
    have h5 : 0 ≤ rho a c.s c.f u Y0 M := by
      rw [rho, resid_real]
      exact Finset.sum_nonneg fun i _ => Finset.sum_nonneg fun l _ => sq_nonneg _
    have h6 : 0 ≤ rho a c.s c.f u Y0 (M + 1) := h5.trans h2
    rw [htv]
    have h7 : rho a c.s c.f u Y0 M = 0 := by nlinarith
    rw [h7, mul_zero] at h3
    exact le_antisymm h3 h6
  · cases hf

/-- C70 without assumption on the residual: contraction, exact tableau, more than one sweep. -/
theorem symp_preserves_contraction {c : Cfg ℝ n} (hT : Tab c) (hS : Scal c)
    (hnar : ∀ x, c.narrow x = x) (hsym : ∀ i j, defect (tabA c) (tabB c) i j = 0)
    {st st' : St ℝ n} (hist : Hist c st) {h : ℝ} {u u' : Fin n → ℝ} {first : Bool}
    (hs : step c h u first st = some (true, u', st')) (hit : 1 ≤ st'.iter) {L : ℝ}
    (hL : ∀ x y, ∑ l, (c.f x l - c.f y l) ^ 2 ≤ L ^ 2 * ∑ l, (x l - y l) ^ 2)
    (hθ : h ^ 2 * (∑ i, ∑ j, tabA c i j ^ 2) * L ^ 2 < 1)
    {B : (Fin n → ℝ) →ₗ[ℝ] (Fin n → ℝ) →ₗ[ℝ] ℝ} (hB : Quad B c.f) : B u' u' = B u u :=
  symp_preserves hT hS hnar hsym hist hs
    (symp_stops_only_exact hT hS hnar hist hs hit hL hθ) hB

/-- C88, the part which holds: new step size or first step, shipped table.  If two consecutive sweeps
`k` and `k+1` give exactly the same stages and `k+1` is below the limit of the number of iterations, the call
succeeds.  Missing: an iteration which only converges (see `symp_contraction_fails`). -/
theorem symp_contraction_partial {t : GTab} (ht : t ∈ gaussD ++ gaussL) (itermax : ℤ)
    {f : (Fin n → ℝ) → Fin n → ℝ} {st st' : St ℝ n} (hist : Hist (cfgR t itermax f) st) {h : ℝ}
    {u u' : Fin n → ℝ} {first r : Bool} (hfirst : first = true ∨ st.oldH ≠ h)
    (hs : step (cfgR t itermax f) h u first st = some (r, u', st')) {k : ℕ}
    (hk : ((k + 1 : ℕ) : ℤ) < itermax)
    (hst : ∀ i, picard t.A h f u (k + 1) i = picard t.A h f u k i) : r = true := by
  set c := cfgR t itermax f with hc
  have hT : Tab c := cfgR_tab ht _ _
  have hS : Scal c := cfgR_scal _ _ _
  have hA : tabA c = t.A := tabA_cfgR ht _ _
  obtain ⟨-, -, -, Y0, hY0, h1⟩ := step_cases hT hS (hist.inv hT hS) hs
  rcases h1 with ⟨hr, -⟩ | ⟨-, -, -, -, -, hno⟩
  · exact hr
  exfalso
  set a : ℕ → ℕ → ℝ := fun i j => c.la.getD (i * c.s + j) 0 * c.narrow h with ha
  have hav : ∀ i j : Fin t.s, a i j = t.A i j * h := fun i j => by
    rw [← hA]
    rfl
  have hpic : ∀ m (i : Fin t.s), iter a t.s f u Y0 m i = picard t.A h f u m i := fun m i =>
    iter_picard (s := t.s) a hav f u (hY0 hfirst) m i
  have hst2 : ∀ i, picard t.A h f u (k + 1 + 1) i = picard t.A h f u (k + 1) i := fun i => by
    exact congrArg (fun z => u + h • z)
      (Finset.sum_congr rfl fun j _ => congrArg (fun z => t.A i j • f z) (hst j))
  have hrho : ∀ m, (∀ i, picard t.A h f u (m + 1) i = picard t.A h f u m i) →
      rho a c.s c.f u Y0 m = 0 := by
    intro m hm
    rw [rho, resid_real]
    refine Finset.sum_eq_zero fun i _ => Finset.sum_eq_zero fun l _ => ?_
    have e1 := congrFun (hpic (m + 1) i) l
    have e2 := congrFun (hpic m i) l
    have e3 := (e1.trans (congrFun (hm i) l)).trans e2.symm
    change (iter a t.s f u Y0 (m + 1) i l - iter a t.s f u Y0 m i l) ^ 2 = 0
    rw [e3]; ring
  refine hno (k + 1) (by show k + 1 < itermax.toNat; omega) ⟨?_, ?_⟩
  · show rho a c.s c.f u Y0 (k + 1) ≤ 5 / 10 ^ 308
    rw [hrho _ hst2]
    have : ∀ x : ℝ, 0 < x → 0 ≤ 5 / x := fun x hx => by positivity
    exact this _ (by positivity)
  · show rho a c.s c.f u Y0 k ≤ rho a c.s c.f u Y0 (k + 1)
    rw [hrho _ hst2, hrho _ hst]

/-- the hypotheses are met by the free particle: the stages are exact after two sweeps. -/
example (junk : St ℝ 2) (h : ℝ) (u : Fin 2 → ℝ) : (∃ st, Hist (cfgR gaussD2 100 free) st) ∧
    ∀ i, picard gaussD2.A h free u (2 + 1) i = picard gaussD2.A h free u 2 i := by
  constructor
  · have hT := cfgR_tab gaussD2_mem 100 free
    obtain ⟨st, hst⟩ := (symp_construct (c := cfgR gaussD2 100 free) hT.la.le hT.lb.le hT.lc.le junk).2
      ⟨hT.two, hT.max⟩
    exact ⟨st, Hist.new hst⟩
  · intro i
    have h1 : ∀ m i, picard gaussD2.A h free u m i 1 = u 1 := by
      intro m i
      cases m with
      | zero => rfl
      | succ m => simp [picard, free]
    have h2 : ∀ m i, free (picard gaussD2.A h free u m i) = free u := by
      intro m i
      funext l
      fin_cases l
      · simp [free, h1]
      · simp [free]
    exact congrArg (fun z => u + h • z)
      (Finset.sum_congr rfl fun j _ => congrArg (gaussD2.A i j • ·) ((h2 2 j).trans (h2 1 j).symm))

/-! ### a contraction which is reported as a failure -/

/-- Lipschitz constant of the oscillator. -/
theorem osc_lip (x y : Fin 2 → ℝ) :
    ∑ l, (osc x l - osc y l) ^ 2 ≤ 1 ^ 2 * ∑ l, (x l - y l) ^ 2 := by
  simp only [Fin.sum_univ_two, osc]
  simp
  nlinarith

theorem gaussD2_A : gaussD2.A = ![![0.25, -0.0386751345948], ![0.538675134595, 0.25]] := by
  funext i j
  change Fin 2 at i j
  fin_cases i <;> fin_cases j <;> simp [GTab.A, GTab.iA, gaussD2] <;> norm_num

/-- with step size 1 the iteration is a contraction. -/
theorem osc_contracts : (1 : ℝ) ^ 2 * (∑ i, ∑ j, gaussD2.A i j ^ 2) * 1 ^ 2 < 1 := by
  rw [gaussD2_A]
  show (1 : ℝ) ^ 2 * (∑ i : Fin 2, ∑ j : Fin 2, _) * 1 ^ 2 < 1
  simp only [Fin.sum_univ_two]
  simp
  norm_num

/-- C88 is violated: the harmonic oscillator, two stages, step size 1 (the fixed point iteration is a
contraction: see `osc_contracts`), any initial value with norm at least one, any number of iterations
allowed, any history of the object: in exact arithmetic the call returns false. -/
theorem symp_contraction_fails (itermax : ℤ) {st : St ℝ 2} (hist : Hist (cfgR gaussD2 itermax osc) st)
    {u : Fin 2 → ℝ} (hu : 1 ≤ u 0 ^ 2 + u 1 ^ 2) :
    ∃ st', step (cfgR gaussD2 itermax osc) 1 u true st = some (false, u, st') := by
  set c := cfgR gaussD2 itermax osc with hc
  have hT : Tab c := cfgR_tab gaussD2_mem _ _
  have hS : Scal c := cfgR_scal _ _ _
  have hA : tabA c = gaussD2.A := tabA_cfgR gaussD2_mem _ _
  rcases hs : step c 1 u true st with _ | ⟨r, u', st'⟩
  · have := ((symp_defined_iff hT hS hist 1 u true).1 hs).2.1
    cases this
  cases r
  · rw [(symp_failure hT hS hist hs).1]
    exact ⟨st', rfl⟩
  exfalso
  have hex : 1 ≤ st'.iter → st'.tv = 0 := fun hit =>
    symp_stops_only_exact hT hS (fun _ => rfl) hist hs hit osc_lip (by rw [hA]; exact osc_contracts)
  obtain ⟨-, -, -, Y0, hY0, h1⟩ := step_cases hT hS (hist.inv hT hS) hs
  rcases h1 with ⟨-, M, hM, hstop, -, htv, hi, -⟩ | ⟨hf, -⟩
  · set a : ℕ → ℕ → ℝ := fun i j => c.la.getD (i * c.s + j) 0 * c.narrow 1 with ha
    have hav : ∀ i j : Fin 2, a i j = gaussD2.A i j := fun i j => by
      rw [← hA]
      exact mul_one _
    have hpic : ∀ m (i : Fin 2), iter a 2 osc u Y0 m i = picard gaussD2.A 1 osc u m i := fun m i =>
      iter_picard (s := 2) a (fun i j => by rw [hav, mul_one]) osc u (hY0 (Or.inl rfl)) m i
    have hrho : ∀ m, rho a c.s c.f u Y0 m =
        ∑ i : Fin 2, ∑ l, (picard gaussD2.A 1 osc u (m + 1) i l - picard gaussD2.A 1 osc u m i l) ^ 2 := by
      intro m
      rw [rho, resid_real]
      exact Finset.sum_congr rfl fun i _ => Finset.sum_congr rfl fun l _ =>
        congrArg (· ^ 2) (congrArg₂ (· - ·) (congrFun (hpic (m + 1) i) l) (congrFun (hpic m i) l))
    -- differences of consecutive iterates
    set d : ℕ → Fin 2 → Fin 2 → ℝ := fun m i l =>
      picard gaussD2.A 1 osc u (m + 1) i l - picard gaussD2.A 1 osc u m i l with hd
    have hd0 : ∀ i : Fin 2, d 0 i 0 = (gaussD2.A i (0 : Fin 2) + gaussD2.A i (1 : Fin 2)) * u 1 ∧
        d 0 i 1 = -(gaussD2.A i (0 : Fin 2) + gaussD2.A i (1 : Fin 2)) * u 0 := by
      intro i
      have e : ∀ l, d 0 i l = ∑ j : Fin 2, gaussD2.A i j * osc u l := by
        intro l
        simp only [hd, picard, one_smul, Pi.add_apply, Finset.sum_apply, Pi.smul_apply, smul_eq_mul]
        rw [add_sub_cancel_left]
        rfl
      rw [e, e]
      simp only [Fin.sum_univ_two, osc]
      constructor <;> simp <;> ring
    have hds : ∀ m (i : Fin 2),
        d (m + 1) i 0 = gaussD2.A i (0 : Fin 2) * d m 0 1 + gaussD2.A i (1 : Fin 2) * d m 1 1 ∧
        d (m + 1) i 1 = -(gaussD2.A i (0 : Fin 2) * d m 0 0 + gaussD2.A i (1 : Fin 2) * d m 1 0) := by
      intro m i
      have e : ∀ l, d (m + 1) i l = ∑ j : Fin 2, gaussD2.A i j *
          (osc (picard gaussD2.A 1 osc u (m + 1) j) l - osc (picard gaussD2.A 1 osc u m j) l) := by
        intro l
        show picard gaussD2.A 1 osc u (m + 1 + 1) i l - picard gaussD2.A 1 osc u (m + 1) i l = _
        rw [picard, picard.eq_2 _ _ _ _ m]
        simp only [one_smul, Pi.add_apply, Finset.sum_apply, Pi.smul_apply, smul_eq_mul, mul_sub,
          Finset.sum_sub_distrib]
        rw [add_sub_add_left_eq_sub]
        rfl
      rw [e, e]
      simp only [Fin.sum_univ_two, osc, hd]
      constructor <;> simp <;> ring
    have hpos : ∀ m, 0 < rho a c.s c.f u Y0 m := by
      intro m
      rw [hrho]
      change 0 < ∑ i : Fin 2, ∑ l, d m i l ^ 2
      simp only [Fin.sum_univ_two]
      induction m with
      | zero =>
        rw [(hd0 0).1, (hd0 0).2, (hd0 1).1, (hd0 1).2, gaussD2_A]
        simp
        nlinarith
      | succ m ih =>
        by_contra hcon
        have z : ∀ x : ℝ, 0 ≤ x ^ 2 := fun x => sq_nonneg x
        have q : d (m + 1) 0 0 = 0 ∧ d (m + 1) 0 1 = 0 ∧ d (m + 1) 1 0 = 0 ∧ d (m + 1) 1 1 = 0 := by
          have z1 := z (d (m + 1) 0 0)
          have z2 := z (d (m + 1) 0 1)
          have z3 := z (d (m + 1) 1 0)
          have z4 := z (d (m + 1) 1 1)
          refine ⟨pow_eq_zero_iff two_ne_zero |>.1 ?_, pow_eq_zero_iff two_ne_zero |>.1 ?_,
            pow_eq_zero_iff two_ne_zero |>.1 ?_, pow_eq_zero_iff two_ne_zero |>.1 ?_⟩ <;> linarith
        obtain ⟨q1, q2, q3, q4⟩ := q
        rw [(hds m 0).1, gaussD2_A] at q1
        rw [(hds m 0).2, gaussD2_A] at q2
        rw [(hds m 1).1, gaussD2_A] at q3
        rw [(hds m 1).2, gaussD2_A] at q4
        simp at q1 q2 q3 q4
        have w1 : d m 0 1 = 0 := by linarith
        have w2 : d m 1 1 = 0 := by linarith
        have w3 : d m 0 0 = 0 := by linarith
        have w4 : d m 1 0 = 0 := by linarith
        rw [w1, w2, w3, w4] at ih
        norm_num at ih
    rcases Nat.eq_zero_or_pos M with rfl | hM0
    · have hsm : rho a c.s c.f u Y0 0 ≤ 5 / 10 ^ 308 := hstop.1
      rw [hrho] at hsm
      change ∑ i : Fin 2, ∑ l, d 0 i l ^ 2 ≤ _ at hsm
      simp only [Fin.sum_univ_two] at hsm
      rw [(hd0 0).1, (hd0 0).2, (hd0 1).1, (hd0 1).2, gaussD2_A] at hsm
      have key : ∀ x : ℝ, 100 ≤ x → 5 / x < 1 / 2 := fun x hx => by
        rw [div_lt_div_iff₀ (by linarith) (by norm_num)]; linarith
      have hlt : (5 : ℝ) / 10 ^ 308 < 1 / 2 := key _ (le_of_eq_of_le (by norm_num : (100 : ℝ) = 10 ^ 2)
        (pow_le_pow_right₀ (by norm_num) (by norm_num)))
      have := hsm.trans_lt hlt
      simp at this
      norm_num at this
      nlinarith
    · have := hex (by rw [hi]; exact_mod_cast hM0)
      rw [htv] at this
      exact (hpos M).ne' this
  · cases hf

/-- the object exists. -/
example (junk : St ℝ 2) : ∃ st, Hist (cfgR gaussD2 100 osc) st := by
  have hT := cfgR_tab gaussD2_mem 100 osc
  obtain ⟨st, hst⟩ := (symp_construct (c := cfgR gaussD2 100 osc) hT.la.le hT.lb.le hT.lc.le junk).2
    ⟨hT.two, hT.max⟩
  exact ⟨st, Hist.new hst⟩

end Odes.Symp
