import Verif.Props.Symplectic
import Verif.Lemmas.SympReal
import Mathlib.Algebra.Order.BigOperators.Group.Finset
import Mathlib.Analysis.SpecialFunctions.Pow.Real

/-!
# Symplectic methods in exact arithmetic (C69 - C72, C84)
-/

namespace Odes.Symp

open Odes.Mem Spec

variable {n : ℕ}

/-- coefficients of a configuration, as matrices. -/
def tabA (c : Cfg ℝ n) (i j : Fin c.s) : ℝ := c.la.getD (i * c.s + j) 0
@[inherit_doc tabA] def tabB (c : Cfg ℝ n) (i : Fin c.s) : ℝ := c.lb.getD i 0

/-! ### C71 in exact arithmetic -/

/-- C71: in exact arithmetic the compensation stays zero. -/
theorem symp_comp_zero {c : Cfg ℝ n} (hT : Tab c) (hS : Scal c) {st : St ℝ n} (hist : Hist c st) :
    st.e = 0 := by
  induction hist with
  | new h => exact funext (construct_inv hT hS h).2.1
  | step h u u' first r hist hs ih =>
    obtain ⟨-, -, -, Y0, -, h1⟩ := step_cases hT hS (hist.inv hT hS) hs
    rcases h1 with ⟨-, M, -, -, -, -, -, -, -, hu, he⟩ | ⟨-, -, he, -⟩
    · funext l
      rw [he, hu]
      simp
    · rw [he, ih]

/-! ### C70: invariants -/

/-- what a successful step computes, in exact arithmetic: slopes `f(Y_i)`; the result is the
Runge-Kutta formula, and the stage equations hold up to `Z - Y`, whose norm passed the test. -/
theorem symp_sweep {c : Cfg ℝ n} (hT : Tab c) (hS : Scal c) (hnar : ∀ x, c.narrow x = x) {st st' : St ℝ n}
    (hist : Hist c st) {h : ℝ} {u u' : Fin n → ℝ} {first : Bool}
    (hs : step c h u first st = some (true, u', st')) :
    ∃ Y Z : Fin c.s → Fin n → ℝ, RkSweep (tabA c) (tabB c) h c.f u Y Z u' ∧
      ∑ i, ∑ l, (Z i l - Y i l) ^ 2 = st'.tv ∧ c.small st'.tv := by
  obtain ⟨-, -, -, Y0, -, h1⟩ := step_cases hT hS (hist.inv hT hS) hs
  have he := symp_comp_zero hT hS hist
  rcases h1 with ⟨-, M, -, hstop, -, htv, -, -, hd, hu, -⟩ | ⟨hf, -⟩
  · set A := fun i j => c.la.getD (i * c.s + j) 0 * c.narrow h with hA
    refine ⟨fun i => iter A c.s c.f u Y0 M i, fun i => iter A c.s c.f u Y0 (M + 1) i, ⟨fun i => ?_, ?_⟩,
      ?_, ?_⟩
    · funext l
      show sumL (fun j => A i j * c.f (iter A c.s c.f u Y0 M j) l) (u l) c.s = _
      rw [sumL_real]
      simp only [Pi.add_apply, Pi.smul_apply, Finset.sum_apply, smul_eq_mul, Finset.mul_sum, hA, hnar,
        tabA]
      congr 1
      exact Finset.sum_congr rfl fun j _ => by ring
    · funext l
      rw [hu, hd, sumL_real, he]
      simp only [Pi.add_apply, Pi.smul_apply, Finset.sum_apply, smul_eq_mul, Finset.mul_sum, hnar,
        Pi.zero_apply, zero_add, tabB]
      congr 1
      exact Finset.sum_congr rfl fun j _ => by ring
    · rw [htv, rho, resid_real]
    · rw [htv]; exact hstop.1
  · cases hf

/-- C70: change of a quadratic first integral in a successful step. -/
theorem symp_quadratic {c : Cfg ℝ n} (hT : Tab c) (hS : Scal c) (hnar : ∀ x, c.narrow x = x)
    {st st' : St ℝ n} (hist : Hist c st) {h : ℝ} {u u' : Fin n → ℝ} {first : Bool}
    (hs : step c h u first st = some (true, u', st'))
    {B : (Fin n → ℝ) →ₗ[ℝ] (Fin n → ℝ) →ₗ[ℝ] ℝ} (hB : Quad B c.f) :
    ∃ Y r : Fin c.s → Fin n → ℝ, (∑ i, ∑ l, r i l ^ 2 = st'.tv ∧ c.small st'.tv) ∧
      B u' u' - B u u = 2 * h * ∑ i, tabB c i * B (r i) (c.f (Y i)) -
        h ^ 2 * ∑ i, ∑ j, defect (tabA c) (tabB c) i j * B (c.f (Y i)) (c.f (Y j)) := by
  obtain ⟨Y, Z, hr, h1, h2⟩ := symp_sweep hT hS hnar hist hs
  exact ⟨Y, fun i => Z i - Y i, ⟨h1, h2⟩, hr.quad hB⟩

/-- C70: with a tableau such that `b_i a_ij + b_j a_ji = b_i b_j`, and iterations stopped at a solution
of the stage equations, every quadratic first integral is preserved. -/
theorem symp_preserves {c : Cfg ℝ n} (hT : Tab c) (hS : Scal c) (hnar : ∀ x, c.narrow x = x)
    (hsym : ∀ i j, defect (tabA c) (tabB c) i j = 0)
    {st st' : St ℝ n} (hist : Hist c st) {h : ℝ} {u u' : Fin n → ℝ} {first : Bool}
    (hs : step c h u first st = some (true, u', st')) (hz : st'.tv = 0)
    {B : (Fin n → ℝ) →ₗ[ℝ] (Fin n → ℝ) →ₗ[ℝ] ℝ} (hB : Quad B c.f) : B u' u' = B u u := by
  obtain ⟨Y, r, ⟨h1, -⟩, h2⟩ := symp_quadratic hT hS hnar hist hs hB
  have hr : ∀ i, r i = 0 := by
    intro i
    rw [hz] at h1
    have := (Finset.sum_eq_zero_iff_of_nonneg
      (fun i _ => Finset.sum_nonneg fun l _ => sq_nonneg (r i l))).1 h1 i (Finset.mem_univ _)
    funext l
    have := (Finset.sum_eq_zero_iff_of_nonneg (fun l _ => sq_nonneg (r i l))).1 this l
      (Finset.mem_univ _)
    exact pow_eq_zero_iff (two_ne_zero) |>.1 this
  simp only [hr, hsym, map_zero, LinearMap.zero_apply, mul_zero, Finset.sum_const_zero, zero_mul,
    sub_zero] at h2
  linarith

/-- linear first integrals are preserved by every step, successful or not, with any tables. -/
theorem symp_linear {c : Cfg ℝ n} (hT : Tab c) (hS : Scal c) (hnar : ∀ x, c.narrow x = x)
    {st st' : St ℝ n} (hist : Hist c st) {h : ℝ} {u u' : Fin n → ℝ} {first r : Bool}
    (hs : step c h u first st = some (r, u', st'))
    {L : (Fin n → ℝ) →ₗ[ℝ] ℝ} (hL : ∀ y, L (c.f y) = 0) : L u' = L u := by
  cases r
  · rw [(symp_failure hT hS hist hs).1]
  · obtain ⟨Y, Z, hr, -⟩ := symp_sweep hT hS hnar hist hs
    exact hr.linear hL

/-- norm of the residual of one stage. -/
theorem norm_le_of_sum {s : ℕ} {r : Fin s → Fin n → ℝ} {v T : ℝ} (h : ∑ i, ∑ l, r i l ^ 2 = v)
    (hv : v ≤ T ^ 2) (hT : 0 ≤ T) (i : Fin s) : Real.sqrt (∑ l, r i l ^ 2) ≤ T := by
  rw [Real.sqrt_le_left hT]
  refine le_trans ?_ hv
  rw [← h]
  exact Finset.single_le_sum (f := fun i => ∑ l, r i l ^ 2)
    (fun i _ => Finset.sum_nonneg fun l _ => sq_nonneg (r i l)) (Finset.mem_univ i)

/-- `N` calls of `step` which all succeed, with any step sizes at most `hmax`. -/
inductive Steps (c : Cfg ℝ n) (hmax : ℝ) : ℕ → (Fin n → ℝ) → St ℝ n → (Fin n → ℝ) → St ℝ n → Prop
  | zero (u st) : Steps c hmax 0 u st u st
  | succ {N u0 st0 u st u' st'} (h : ℝ) (first : Bool) (hh : |h| ≤ hmax)
      (ih : Steps c hmax N u0 st0 u st) (hs : step c h u first st = some (true, u', st')) :
      Steps c hmax (N + 1) u0 st0 u' st'

/-- C70: drift of a quadratic first integral after `N` successful steps.  `ε` bounds the defect of the
tables, `T` the square root of the threshold of the test; `b1` bounds the weights; `M` and `L` bound the
form on the values of the function.  Any `N`, any step sizes at most `hmax`. -/
theorem symp_drift {c : Cfg ℝ n} (hT : Tab c) (hS : Scal c) (hnar : ∀ x, c.narrow x = x)
    {B : (Fin n → ℝ) →ₗ[ℝ] (Fin n → ℝ) →ₗ[ℝ] ℝ} (hB : Quad B c.f)
    {ε b1 M L T hmax : ℝ} (hT0 : 0 ≤ T) (hsmall : ∀ v, c.small v → v ≤ T ^ 2)
    (hε : ∀ i j, |defect (tabA c) (tabB c) i j| ≤ ε) (hb : ∀ i, |tabB c i| ≤ b1)
    (hM : ∀ y z, |B (c.f y) (c.f z)| ≤ M) (hL0 : 0 ≤ L)
    (hL : ∀ r y, |B r (c.f y)| ≤ L * Real.sqrt (∑ l, r l ^ 2))
    {N : ℕ} {u u' : Fin n → ℝ} {st st' : St ℝ n} (hist : Hist c st)
    (hsteps : Steps c hmax N u st u' st') :
    |B u' u' - B u u| ≤ N * (2 * hmax * (c.s * (b1 * (L * T))) + hmax ^ 2 * (c.s * (c.s * (ε * M)))) := by
  suffices Hist c st' ∧ _ from this.2
  induction hsteps with
  | zero u st => exact ⟨hist, by simp⟩
  | @succ N u0 st0 u st u' st' h first hh hsteps hs ih =>
    obtain ⟨hist1, ih⟩ := ih hist
    refine ⟨Hist.step h u u' first true hist1 hs, ?_⟩
    obtain ⟨Y, r, ⟨h1, h2⟩, h3⟩ := symp_quadratic hT hS hnar hist1 hs hB
    have h0 : 0 ≤ hmax := (abs_nonneg h).trans hh
    have hs2 : 0 < c.s := by have := hT.two; omega
    have hb1 : 0 ≤ b1 := (abs_nonneg _).trans (hb ⟨0, hs2⟩)
    have e1 : |∑ i, tabB c i * B (r i) (c.f (Y i))| ≤ c.s * (b1 * (L * T)) := by
      refine (Finset.abs_sum_le_sum_abs _ _).trans ?_
      refine (Finset.sum_le_card_nsmul _ _ (b1 * (L * T)) fun i _ => ?_).trans_eq (by simp)
      rw [abs_mul]
      refine mul_le_mul (hb i) ((hL _ _).trans ?_) (abs_nonneg _) hb1
      exact mul_le_mul_of_nonneg_left (norm_le_of_sum h1 (hsmall _ h2) hT0 i) hL0
    have e2 : |∑ i, ∑ j, defect (tabA c) (tabB c) i j * B (c.f (Y i)) (c.f (Y j))| ≤
        c.s * (c.s * (ε * M)) := by
      refine (Finset.abs_sum_le_sum_abs _ _).trans ?_
      refine (Finset.sum_le_card_nsmul _ _ (c.s * (ε * M)) fun i _ => ?_).trans_eq (by simp)
      refine (Finset.abs_sum_le_sum_abs _ _).trans ?_
      refine (Finset.sum_le_card_nsmul _ _ (ε * M) fun j _ => ?_).trans_eq (by simp)
      rw [abs_mul]
      exact mul_le_mul (hε i j) (hM _ _) (abs_nonneg _) ((abs_nonneg _).trans (hε i j))
    have e3 : |B u' u' - B u u| ≤ 2 * hmax * (c.s * (b1 * (L * T))) +
        hmax ^ 2 * (c.s * (c.s * (ε * M))) := by
      rw [h3]
      refine (abs_sub _ _).trans (add_le_add ?_ ?_)
      · rw [abs_mul, abs_mul, abs_two]
        exact mul_le_mul (by linarith) e1 (abs_nonneg _) (by linarith)
      · rw [abs_mul, abs_pow]
        exact mul_le_mul (pow_le_pow_left₀ (abs_nonneg h) hh 2) e2 (abs_nonneg _) (by positivity)
    have : B u' u' - B u0 u0 = (B u' u' - B u u) + (B u u - B u0 u0) := by ring
    rw [this]
    refine (abs_add_le _ _).trans ?_
    push_cast
    linarith

/-! ### C70, C84: the shipped tables -/

theorem memD {t : GTab} (h : t ∈ gaussD) : okShape t = true ∧ okCoop t (4 * 10 ^ 12) = true ∧
    okB t (10 ^ 12) = true ∧ okC t (5 * 10 ^ 11) = true ∧ okD t (2 * 10 ^ 12) = true := by
  have := List.all_eq_true.1 gaussD_ok t h
  simp only [Bool.and_eq_true] at this
  exact ⟨this.1.1.1.1.1, this.1.1.1.1.2, this.1.1.1.2, this.1.1.2, this.1.2⟩

theorem memL {t : GTab} (h : t ∈ gaussL) : okShape t = true ∧ okCoop t (4 * 10 ^ 33) = true ∧
    okB t (10 ^ 33) = true ∧ okC t (10 ^ 33) = true ∧ okD t (10 ^ 33) = true := by
  have := List.all_eq_true.1 gaussL_ok t h
  simp only [Bool.and_eq_true] at this
  exact ⟨this.1.1.1.1.1, this.1.1.1.1.2, this.1.1.1.2, this.1.1.2, this.1.2⟩

/-- C70: defect of the shipped tables, all numbers of stages: `2.5e-13` for `double`, `2.5e-34` for the
literals of `long double`. -/
theorem symp_table_defect :
    (∀ t ∈ gaussD, ∀ i j, |defect t.A t.w i j| ≤ 1 / (4 * 10 ^ 12)) ∧
    (∀ t ∈ gaussL, ∀ i j, |defect t.A t.w i j| ≤ 1 / (4 * 10 ^ 33)) := by
  constructor
  · intro t ht i j
    exact (coop_spec (by norm_num) (memD ht).2.1 i j).trans_eq (by norm_num)
  · intro t ht i j
    exact (coop_spec (by norm_num) (memL ht).2.1 i j).trans_eq (by norm_num)

/-- C84: the shipped tables satisfy the simplifying assumptions `B(2s)`, `C(s)`, `D(s)` of the Gauss
methods with `s` stages, up to the printed precision. -/
theorem symp_table_order :
    (∀ t ∈ gaussD,
      (∀ k, k < 2 * t.s → |∑ i, t.w i * (∑ j, t.A i j) ^ k - 1 / (k + 1)| ≤ 1 / 10 ^ 12) ∧
      (∀ k, k < t.s → ∀ i, |∑ j, t.A i j * (∑ l, t.A j l) ^ k - (∑ l, t.A i l) ^ (k + 1) / (k + 1)| ≤
        2 / 10 ^ 12) ∧
      (∀ k, k < t.s → ∀ j, |∑ i, t.w i * (∑ l, t.A i l) ^ k * t.A i j -
        t.w j * (1 - (∑ l, t.A j l) ^ (k + 1)) / (k + 1)| ≤ 1 / (2 * 10 ^ 12))) ∧
    (∀ t ∈ gaussL,
      (∀ k, k < 2 * t.s → |∑ i, t.w i * (∑ j, t.A i j) ^ k - 1 / (k + 1)| ≤ 1 / 10 ^ 33) ∧
      (∀ k, k < t.s → ∀ i, |∑ j, t.A i j * (∑ l, t.A j l) ^ k - (∑ l, t.A i l) ^ (k + 1) / (k + 1)| ≤
        1 / 10 ^ 33) ∧
      (∀ k, k < t.s → ∀ j, |∑ i, t.w i * (∑ l, t.A i l) ^ k * t.A i j -
        t.w j * (1 - (∑ l, t.A j l) ^ (k + 1)) / (k + 1)| ≤ 1 / 10 ^ 33)) := by
  constructor
  · intro t ht
    obtain ⟨h1, -, h2, h3, h4⟩ := memD ht
    refine ⟨fun k hk => ?_, fun k hk i => ?_, fun k hk j => ?_⟩
    · exact (B_spec h1 (by norm_num) h2 hk).trans_eq (by norm_num)
    · exact (C_spec h1 (by norm_num) h3 hk i).trans_eq (by norm_num)
    · exact (D_spec h1 (by norm_num) h4 hk j).trans_eq (by norm_num)
  · intro t ht
    obtain ⟨h1, -, h2, h3, h4⟩ := memL ht
    refine ⟨fun k hk => ?_, fun k hk i => ?_, fun k hk j => ?_⟩
    · exact (B_spec h1 (by norm_num) h2 hk).trans_eq (by norm_num)
    · exact (C_spec h1 (by norm_num) h3 hk i).trans_eq (by norm_num)
    · exact (D_spec h1 (by norm_num) h4 hk j).trans_eq (by norm_num)

theorem tabA_cfgR {t : GTab} (ht : t ∈ gaussD ++ gaussL) (itermax : ℤ) (f : (Fin n → ℝ) → Fin n → ℝ) :
    tabA (cfgR t itermax f) = t.A := by
  funext i j
  exact la_getD (mem_shape ht).1 i j

theorem tabB_cfgR {t : GTab} (itermax : ℤ) (f : (Fin n → ℝ) → Fin n → ℝ) :
    tabB (cfgR t itermax f) = t.w := by
  funext i
  exact lb_getD i

/-- C70 for the shipped tables of `double`: change of a quadratic first integral after `N` successful
steps with any step sizes at most `hmax`. -/
theorem symp_gauss_drift {t : GTab} (ht : t ∈ gaussD) (itermax : ℤ) {f : (Fin n → ℝ) → Fin n → ℝ}
    {B : (Fin n → ℝ) →ₗ[ℝ] (Fin n → ℝ) →ₗ[ℝ] ℝ} (hB : Quad B f) {M L hmax : ℝ}
    (hM : ∀ y z, |B (f y) (f z)| ≤ M) (hL0 : 0 ≤ L)
    (hL : ∀ r y, |B r (f y)| ≤ L * Real.sqrt (∑ l, r l ^ 2))
    {N : ℕ} {u u' : Fin n → ℝ} {st st' : St ℝ n} (hist : Hist (cfgR t itermax f) st)
    (hsteps : Steps (cfgR t itermax f) hmax N u st u' st') :
    |B u' u' - B u u| ≤
      N * (2 * hmax * (t.s * (1 * (L * (1 / 10 ^ 153)))) +
        hmax ^ 2 * (t.s * (t.s * (1 / (4 * 10 ^ 12) * M)))) := by
  have htt : t ∈ gaussD ++ gaussL := List.mem_append_left _ ht
  refine symp_drift (cfgR_tab htt _ _) (cfgR_scal _ _ _) (fun _ => rfl) hB (by positivity) ?_ ?_ ?_ hM
    hL0 hL hist hsteps
  · intro v hv
    refine le_trans hv ?_
    have key : ∀ x : ℝ, 0 < x → 5 * x ≤ 1 * (x * 10 ^ 2) := fun x hx => by nlinarith
    rw [div_pow, ← pow_mul, one_pow, div_le_div_iff₀ (by positivity) (by positivity),
      show (308 : ℕ) = 153 * 2 + 2 from rfl, pow_add _ (153 * 2) 2]
    exact key _ (by positivity)
  · rw [tabA_cfgR htt, tabB_cfgR]
    exact symp_table_defect.1 t ht
  · rw [tabB_cfgR]
    intro i
    have hpos : ∀ t ∈ gaussD, ∀ i, i < t.s → t.ib i ≤ 10 ^ t.db := by decide +kernel
    have := hpos t ht i i.2
    show |(t.ib i : ℝ) / 10 ^ t.db| ≤ 1
    rw [abs_of_nonneg (by positivity), div_le_one (by positivity)]
    exact_mod_cast this

/-! ### C69: one iteration is enough for the program -/

theorem resid_self (Z : ℕ → Fin n → ℝ) {Y : ℕ → Fin n → ℝ} {k : ℕ} (h : ∀ i, i < k → Z i = Y i) :
    resid Z Y k = 0 := by
  rw [resid_real]
  exact Finset.sum_eq_zero fun i _ => Finset.sum_eq_zero fun l _ => by rw [h i i.2]; ring

/-- the test holds as soon as two iterations change nothing. -/
theorem stop_of_fixed {c : Cfg ℝ n} (h0 : c.small 0) {A : ℕ → ℕ → ℝ} {u : Fin n → ℝ}
    {Y : ℕ → Fin n → ℝ} {t0 : ℝ} {m : ℕ}
    (h1 : ∀ i, i < c.s → iter A c.s c.f u Y (m + 1) i = iter A c.s c.f u Y m i) :
    Stop c A u Y t0 (m + 1) := by
  have e1 : rho A c.s c.f u Y m = 0 := resid_self _ h1
  have e2 : rho A c.s c.f u Y (m + 1) = 0 :=
    resid_self _ fun i hi => sweep_congr (fun _ _ => rfl) h1
  exact ⟨by rw [e2]; exact h0, by rw [e2]; exact e1.le⟩

theorem small_zero (t : GTab) (itermax : ℤ) (f : (Fin n → ℝ) → Fin n → ℝ) : (cfgR t itermax f).small 0 := by
  show (0 : ℝ) ≤ _
  positivity

/-- C69 is violated: "at least two iterations" is wrong.  `Test` contains 0 after construction, so that
with the function 0 the first call returns true after one iteration: the value 0 of the constructor is
taken for the preceding residual. -/
theorem symp_one_iteration {t : GTab} (ht : t ∈ gaussD ++ gaussL) {itermax : ℤ} (hmax : 1 ≤ itermax)
    {junk st : St ℝ n} (hst : construct (cfgR t itermax fun _ _ => 0) junk = some (.ok st)) (h : ℝ)
    (u : Fin n → ℝ) :
    ∃ u' st', step (cfgR t itermax fun _ _ => 0) h u true st = some (true, u', st') ∧
      st'.calls = st.calls + 1 * t.s := by
  set c := cfgR t itermax (fun _ _ => 0 : (Fin n → ℝ) → Fin n → ℝ) with hc
  have hT : Tab c := cfgR_tab ht _ _
  have hS : Scal c := cfgR_scal _ _ _
  have hist : Hist c st := Hist.new hst
  have htv := (construct_inv hT hS hst).2.2
  rcases hs : step c h u true st with _ | ⟨r, u', st'⟩
  · have := ((symp_defined_iff hT hS hist h u true).1 hs).2.1
    cases this
  · obtain ⟨-, -, -, Y0, hY0, h1⟩ := step_cases hT hS (hist.inv hT hS) hs
    have hstop : Stop c (fun i j => c.la.getD (i * c.s + j) 0 * c.narrow h) u Y0 st.tv 0 := by
      have e : rho (fun i j => c.la.getD (i * c.s + j) 0 * c.narrow h) c.s c.f u Y0 0 = 0 := by
        refine resid_self _ fun i hi => ?_
        show _ = Y0 i
        rw [hY0 (Or.inl rfl) i hi]
        funext l
        show sumL _ (u l) c.s = u l
        rw [sumL_real]
        simp [hc, cfgR]
      refine ⟨by rw [e]; exact small_zero _ _ _, ?_⟩
      rw [e]
      exact htv.le
    rcases h1 with ⟨rfl, M, -, -, hno, -, -, hk, -⟩ | ⟨-, -, -, -, -, hno⟩
    · have : M = 0 := by
        by_contra hM
        exact hno 0 (by omega) hstop
      subst this
      exact ⟨u', st', rfl, by rw [hk]; rfl⟩
    · exact absurd hstop (hno 0 (by show 0 < itermax.toNat; omega))

/-! ### C72: the extrapolation is not an extrapolation -/

/-- C72 is violated for all tables: with as many components as stages, a constant function `k` and the
slopes of the previous step, the predicted first stage is at least half a step too far; for a constant
function the value of the first stage is `u + h c_1 k` (`c_1` sum of the first row of the tableau). -/
theorem symp_ext_wrong {t : GTab} (ht : t ∈ gaussD ++ gaussL) (hn : t.s = n) (itermax : ℤ)
    (k u : Fin n → ℝ) {h : ℝ} (hh : 0 < h) {st : St ℝ n} (hw : Wf (cfgR t itermax fun _ => k) st)
    (hcoef : Coef (cfgR t itermax fun _ => k) h st) (hY1 : ∀ i, i < t.s → row st.Y1 i = k)
    (l : Fin n) (hk : 0 < k l) :
    ∃ st', ext (cfgR t itermax fun _ => k) u st = some st' ∧
      u l + h * (∑ j, t.A ⟨0, by have := mem_s ht; omega⟩ j) * k l + h / 2 * k l ≤ row st'.Y 0 l := by
  obtain ⟨st', h1, -, h2⟩ := symp_ext_square (c := cfgR t itermax fun _ => k) hn u hw
  have hs0 : 0 < t.s := by have := mem_s ht; omega
  refine ⟨st', h1, ?_⟩
  rw [h2 0 hs0]
  show _ ≤ sumL _ (u l) t.s
  rw [sumL_real]
  have e : ∀ j : Fin t.s, (id (st.q.cell ((0 * t.s + j : ℕ) : ℤ)) * row st.Y1 j l : ℝ) =
      t.Q ⟨0, hs0⟩ j * (h * k l) := by
    intro j
    have hlt : 0 * t.s + (j : ℕ) < t.s * t.s := by
      have := j.2
      nlinarith
    have e1 : st.q.cell ((0 * t.s + j : ℕ) : ℤ) = t.lc.getD (0 * t.s + j) 0 * h := hcoef.q _ hlt
    have e2 := lc_getD (mem_shape ht).1 ⟨0, hs0⟩ j
    rw [id, e1, hY1 j j.2]
    have e3 : t.lc.getD (0 * t.s + j) 0 = t.Q ⟨0, hs0⟩ j := e2
    rw [e3]; ring
  have e' : ∑ j : Fin t.s, ((cfgR t itermax fun _ => k).narrow
      (st.q.cell ((0 * (cfgR t itermax fun _ => k).s + j : ℕ) : ℤ)) * row st.Y1 j l) =
      (∑ j, t.Q ⟨0, hs0⟩ j) * (h * k l) := by
    rw [Finset.sum_mul]
    exact Finset.sum_congr rfl fun j _ => e j
  refine le_of_le_of_eq ?_ (congrArg (u l + ·) e').symm
  have hq := Q_spec (mem_shape ht).1 hs0 (mem_shape ht).2
  have hp : 0 < h * k l := mul_pos hh hk
  show _ ≤ u l + _
  nlinarith [mul_le_mul_of_nonneg_right hq hp.le]

/-- C72 is violated: with more components than stages the last component of the last stage is not
predicted at all; it keeps the value of the previous step. -/
theorem symp_ext_stale {α : Type} [Add α] [Sub α] [Mul α] [Zero α] [One α] [LE α] {c : Cfg α n}
    (hsn : c.s < n) (h2 : 2 ≤ c.s) (u : Fin n → α) {st st' : St α n} (h : ext c u st = some st') :
    st'.Y.cell ((n * c.s : ℤ) - 1) = st.Y.cell ((n * c.s : ℤ) - 1) := by
  have hw : ∀ (b b' : Buf α) (i : ℤ) (x : Fin n → α), i ≤ c.s - 1 → wrN b (c.s * i) x = some b' →
      b'.cell ((n * c.s : ℤ) - 1) = b.cell ((n * c.s : ℤ) - 1) := by
    intro b b' i x hi hb
    unfold wrN at hb
    split_ifs at hb with hin
    cases hb
    simp only
    rw [dif_neg]
    rintro ⟨-, h4⟩
    have h3 : (c.s : ℤ) + 1 ≤ n := by omega
    have h5 : (2 : ℤ) ≤ c.s := by omega
    nlinarith
  set P := fun st' : St α n => st'.Y.cell ((n * c.s : ℤ) - 1) = st.Y.cell ((n * c.s : ℤ) - 1) with hP
  have inner : ∀ (i : ℤ), i ≤ c.s - 1 → ∀ j (st1 st2 : St α n), P st1 →
      ((st1.q.rd (c.s * i + j)).bind fun b =>
      let beta := c.narrow b
      (rdN (n := n) st1.Y1 (c.s * j)).bind fun F =>
      (rdN (n := n) st1.Y (c.s * i)).bind fun y =>
      (wrN st1.Y (c.s * i) fun l => y l + beta * F l).map fun Y => { st1 with Y := Y }) = some st2 →
      P st2 := by
    intro i hi j st1 st2 h1 hb
    rcases hq : st1.q.rd (c.s * i + j) with _ | b
    · rw [hq] at hb; cases hb
    rcases hF : rdN (n := n) st1.Y1 (c.s * j) with _ | F
    · rw [hq, hF] at hb; cases hb
    rcases hy : rdN (n := n) st1.Y (c.s * i) with _ | y
    · rw [hq, hF, hy] at hb; cases hb
    rw [hq, hF, hy] at hb
    simp only [Option.bind_some] at hb
    rcases hw2 : wrN st1.Y (c.s * i) (fun l => y l + c.narrow b * F l) with _ | Y2
    · rw [hw2] at hb; cases hb
    · rw [hw2, Option.map_some, Option.some.injEq] at hb
      rw [← hb]
      exact (hw _ _ _ _ hi hw2).trans h1
  unfold ext forUp at h
  have gen : ∀ (k : ℕ) (i : ℤ) (s1 s2 : St α n), i + k ≤ c.s → P s1 → loopUp (fun i st =>
      (wrN st.Y (c.s * i) u).bind fun Y =>
      forUp 0 (c.s - 1) (fun j (st : St α n) =>
        (st.q.rd (c.s * i + j)).bind fun b =>
        let beta := c.narrow b
        (rdN (n := n) st.Y1 (c.s * j)).bind fun F =>
        (rdN (n := n) st.Y (c.s * i)).bind fun y =>
        (wrN st.Y (c.s * i) fun l => y l + beta * F l).map fun Y => { st with Y := Y })
        { st with Y := Y }) k i s1 = some s2 → P s2 := by
    intro k
    induction k with
    | zero => intro i s1 s2 _ h1 hl; simp only [loopUp, Option.some.injEq] at hl; exact hl ▸ h1
    | succ k ih =>
      intro i s1 s2 hik h1 hl
      simp only [loopUp] at hl
      rcases hY : wrN s1.Y (c.s * i) u with _ | Y
      · rw [hY] at hl; cases hl
      rw [hY, Option.bind_some] at hl
      push_cast at hik
      obtain ⟨s3, h3, h4⟩ := Option.bind_eq_some_iff.1 hl
      exact ih (i + 1) s3 s2 (by omega) (loopUp_inv_some P (inner i (by omega)) _ _
        ((hw _ _ _ _ (by omega) hY).trans h1) h3) h4
  exact gen _ 0 st st' (by omega) rfl h

/-- C72 is violated: a first call with `firstStep` false and step size 1 (the initial `Old_h`) extrapolates
from memory which was never written.  With as many components as stages, two contents of this memory give
different starting values. -/
theorem symp_ext_uninit {t : GTab} (ht : t ∈ gaussD ++ gaussL) (hn : t.s = n) (itermax : ℤ)
    (f : (Fin n → ℝ) → Fin n → ℝ) (u : Fin n → ℝ) (junk : St ℝ n) (x : ℝ) :
    ∃ st st', construct (cfgR t itermax f) { junk with Y1 := ⟨0, fun _ => x⟩ } = some (.ok st) ∧
      (cfgR t itermax f).eq st.oldH 1 ∧ ext (cfgR t itermax f) u st = some st' ∧
      ∃ w : ℝ, 1 / 2 ≤ w ∧ ∀ l, row st'.Y 0 l = u l + w * x := by
  have hT := cfgR_tab ht itermax f
  have hS := cfgR_scal t itermax f
  have hs0 : 0 < t.s := by have := mem_s ht; omega
  obtain ⟨st, hst⟩ := (symp_construct (c := cfgR t itermax f) hT.la.le hT.lb.le hT.lc.le
    { junk with Y1 := ⟨0, fun _ => x⟩ }).2 ⟨hT.two, hT.max⟩
  obtain ⟨inv, -, -⟩ := construct_inv hT hS hst
  obtain ⟨hY1, hold⟩ : (∀ k, st.Y1.cell k = x) ∧ st.oldH = 1 := by
    unfold construct at hst
    have h2 : ¬ ¬ (2 ≤ (cfgR t itermax f).s ∧ (cfgR t itermax f).s ≤ 16) := not_not.2 ⟨hT.two, hT.max⟩
    rw [if_neg h2] at hst
    obtain ⟨q, -, hst⟩ := Option.bind_eq_some_iff.1 hst
    obtain ⟨ga, -, hst⟩ := Option.bind_eq_some_iff.1 hst
    obtain ⟨gb, -, hst⟩ := Option.bind_eq_some_iff.1 hst
    rw [Option.some.injEq, Except.ok.injEq] at hst
    subst hst
    exact ⟨fun _ => rfl, rfl⟩
  obtain ⟨st', h1, -, h2⟩ := symp_ext_square (c := cfgR t itermax f) hn u inv.wf
  refine ⟨st, st', hst, hold, h1, ∑ j, t.Q ⟨0, hs0⟩ j, ?_, fun l => ?_⟩
  · have hq := Q_spec (mem_shape ht).1 hs0 (mem_shape ht).2
    rw [← (shape_spec (mem_shape ht).1).2.2.2.2.2] at hq
    have : (0 : ℝ) ≤ (t.ic 0 : ℝ) / 10 ^ t.da := by positivity
    linarith [show (0 : ℝ) ≤ (t.ic ((⟨0, hs0⟩ : Fin t.s) : ℕ) : ℝ) / 10 ^ t.da from this]
  · rw [h2 0 hs0]
    show sumL _ (u l) t.s = _
    rw [sumL_real, Finset.sum_mul]
    congr 1
    refine Finset.sum_congr rfl fun j _ => ?_
    have hlt : 0 * t.s + (j : ℕ) < t.s * t.s := by
      have := j.2
      nlinarith
    have e1 : st.q.cell ((0 * t.s + j : ℕ) : ℤ) = t.lc.getD (0 * t.s + j) 0 * st.oldH := inv.coef.q _ hlt
    have e2 : t.lc.getD (0 * t.s + j) 0 = t.Q ⟨0, hs0⟩ j := lc_getD (mem_shape ht).1 ⟨0, hs0⟩ j
    rw [e2, hold, mul_one] at e1
    show st.q.cell ((0 * t.s + j : ℕ) : ℤ) * st.Y1.cell _ = _
    rw [e1, hY1]

/-! ### examples -/

/-- free particle: `q' = p`, `p' = 0`. -/
def free (y : Fin 2 → ℝ) : Fin 2 → ℝ := ![y 1, 0]

theorem gaussD2_mem : gaussD2 ∈ gaussD ++ gaussL := by simp [gaussD]

/-- hypotheses of the theorems are met: with any memory contents the object exists, and a first call
succeeds for every step size and every initial value. -/
theorem free_step (junk : St ℝ 2) (h : ℝ) (u : Fin 2 → ℝ) :
    ∃ st, construct (cfgR gaussD2 10 free) junk = some (.ok st) ∧
      ∃ u' st', step (cfgR gaussD2 10 free) h u true st = some (true, u', st') := by
  have hT := cfgR_tab gaussD2_mem 10 free
  have hS := cfgR_scal gaussD2 10 free
  obtain ⟨st, hst⟩ := (symp_construct (c := cfgR gaussD2 10 free) hT.la.le hT.lb.le hT.lc.le junk).2
    ⟨hT.two, hT.max⟩
  refine ⟨st, hst, ?_⟩
  have hist : Hist _ st := Hist.new hst
  rcases hs : step (cfgR gaussD2 10 free) h u true st with _ | ⟨r, u', st'⟩
  · have := ((symp_defined_iff hT hS hist h u true).1 hs).2.1
    cases this
  · cases r
    · obtain ⟨Y0, -, hno⟩ := symp_false hT hS hist hs
      refine absurd ?_ (hno 3 (by show 3 < (10 : ℤ).toNat; decide))
      refine stop_of_fixed (small_zero _ _ _) (m := 2) fun i hi => ?_
      set A : ℕ → ℕ → ℝ := fun i j => (cfgR gaussD2 10 free).la.getD (i * (cfgR gaussD2 10 free).s + j) 0 *
        (cfgR gaussD2 10 free).narrow h
      have e1 : ∀ Y : ℕ → Fin 2 → ℝ, ∀ i, sweep A (cfgR gaussD2 10 free).s free u Y i 1 = u 1 := by
        intro Y i
        show sumL _ _ _ = _
        rw [sumL_real]
        simp [free]
      have e2 : ∀ Y Z : ℕ → Fin 2 → ℝ, (∀ j, Y j 1 = Z j 1) →
          sweep A (cfgR gaussD2 10 free).s free u Y = sweep A (cfgR gaussD2 10 free).s free u Z := by
        intro Y Z hYZ
        funext i l
        exact sumL_congr fun j _ => by simp only [free, hYZ j]
      exact congrFun (e2 _ _ fun j => (e1 _ j).trans (e1 _ j).symm) i
    · exact ⟨u', st', rfl⟩

/-- the square of the momentum is a quadratic first integral of the free particle. -/
noncomputable def pp : (Fin 2 → ℝ) →ₗ[ℝ] (Fin 2 → ℝ) →ₗ[ℝ] ℝ :=
  LinearMap.mk₂ ℝ (fun y z => y 1 * z 1) (by intros; simp; ring) (by intros; simp; ring)
    (by intros; simp; ring) (by intros; simp; ring)

theorem pp_quad : Quad pp free := ⟨fun x y => by simp [pp, mul_comm], fun y => by simp [pp, free]⟩

/-- harmonic oscillator and its energy. -/
noncomputable def osc (y : Fin 2 → ℝ) : Fin 2 → ℝ := ![y 1, - y 0]

@[inherit_doc osc] noncomputable def oscB : (Fin 2 → ℝ) →ₗ[ℝ] (Fin 2 → ℝ) →ₗ[ℝ] ℝ :=
  LinearMap.mk₂ ℝ (fun y z => y 0 * z 0 + y 1 * z 1) (by intros; simp; ring) (by intros; simp; ring)
    (by intros; simp; ring) (by intros; simp; ring)

theorem oscB_quad : Quad oscB osc :=
  ⟨fun x y => by simp [oscB]; ring, fun y => by simp [oscB, osc]; ring⟩

example (junk : St ℝ 2) (h : ℝ) (u : Fin 2 → ℝ) : ∃ st u' st',
    Hist (cfgR gaussD2 10 free) st ∧ Tab (cfgR gaussD2 10 free) ∧ Scal (cfgR gaussD2 10 free) ∧
    Quad pp free ∧ step (cfgR gaussD2 10 free) h u true st = some (true, u', st') ∧
    Steps (cfgR gaussD2 10 free) |h| 1 u st u' st' := by
  obtain ⟨st, h1, u', st', h2⟩ := free_step junk h u
  exact ⟨st, u', st', Hist.new h1, cfgR_tab gaussD2_mem 10 free, cfgR_scal _ _ _, pp_quad, h2,
    Steps.succ h true le_rfl (Steps.zero u st) h2⟩

end Odes.Symp
