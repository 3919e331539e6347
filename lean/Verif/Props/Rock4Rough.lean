import Verif.Lemmas.RockRough
import Verif.Props.Rock4LMain
import Mathlib.Analysis.SpecialFunctions.Exponential

/-!
# C108: error of the linear ROCK4 solver without smoothness of the data

C103 bounds the error by derivatives of the solution at the beginning; these are of the size of powers
of `ρ` when the initial value is rough (random data, a step).  Here only the size of the initial value
enters: the formulas with at most 63 stages damp every fast component, so that after `N` steps the error
is of the order `1/N^4`, whatever the initial value, the dimension and the stiffness.
-/

namespace Odes

open Matrix
open Rock4 (Sel)
open Spec

variable {n : ℕ}

/-- the bound, relative to the distance from the equilibrium. -/
noncomputable def roughBound (N : ℕ) : ℝ := 2.25 / (N : ℝ) ^ 4 + 4 * 0.97 ^ N + 1e-13

/-- with at most 63 stages needed, the degree is at most 59. -/
theorem chosen_small {ρ h : ℝ} {d mz mr : ℤ} (hc : Rock4L.Chosen ρ h d mz mr)
    (hn : Rock4L.need ρ h ≤ 63) : d ≤ 59 :=
  hc.2.2 59 (by decide +kernel) (by omega)

/-- the formula chosen, at `z = -x`. -/
theorem chosen_near {ρ h : ℝ} {d mz mr : ℤ} (hc : Rock4L.Chosen ρ h d mz mr)
    (hn : d ≤ 59) {x : ℝ} (h0 : 0 ≤ x) (h1 : x ≤ h * ρ) :
    NearAt (amp (Rock4L.formulaOf Rock4L.shipped d mz mr) (-x)) x ∧
    |amp (Rock4L.formulaOf Rock4L.shipped d mz mr) (-x)| ≤ 1 ∧
    (1 < x → |amp (Rock4L.formulaOf Rock4L.shipped d mz mr) (-x)| ≤ 0.97) := by
  have hx : -stabLen d ≤ -x := by linarith [chosen_covers hc]
  have hz : -x ≤ 0 := by linarith
  refine ⟨?_, ?_, fun h2 => rock4l_damped hc.1 hn _ hx (by linarith)⟩
  · have := (rock4_near_exp hc.1).2 (-x) hx hz
    rw [abs_neg, abs_of_nonneg h0] at this
    exact this
  · have := rock4l_amp_le hc.1 (-x) hx hz
    rwa [betD_one (not_mem_60 d (Rock4L.Sel.mem hc.1) (by omega))] at this

/-- an equilibrium is a fixed point of every step. -/
theorem step_equilibrium (R : Gen.Formula ℝ) {A : Matrix (Fin n) (Fin n) ℝ} {b ye : Fin n → ℝ}
    (he : A *ᵥ ye + b = 0) (φ : (Fin n → ℝ) →ₗ[ℝ] ℝ) {lam : ℝ} (hφ : ∀ v, φ (A *ᵥ v) = lam * φ v)
    (h : ℝ) (v : Fin n → ℝ) :
    φ (Gen.step R (fun v => A *ᵥ v + b) h v - ye) = amp R (h * lam) * φ (v - ye) := by
  have h1 := step_mode R A b φ hφ h v
  have h2 : φ (A *ᵥ ye + b) = lam * φ ye + φ b := by rw [map_add, hφ]
  have h3 : φ (A *ᵥ v + b) = lam * φ v + φ b := by rw [map_add, hφ]
  rw [he, map_zero] at h2
  rw [map_sub, h1, amp_psi, map_sub, h3]
  linear_combination -(h * (psi R).eval (h * lam)) * h2

theorem steps_equilibrium (R : Gen.Formula ℝ) {A : Matrix (Fin n) (Fin n) ℝ} {b ye : Fin n → ℝ}
    (he : A *ᵥ ye + b = 0) (φ : (Fin n → ℝ) →ₗ[ℝ] ℝ) {lam : ℝ} (hφ : ∀ v, φ (A *ᵥ v) = lam * φ v)
    (h : ℝ) (v : Fin n → ℝ) (N : ℕ) :
    φ ((Gen.step R (fun v => A *ᵥ v + b) h)^[N] v - ye) = amp R (h * lam) ^ N * φ (v - ye) := by
  induction N with
  | zero => simp
  | succ N ih => rw [Function.iterate_succ_apply', step_equilibrium R he φ hφ, ih, pow_succ']; ring

theorem Solution.equilibrium {A : Matrix (Fin n) (Fin n) ℝ} {b ye : Fin n → ℝ} {y : ℝ → Fin n → ℝ}
    (hy : Solution A b y) (he : A *ᵥ ye + b = 0) {φ : (Fin n → ℝ) →ₗ[ℝ] ℝ} {lam : ℝ}
    (hφ : ∀ v, φ (A *ᵥ v) = lam * φ v) (t s : ℝ) :
    φ (y (t + s) - ye) = Real.exp (s * lam) * φ (y t - ye) := by
  have h1 := (hy.mode_exact hφ t s).2
  have h2 : φ (A *ᵥ ye + b) = lam * φ ye + φ b := by rw [map_add, hφ]
  have h3 : φ (A *ᵥ y t + b) = lam * φ (y t) + φ b := by rw [map_add, hφ]
  rw [he, map_zero] at h2
  have h4 := phi1_mul (s * lam)
  rw [map_sub, map_sub, h1, h3]
  linear_combination (φ (y t) - φ ye) * h4 - (s * phi1 (s * lam)) * h2

/-- `N` steps with one formula and a last step with another. -/
theorem rough_steps {w : Fin n → ℝ} {A : Matrix (Fin n) (Fin n) ℝ} {ρ h l : ℝ} (hA : SymSpec w A ρ)
    {b ye : Fin n → ℝ} (he : A *ᵥ ye + b = 0) {y : ℝ → Fin n → ℝ} (hy : Solution A b y) {N : ℕ} (hN : 1 ≤ N)
    (hh : 0 < h) (l1 : 0 < l) (l2 : l ≤ 1.01 * h) {a b1 c a' b1' c' : ℤ} (r2 : Rock4L.Chosen ρ h a b1 c)
    (r3 : Rock4L.Chosen ρ l a' b1' c') (n1 : a ≤ 59) (n2 : a' ≤ 59) (t0 : ℝ) :
    wnorm2 w (Gen.step (Rock4L.formulaOf Rock4L.shipped a' b1' c') (fun v => A *ᵥ v + b) l
      ((Gen.step (Rock4L.formulaOf Rock4L.shipped a b1 c) (fun v => A *ᵥ v + b) h)^[N] (y t0))
        - y (t0 + (N * h + l))) ≤ roughBound N * wnorm2 w (y t0 - ye) := by
  set te := t0 + (N * h + l) with e1
  obtain ⟨φ, lam, hφ, hval, hsum⟩ := hA.modes
  have hB0 : 0 ≤ roughBound N := by unfold roughBound; positivity
  have key : ∀ k, |φ k (Gen.step (Rock4L.formulaOf Rock4L.shipped a' b1' c') (fun v => A *ᵥ v + b) l
      ((Gen.step (Rock4L.formulaOf Rock4L.shipped a b1 c) (fun v => A *ᵥ v + b) h)^[N] (y t0)) - y te)|
      ≤ roughBound N * |φ k (y t0 - ye)| := by
    intro k
    have e2 := step_equilibrium (Rock4L.formulaOf Rock4L.shipped a' b1' c') he (φ k) (hφ k) l
      ((Gen.step (Rock4L.formulaOf Rock4L.shipped a b1 c) (fun v => A *ᵥ v + b) h)^[N] (y t0))
    rw [steps_equilibrium _ he (φ k) (hφ k)] at e2
    have e3 := hy.equilibrium he (hφ k) t0 (N * h + l)
    rw [← e1] at e3
    have e4 : ∀ u : Fin n → ℝ, φ k (u - y te) = φ k (u - ye) - φ k (y te - ye) := fun u => by
      rw [map_sub, map_sub, map_sub]; ring
    rw [e4, e2, e3]
    have hx0 : 0 ≤ h * -lam k := mul_nonneg hh.le (by linarith [(hval k).1])
    have hu0 : 0 ≤ l * -lam k := mul_nonneg l1.le (by linarith [(hval k).1])
    have c1 := chosen_near r2 n1 hx0 (mul_le_mul_of_nonneg_left (by linarith [(hval k).2]) hh.le)
    have c2 := chosen_near r3 n2 hu0 (mul_le_mul_of_nonneg_left (by linarith [(hval k).2]) l1.le)
    have e5 : -(h * -lam k) = h * lam k := by ring
    have e6 : -(l * -lam k) = l * lam k := by ring
    rw [e5] at c1
    rw [e6] at c2
    have hul : l * -lam k ≤ 1.01 * (h * -lam k) := by
      have := mul_le_mul_of_nonneg_right l2 (by linarith [(hval k).1] : 0 ≤ -lam k)
      linarith
    have h1 := rough_mode c1.1 hx0 c1.2.2 c2.1 hu0 c2.2.1 hul hN
    have e7 : -(N * (h * -lam k) + l * -lam k) = (N * h + l) * lam k := by ring
    rw [e7] at h1
    rw [← mul_assoc, ← sub_mul, abs_mul]
    exact mul_le_mul_of_nonneg_right h1 (abs_nonneg _)
  unfold wnorm2
  rw [hsum, hsum]
  have eB : roughBound N = √(roughBound N ^ 2) := (Real.sqrt_sq hB0).symm
  rw [eB, ← Real.sqrt_mul (sq_nonneg _), Finset.mul_sum]
  refine Real.sqrt_le_sqrt (Finset.sum_le_sum fun k _ => ?_)
  rw [← mul_pow, ← sq_abs, ← sq_abs (roughBound N * _), abs_mul (roughBound N), abs_of_nonneg hB0]
  exact pow_le_pow_left₀ (abs_nonneg _) (key k) 2

/-- every linear problem has a solution. -/
theorem exists_solution (A : Matrix (Fin n) (Fin n) ℝ) (y0 : Fin n → ℝ) :
    ∃ y, Solution A 0 y ∧ y 0 = y0 := by
  let L : (Fin n → ℝ) →L[ℝ] (Fin n → ℝ) := LinearMap.toContinuousLinearMap (Matrix.mulVecLin A)
  refine ⟨fun t => NormedSpace.exp (t • L) y0, fun t => ?_, ?_⟩
  · have h := (hasDerivAt_exp_smul_const' (𝕂 := ℝ) L t).clm_apply (hasDerivAt_const t y0)
    simp only [map_zero, add_zero] at h
    rw [add_zero]
    exact h
  · simp

/-- C108: **the error of a whole call of the linear solver for an arbitrary initial value**.  If at most
63 stages are needed, the call makes `N ≥ 1` full steps and a last one, and `ye` is an equilibrium, then
the result differs from the solution by at most
`(2.25/N^4 + 4 * 0.97^N + 1e-13) ‖y(t0) - ye‖`. -/
theorem rock4l_rough_error {aff : Bool} {O : Rock4L.Oper X n} {T : Rock4L.Tab X}
    {A : Matrix (Fin n) (Fin n) ℝ} (hok : Rock4L.Ok aff O T A Rock4L.shipped) {te t0 h ρ : ℝ}
    (hL : t0 < te) (hh : 0 < h)
    (hρ : 0 ≤ ρ) (hbig : 1.01 * h * ρ ≤ 1e18) (o : Rock4L.St n) (hu : o.uround = 1.0e-16) (p q : ℕ)
    (hp : 4 ≤ p) (hq : 4 ≤ q) (b : Fin n → ℝ) (hb : aff = true → o.heap q = Rock4L.up b ∧ q ≠ p)
    (hb0 : aff = false → b = 0)
    {y : ℝ → Fin n → ℝ} (hy : Solution A b y) (hy0 : o.heap p = Rock4L.up (y t0))
    (hf : Rock4L.FullOk ρ h (Rock4L.fullSteps (te - t0) h))
    (hs : 1e-15 ≤ Rock4L.lastStep (te - t0) h)
    {w : Fin n → ℝ} (hA : SymSpec w A ρ) {ye : Fin n → ℝ} (he : A *ᵥ ye + b = 0)
    (hN : 1 ≤ Rock4L.fullSteps (te - t0) h)
    (n1 : Rock4L.need ρ h ≤ 63) (n2 : Rock4L.need ρ (Rock4L.lastStep (te - t0) h) ≤ 63) :
    ∃ s' y', Returns (Rock4L.step aff O T (X.fin te))
        (Rock4L.start o (X.fin ρ) p q (X.fin t0) (X.fin h)) s' ∧
      s'.t = X.fin te ∧ s'.heap p = Rock4L.up y' ∧
      wnorm2 w (y' - y te) ≤ roughBound (Rock4L.fullSteps (te - t0) h) * wnorm2 w (y t0 - ye) := by
  obtain ⟨s', a, b1, c, a', b1', c', r1, r2, r3, r4, -, r6, -⟩ := Rock4L.rock4l_run hok hL hh hρ hbig o hu
    p q hp hq (y t0) b hy0 hb hf hs (by omega)
  obtain ⟨l1, l2, -, l4⟩ := Rock4L.lastStep_bounds hh (sub_pos.2 hL)
  have hrhs : Rock4L.rhs aff A b = fun v => A *ᵥ v + b := by
    funext v
    cases aff with
    | true => simp [Rock4L.rhs]
    | false => rw [hb0 rfl]; simp [Rock4L.rhs]
  rw [hrhs] at r6
  set N := Rock4L.fullSteps (te - t0) h with hNd
  set l := Rock4L.lastStep (te - t0) h with hl
  refine ⟨s', _, r1, r4, r6, ?_⟩
  have e1 : te = t0 + (N * h + l) := by linarith
  rw [e1]
  exact rough_steps hA he hy hN hh l1 l2 (r2 hN) r3 (chosen_small (r2 hN) n1) (chosen_small r3 n2) t0

/-- the numbers in the hypotheses: `ρ = 2`, nine full steps `0.1` and a last one; an equilibrium of
`y' = -2 y + 1`. -/
example : Rock4L.fullSteps (1 - 0) 0.1 = 9 ∧ Rock4L.need 2 0.1 ≤ 63 ∧
    Rock4L.need 2 (Rock4L.lastStep (1 - 0) 0.1) ≤ 63 ∧ 1e-15 ≤ Rock4L.lastStep (1 - 0) 0.1 ∧
    (fun _ _ : Fin 1 => (-2 : ℝ)) *ᵥ (fun _ => 0.5) + (fun _ => 1) = 0 := by
  have h1 : Rock4L.fullSteps (1 - 0) 0.1 = 9 := by
    unfold Rock4L.fullSteps
    rw [Nat.ceil_eq_iff (by norm_num)]
    norm_num
  have h2 : Rock4L.lastStep (1 - 0) 0.1 = 0.1 := by
    unfold Rock4L.lastStep
    rw [h1]
    norm_num
  have h3 : Rock4L.need 2 0.1 ≤ 63 := by
    have : Rock4L.need 2 0.1 < 64 := by
      unfold Rock4L.need
      rw [Int.floor_lt]
      have : √((3 + 0.1 * 2) / 0.353) < 63 := by
        rw [Real.sqrt_lt' (by norm_num)]
        norm_num
      push_cast
      linarith
    omega
  refine ⟨h1, h3, by rw [h2]; exact h3, by rw [h2]; norm_num, ?_⟩
  funext i
  simp [Matrix.mulVec, dotProduct]
  norm_num

/-! ### the test program of Rock4L (C107) -/

namespace Rock4L.Main

open Test
open Spec.Rock4LMain (wt printed)

/-- the mean value, which is the equilibrium. -/
noncomputable def meanVal (y : Fin 100 → ℝ) : Fin 100 → ℝ := fun _ => (∑ i, wt 98 i * y i) / 99

theorem lap_meanVal (y : Fin 100 → ℝ) : lap ℝ 98 *ᵥ meanVal y = 0 := by
  funext i
  rw [lap_mulVec]
  simp [meanVal]
  intro _ _
  right
  ring

/-- C108 for the program: **from the ninth pass on, the result differs from the solution of the heat
equation by at most `roughBound` of the number of steps printed minus one**, relative to the distance of
the initial value from its mean.  This is the number the program should print. -/
theorem rock4l_main_error (l : ℕ) (h8 : 8 ≤ l) (hl : l < 30) (o : St 100) (hu : o.uround = 1.0e-16)
    (p q : ℕ) (hp : 4 ≤ p) (hq : 4 ≤ q) {y : ℝ → Fin 100 → ℝ} (hy : Solution (lap ℝ 98) 0 y)
    (hy0 : o.heap p = up (y 0)) :
    ∃ s' y', Returns body (first o p q l) s' ∧ s'.t = X.fin tinteg ∧ s'.heap p = up y' ∧
      wnorm2 (wt 98) (y' - y tinteg)
        ≤ roughBound ((printed.getD l (0, 0)).1 - 1) * wnorm2 (wt 98) (y 0 - meanVal (y 0)) := by
  obtain ⟨s', a, b1, c, a', b1', c', r1, r4, r6, -, -, hF, dA, dB, tA, tB, hdpos, hN, hlp⟩ :=
    main_run l hl o hu p q hp hq (y 0) hy0
  obtain ⟨-, l2, -, l4⟩ := lastStep_bounds (L := tinteg - 0) hdpos (by unfold tinteg; norm_num)
  refine ⟨s', _, r1, r4, r6, ?_⟩
  have hsm : ∀ l : Fin 30, 8 ≤ l.1 → (rows.getD l (0, 0, 0, 0, 0)).2.2.1 ≤ 59 ∧
      (rows.getD l (0, 0, 0, 0, 0)).2.2.2.2 ≤ 59 ∧
      (rows.getD l (0, 0, 0, 0, 0)).1 = (printed.getD l (0, 0)).1 - 1 := by decide +kernel
  obtain ⟨g1, g2, g3⟩ := hsm ⟨l, hl⟩ h8
  simp only at g1 g2 g3
  have h := rough_steps lap_spec98 (b := 0) (by rw [lap_meanVal (y 0), add_zero]) hy hN hdpos hlp l2 tA tB
    (by omega) (by omega) 0
  simp only [add_zero] at h
  have e : 0 + (fullSteps (tinteg - 0) (dt l) * dt l + lastStep (tinteg - 0) (dt l)) = tinteg := by
    rw [l4]; ring
  rw [e] at h
  rw [← g3, ← hF]
  exact h

theorem meanVal_init : wnorm2 (wt 98) (init 100 - meanVal (init 100)) ≤ 5 := by
  have h : ∀ i : Fin (98 + 2), wt 98 i * (init 100 - meanVal (init 100)) i ^ 2
      = (fun k : ℕ => (if k = 0 ∨ k = 99 then (1 / 2 : ℝ) else 1) *
        ((if k ≤ 50 then 0.9999999 else 0) - 50.5 * 0.9999999 / 99) ^ 2) i.1 := by
    intro i
    have : meanVal (init 100) i = 50.5 * 0.9999999 / 99 := by
      unfold meanVal
      rw [rock4l_main_init]
    rw [Pi.sub_apply, this]
    rfl
  unfold wnorm2
  rw [Finset.sum_congr rfl fun i _ => h i, Fin.sum_univ_eq_sum_range (fun k : ℕ =>
    (if k = 0 ∨ k = 99 then (1 / 2 : ℝ) else 1) *
        ((if k ≤ 50 then 0.9999999 else 0) - 50.5 * 0.9999999 / 99) ^ 2), Real.sqrt_le_left (by norm_num)]
  simp only [Finset.sum_range_succ, Finset.sum_range_zero]
  norm_num

/-- C108: in the last pass of the program, started from its initial value (a step), the error is
below `3e-12` (exact arithmetic). -/
theorem rock4l_main_last (o : St 100) (hu : o.uround = 1.0e-16) (p q : ℕ) (hp : 4 ≤ p) (hq : 4 ≤ q)
    {y : ℝ → Fin 100 → ℝ} (hy : Solution (lap ℝ 98) 0 y) (hy0 : y 0 = init 100)
    (ho : o.heap p = up (init 100)) :
    ∃ s' y', Returns body (first o p q 29) s' ∧ s'.t = X.fin tinteg ∧ s'.heap p = up y' ∧
      wnorm2 (wt 98) (y' - y tinteg) ≤ 3e-12 := by
  obtain ⟨s', y', h1, h2, h3, h4⟩ := rock4l_main_error 29 (by norm_num) (by norm_num) o hu p q hp hq hy
    (by rw [hy0]; exact ho)
  refine ⟨s', y', h1, h2, h3, h4.trans ?_⟩
  rw [hy0]
  have hb : roughBound ((printed.getD 29 (0, 0)).1 - 1) ≤ 5e-13 := by
    have e : (printed.getD 29 (0, 0)).1 - 1 = 1615 := rfl
    rw [e]
    unfold roughBound
    have h5 : (0.97 : ℝ) ^ 1615 ≤ 1e-20 := by
      have h6 : (0.97 : ℝ) ^ 23 ≤ 1 / 2 := by norm_num
      have h7 := pow_le_pow_left₀ (by positivity) h6 70
      have h8 : (0.97 : ℝ) ^ 1615 = (0.97 ^ 23) ^ 70 * 0.97 ^ 5 := by rw [← pow_mul, ← pow_add]
      have h9 : (0.97 : ℝ) ^ 5 ≤ 1 := pow_le_one₀ (by norm_num) (by norm_num)
      rw [h8]
      refine (mul_le_mul h7 h9 (by positivity) (by positivity)).trans ?_
      norm_num
    have h10 : (2.25 : ℝ) / ((1615 : ℕ) : ℝ) ^ 4 ≤ 3.4e-13 := by norm_num
    generalize (0.97 : ℝ) ^ 1615 = u at h5 ⊢
    generalize (2.25 : ℝ) / ((1615 : ℕ) : ℝ) ^ 4 = v at h10 ⊢
    norm_num at h5 h10 ⊢
    linarith
  refine (mul_le_mul hb meanVal_init (wnorm2_nonneg _ _) (by norm_num)).trans ?_
  norm_num

/-- the solution exists: hypotheses met. -/
example : ∃ y, Solution (lap ℝ 98) 0 y ∧ y 0 = init 100 := exists_solution _ _

end Rock4L.Main

end Odes
