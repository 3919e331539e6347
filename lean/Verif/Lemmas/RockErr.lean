import Verif.Lemmas.AmpErr
import Verif.Lemmas.AmpNorm
import Mathlib.Analysis.Calculus.MeanValue
import Mathlib.Analysis.Calculus.Deriv.Comp
import Mathlib.Analysis.Calculus.Deriv.Shift
import Mathlib.Topology.Algebra.Module.FiniteDimension

/-!
# Error of a sequence of steps on `y' = A y + b`
-/

namespace Odes

open Matrix Spec

variable {n : ℕ}

/-- `y` solves `y' = A y + b`. -/
def Solution (A : Matrix (Fin n) (Fin n) ℝ) (b : Fin n → ℝ) (y : ℝ → Fin n → ℝ) : Prop :=
  ∀ t, HasDerivAt y (A *ᵥ y t + b) t

theorem Solution.mode {A : Matrix (Fin n) (Fin n) ℝ} {b : Fin n → ℝ} {y : ℝ → Fin n → ℝ}
    (hy : Solution A b y) (φ : (Fin n → ℝ) →ₗ[ℝ] ℝ) (t : ℝ) :
    HasDerivAt (fun t => φ (y t)) (φ (A *ᵥ y t + b)) t :=
  (LinearMap.toContinuousLinearMap φ).hasFDerivAt.comp_hasDerivAt t (hy t)

/-- the exact solution in the direction of a left eigenvector. -/
theorem Solution.mode_exact {A : Matrix (Fin n) (Fin n) ℝ} {b : Fin n → ℝ} {y : ℝ → Fin n → ℝ}
    (hy : Solution A b y) {φ : (Fin n → ℝ) →ₗ[ℝ] ℝ} {lam : ℝ} (hφ : ∀ v, φ (A *ᵥ v) = lam * φ v)
    (t h : ℝ) :
    φ (A *ᵥ y (t + h) + b) = Real.exp (h * lam) * φ (A *ᵥ y t + b) ∧
    φ (y (t + h)) = φ (y t) + h * phi1 (h * lam) * φ (A *ᵥ y t + b) := by
  have hF : ∀ v, φ (A *ᵥ v + b) = lam * φ v + φ b := fun v => by rw [map_add, hφ]
  have h1 : φ (A *ᵥ y (t + h) + b) = Real.exp (h * lam) * φ (A *ᵥ y t + b) := by
    let G : ℝ → ℝ := fun s => Real.exp (-lam * s) * φ (A *ᵥ y s + b)
    have hG : ∀ s, HasDerivAt G 0 s := by
      intro s
      have e1 : HasDerivAt (fun s => Real.exp (-lam * s)) (Real.exp (-lam * s) * (-lam * 1)) s :=
        ((hasDerivAt_id s).const_mul (-lam)).exp
      have e2 : HasDerivAt (fun s => φ (A *ᵥ y s + b)) (lam * φ (A *ᵥ y s + b)) s := by
        have := ((hy.mode φ s).const_mul lam).add_const (φ b)
        have e : (fun s => φ (A *ᵥ y s + b)) = fun s => lam * φ (y s) + φ b := funext fun s => hF _
        rw [e]; exact this
      have := e1.mul e2
      have e0 : Real.exp (-lam * s) * (-lam * 1) * φ (A *ᵥ y s + b)
          + Real.exp (-lam * s) * (lam * φ (A *ᵥ y s + b)) = 0 := by ring
      rw [e0] at this
      exact this
    have hc : G (t + h) = G t :=
      is_const_of_deriv_eq_zero (fun s => (hG s).differentiableAt) (fun s => (hG s).deriv) _ _
    have hc' : Real.exp (-lam * (t + h)) * φ (A *ᵥ y (t + h) + b)
        = Real.exp (-lam * t) * φ (A *ᵥ y t + b) := hc
    have e3 : Real.exp (-lam * t) = Real.exp (-lam * (t + h)) * Real.exp (h * lam) := by
      rw [← Real.exp_add]; congr 1; ring
    rw [e3, mul_assoc] at hc'
    exact mul_left_cancel₀ (Real.exp_pos _).ne' hc'
  refine ⟨h1, ?_⟩
  by_cases h0 : lam = 0
  · subst h0
    rw [mul_zero, phi1, if_pos rfl, mul_one, hF, zero_mul, zero_add]
    let D : ℝ → ℝ := fun s => φ (y s) - s * φ b
    have hD : ∀ s, HasDerivAt D 0 s := by
      intro s
      have := (hy.mode φ s).sub ((hasDerivAt_id s).mul_const (φ b))
      have e0 : φ (A *ᵥ y s + b) - 1 * φ b = 0 := by rw [hF]; ring
      rw [e0] at this
      exact this
    have hc : D (t + h) = D t :=
      is_const_of_deriv_eq_zero (fun s => (hD s).differentiableAt) (fun s => (hD s).deriv) _ _
    have hc' : φ (y (t + h)) - (t + h) * φ b = φ (y t) - t * φ b := hc
    linarith
  · have h2 : lam * φ (y (t + h)) = lam * (φ (y t) + h * phi1 (h * lam) * φ (A *ᵥ y t + b)) := by
      have e1 := hF (y (t + h))
      have e2 := hF (y t)
      have e3 := phi1_mul (h * lam)
      have e4 : lam * (φ (y t) + h * phi1 (h * lam) * φ (A *ᵥ y t + b))
          = lam * φ (y t) + (h * lam * phi1 (h * lam)) * φ (A *ᵥ y t + b) := by ring
      rw [e4, e3]
      rw [h1] at e1
      linarith
    exact mul_left_cancel₀ h0 h2

/-- the slope does not grow. -/
theorem Solution.mode_decay {A : Matrix (Fin n) (Fin n) ℝ} {b : Fin n → ℝ} {y : ℝ → Fin n → ℝ}
    (hy : Solution A b y) {φ : (Fin n → ℝ) →ₗ[ℝ] ℝ} {lam : ℝ} (hφ : ∀ v, φ (A *ᵥ v) = lam * φ v)
    (hl : lam ≤ 0) (t : ℝ) {h : ℝ} (hh : 0 ≤ h) :
    |φ (A *ᵥ y (t + h) + b)| ≤ |φ (A *ᵥ y t + b)| := by
  rw [(hy.mode_exact hφ t h).1, abs_mul, abs_of_pos (Real.exp_pos _)]
  refine mul_le_of_le_one_left (abs_nonneg _) (Real.exp_le_one_iff.2 ?_)
  exact mul_nonpos_of_nonneg_of_nonpos hh hl

/-- one step, in the direction of a left eigenvector. -/
theorem Fine.mode_step {R : Gen.Formula ℝ} (f : Fine R) {A : Matrix (Fin n) (Fin n) ℝ} {b : Fin n → ℝ}
    {y : ℝ → Fin n → ℝ} (hy : Solution A b y) {φ : (Fin n → ℝ) →ₗ[ℝ] ℝ} {lam : ℝ}
    (hφ : ∀ v, φ (A *ᵥ v) = lam * φ v) (hl : lam ≤ 0) {h β : ℝ} (hh : 0 ≤ h) (hβ : β ≤ 1.15)
    (ha : |amp R (h * lam)| ≤ β) (t : ℝ) (v : Fin n → ℝ) :
    |φ (Gen.step R (fun v => A *ᵥ v + b) h v - y (t + h))|
      ≤ β * |φ (v - y t)| + h * dev (h * |lam|) * |φ (A *ᵥ y t + b)| := by
  have hz : h * lam ≤ 0 := mul_nonpos_of_nonneg_of_nonpos hh hl
  have h1 := f.psi_near hz (ha.trans hβ)
  rw [abs_mul, abs_of_nonneg hh] at h1
  have hF : ∀ v, φ (A *ᵥ v + b) = lam * φ v + φ b := fun v => by rw [map_add, hφ]
  have e : φ (Gen.step R (fun v => A *ᵥ v + b) h v - y (t + h))
      = amp R (h * lam) * φ (v - y t)
        + h * ((psi R).eval (h * lam) - phi1 (h * lam)) * φ (A *ᵥ y t + b) := by
    rw [map_sub, step_mode R A b φ hφ, (hy.mode_exact hφ t h).2, amp_psi, map_sub, hF, hF]
    ring
  rw [e]
  refine (abs_add_le _ _).trans (add_le_add ?_ ?_)
  · rw [abs_mul]
    exact mul_le_mul_of_nonneg_right ha (abs_nonneg _)
  · rw [abs_mul, abs_mul, abs_of_nonneg hh]
    exact mul_le_mul_of_nonneg_right (mul_le_mul_of_nonneg_left h1 hh) (abs_nonneg _)

theorem dev_mono {x x' : ℝ} (h0 : 0 ≤ x) (h : x ≤ x') : dev x ≤ dev x' := by
  unfold dev
  gcongr

theorem dev_nonneg {x : ℝ} (h0 : 0 ≤ x) : 0 ≤ dev x := by
  unfold dev
  positivity

/-- weighted Euclidean norm. -/
noncomputable def wnorm2 (w v : Fin n → ℝ) : ℝ := √(∑ i, w i * v i ^ 2)

theorem l2_add (p q : Fin n → ℝ) : √(∑ k, (p k + q k) ^ 2) ≤ √(∑ k, p k ^ 2) + √(∑ k, q k ^ 2) := by
  have h : ∀ v : Fin n → ℝ, √(∑ k, v k ^ 2) = ‖(WithLp.toLp 2 v : EuclideanSpace ℝ (Fin n))‖ := by
    intro v
    rw [EuclideanSpace.norm_eq]
    simp
  have e : (WithLp.toLp 2 (fun k => p k + q k) : EuclideanSpace ℝ (Fin n))
      = WithLp.toLp 2 p + WithLp.toLp 2 q := rfl
  rw [h, h, h, e]
  exact norm_add_le _ _

/-- the bound of the error in terms of the derivatives of the solution at the beginning. -/
noncomputable def errBound (w : Fin n → ℝ) (A : Matrix (Fin n) (Fin n) ℝ) (v : Fin n → ℝ) (H : ℝ) : ℝ :=
  1e-14 * (wnorm2 w v + H * wnorm2 w (A *ᵥ v) + H ^ 2 * wnorm2 w (A ^ 2 *ᵥ v)
    + H ^ 3 * wnorm2 w (A ^ 3 *ᵥ v)) + H ^ 4 / 50 * wnorm2 w (A ^ 4 *ᵥ v)

/-- from the directions to the norm. -/
theorem wnorm_of_modes {w : Fin n → ℝ} {A : Matrix (Fin n) (Fin n) ℝ} {φ : Fin n → (Fin n → ℝ) →ₗ[ℝ] ℝ}
    {lam : Fin n → ℝ} (hφ : ∀ k v, φ k (A *ᵥ v) = lam k * φ k v)
    (hsum : ∀ v, ∑ i, w i * v i ^ 2 = ∑ k, φ k v ^ 2) {C H : ℝ} (hC : 0 ≤ C) (hH : 0 ≤ H)
    {e v : Fin n → ℝ} (h : ∀ k, |φ k e| ≤ C * (dev (H * |lam k|) * |φ k v|)) :
    wnorm2 w e ≤ C * errBound w A v H := by
  have hpow : ∀ j k, φ k (A ^ j *ᵥ v) = lam k ^ j * φ k v := by
    intro j
    induction j with
    | zero => intro k; simp
    | succ j ih =>
      intro k
      rw [pow_succ', ← mulVec_mulVec, hφ, ih]; ring
  have hn : ∀ j, wnorm2 w (A ^ j *ᵥ v) = √(∑ k, (|lam k| ^ j * |φ k v|) ^ 2) := by
    intro j
    rw [wnorm2, hsum]
    congr 1
    refine Finset.sum_congr rfl fun k _ => ?_
    rw [hpow, ← sq_abs, abs_mul, abs_pow]
  have hsm : ∀ (c : ℝ) (p : Fin n → ℝ), 0 ≤ c → √(∑ k, (c * p k) ^ 2) = c * √(∑ k, p k ^ 2) := by
    intro c p hc
    have : ∑ k, (c * p k) ^ 2 = c ^ 2 * ∑ k, p k ^ 2 := by
      rw [Finset.mul_sum]; exact Finset.sum_congr rfl fun k _ => by ring
    rw [this, Real.sqrt_mul (sq_nonneg _), Real.sqrt_sq hc]
  have h1 : wnorm2 w e ≤ √(∑ k, (C * (dev (H * |lam k|) * |φ k v|)) ^ 2) := by
    rw [wnorm2, hsum]
    refine Real.sqrt_le_sqrt (Finset.sum_le_sum fun k _ => ?_)
    rw [← sq_abs]
    exact pow_le_pow_left₀ (abs_nonneg _) (h k) 2
  refine h1.trans ?_
  rw [hsm _ _ hC]
  refine mul_le_mul_of_nonneg_left ?_ hC
  have e0 := hn 0
  have e1 := hn 1
  rw [pow_one] at e1
  rw [pow_zero, one_mulVec] at e0
  unfold errBound
  rw [e0, e1, hn 2, hn 3, hn 4]
  have hexp : ∀ k, dev (H * |lam k|) * |φ k v| = (((1e-14 * (|lam k| ^ 0 * |φ k v|)
      + (1e-14 * H) * (|lam k| ^ 1 * |φ k v|)) + (1e-14 * H ^ 2) * (|lam k| ^ 2 * |φ k v|))
      + (1e-14 * H ^ 3) * (|lam k| ^ 3 * |φ k v|)) + (H ^ 4 / 50) * (|lam k| ^ 4 * |φ k v|) := by
    intro k; unfold dev; ring
  simp only [hexp]
  refine (l2_add _ _).trans ?_
  rw [hsm (H ^ 4 / 50) _ (by positivity)]
  have a3 := l2_add (fun k => 1e-14 * (|lam k| ^ 0 * |φ k v|)
      + (1e-14 * H) * (|lam k| ^ 1 * |φ k v|) + (1e-14 * H ^ 2) * (|lam k| ^ 2 * |φ k v|))
      (fun k => (1e-14 * H ^ 3) * (|lam k| ^ 3 * |φ k v|))
  have a2 := l2_add (fun k => 1e-14 * (|lam k| ^ 0 * |φ k v|)
      + (1e-14 * H) * (|lam k| ^ 1 * |φ k v|)) (fun k => (1e-14 * H ^ 2) * (|lam k| ^ 2 * |φ k v|))
  have a1 := l2_add (fun k => 1e-14 * (|lam k| ^ 0 * |φ k v|))
      (fun k => (1e-14 * H) * (|lam k| ^ 1 * |φ k v|))
  rw [hsm (1e-14 * H ^ 3) _ (by positivity)] at a3
  rw [hsm (1e-14 * H ^ 2) _ (by positivity)] at a2
  rw [hsm (1e-14 * H) _ (by positivity), hsm 1e-14 _ (by norm_num)] at a1
  linarith

theorem wnorm2_nonneg (w v : Fin n → ℝ) : 0 ≤ wnorm2 w v := Real.sqrt_nonneg _

theorem errBound_nonneg (w : Fin n → ℝ) (A : Matrix (Fin n) (Fin n) ℝ) (v : Fin n → ℝ) {H : ℝ}
    (hH : 0 ≤ H) : 0 ≤ errBound w A v H := by
  unfold errBound
  have h0 := wnorm2_nonneg w v
  have h1 := wnorm2_nonneg w (A *ᵥ v)
  have h2 := wnorm2_nonneg w (A ^ 2 *ᵥ v)
  have h3 := wnorm2_nonneg w (A ^ 3 *ᵥ v)
  have h4 := wnorm2_nonneg w (A ^ 4 *ᵥ v)
  generalize wnorm2 w v = x0 at *
  generalize wnorm2 w (A *ᵥ v) = x1 at *
  generalize wnorm2 w (A ^ 2 *ᵥ v) = x2 at *
  generalize wnorm2 w (A ^ 3 *ᵥ v) = x3 at *
  generalize wnorm2 w (A ^ 4 *ᵥ v) = x4 at *
  positivity

theorem errBound_mono (w : Fin n → ℝ) (A : Matrix (Fin n) (Fin n) ℝ) (v : Fin n → ℝ) {H H' : ℝ}
    (hH : 0 ≤ H) (h : H ≤ H') : errBound w A v H ≤ errBound w A v H' := by
  unfold errBound
  have h0 := wnorm2_nonneg w v
  have h1 := wnorm2_nonneg w (A *ᵥ v)
  have h2 := wnorm2_nonneg w (A ^ 2 *ᵥ v)
  have h3 := wnorm2_nonneg w (A ^ 3 *ᵥ v)
  have h4 := wnorm2_nonneg w (A ^ 4 *ᵥ v)
  generalize wnorm2 w v = x0 at *
  generalize wnorm2 w (A *ᵥ v) = x1 at *
  generalize wnorm2 w (A ^ 2 *ᵥ v) = x2 at *
  generalize wnorm2 w (A ^ 3 *ᵥ v) = x3 at *
  generalize wnorm2 w (A ^ 4 *ᵥ v) = x4 at *
  gcongr

/-- the derivatives of the solution do not grow. -/
theorem SymSpec.errBound_decay {w : Fin n → ℝ} {A : Matrix (Fin n) (Fin n) ℝ} {ρ : ℝ}
    (hA : SymSpec w A ρ) {b : Fin n → ℝ} {y : ℝ → Fin n → ℝ} (hy : Solution A b y) (t : ℝ) {h : ℝ}
    (hh : 0 ≤ h) {H : ℝ} (hH : 0 ≤ H) :
    errBound w A (A *ᵥ y (t + h) + b) H ≤ errBound w A (A *ᵥ y t + b) H := by
  obtain ⟨φ, lam, hφ, hval, hsum⟩ := hA.modes
  have key : ∀ j, wnorm2 w (A ^ j *ᵥ (A *ᵥ y (t + h) + b)) ≤ wnorm2 w (A ^ j *ᵥ (A *ᵥ y t + b)) := by
    intro j
    have hpow : ∀ v k, φ k (A ^ j *ᵥ v) = lam k ^ j * φ k v := by
      intro v
      induction j with
      | zero => intro k; simp
      | succ j ih =>
        intro k
        rw [pow_succ', ← mulVec_mulVec, hφ, ih]; ring
    rw [wnorm2, wnorm2, hsum, hsum]
    refine Real.sqrt_le_sqrt (Finset.sum_le_sum fun k _ => ?_)
    rw [hpow, hpow, mul_pow, mul_pow]
    refine mul_le_mul_of_nonneg_left ?_ (sq_nonneg _)
    rw [← sq_abs, ← sq_abs (φ k (A *ᵥ y t + b))]
    exact pow_le_pow_left₀ (abs_nonneg _) (hy.mode_decay (hφ k) (hval k).1 t hh) 2
  have k0 := key 0
  have k1 := key 1
  rw [pow_zero, one_mulVec, one_mulVec] at k0
  rw [pow_one] at k1
  have k2 := key 2
  have k3 := key 3
  have k4 := key 4
  unfold errBound
  gcongr

/-- one step, in the norm: the error before is multiplied by at most `β`, and at most
`h errBound h` is added. -/
theorem Fine.step_error {R : Gen.Formula ℝ} (f : Fine R) {w : Fin n → ℝ}
    {A : Matrix (Fin n) (Fin n) ℝ} {ρ : ℝ} (hA : SymSpec w A ρ) {b : Fin n → ℝ} {y : ℝ → Fin n → ℝ}
    (hy : Solution A b y) {h β : ℝ} (hh : 0 ≤ h) (h0 : 0 ≤ β) (hβ : β ≤ 1.15)
    (ha : ∀ z, -(h * ρ) ≤ z → z ≤ 0 → |amp R z| ≤ β) (t : ℝ) (v : Fin n → ℝ) :
    wnorm2 w (Gen.step R (fun v => A *ᵥ v + b) h v - y (t + h))
      ≤ β * wnorm2 w (v - y t) + h * errBound w A (A *ᵥ y t + b) h := by
  obtain ⟨φ, lam, hφ, hval, hsum⟩ := hA.modes
  have hz : ∀ k, |amp R (h * lam k)| ≤ β := fun k => ha _ (by nlinarith [(hval k).2])
    (mul_nonpos_of_nonneg_of_nonpos hh (hval k).1)
  have h1 : wnorm2 w (Gen.step R (fun v => A *ᵥ v + b) h (y t) - y (t + h))
      ≤ h * errBound w A (A *ᵥ y t + b) h := by
    refine wnorm_of_modes hφ hsum hh hh fun k => ?_
    have := f.mode_step hy (hφ k) (hval k).1 hh hβ (hz k) t (y t)
    rw [sub_self, map_zero, abs_zero, mul_zero, zero_add, mul_assoc] at this
    exact this
  have h2 : wnorm2 w (Gen.step R (fun v => A *ᵥ v + b) h v - Gen.step R (fun v => A *ᵥ v + b) h (y t))
      ≤ β * wnorm2 w (v - y t) := by
    rw [step_sub_affine]
    have := hA.step_norm R hh ha (v - y t)
    unfold wnorm2
    have eβ : β = √(β ^ 2) := (Real.sqrt_sq h0).symm
    rw [eβ, ← Real.sqrt_mul (sq_nonneg _)]
    exact Real.sqrt_le_sqrt this
  have h3 : wnorm2 w (Gen.step R (fun v => A *ᵥ v + b) h v - y (t + h))
      ≤ wnorm2 w (Gen.step R (fun v => A *ᵥ v + b) h v - Gen.step R (fun v => A *ᵥ v + b) h (y t))
        + wnorm2 w (Gen.step R (fun v => A *ᵥ v + b) h (y t) - y (t + h)) := by
    have e : Gen.step R (fun v => A *ᵥ v + b) h v - y (t + h)
        = (Gen.step R (fun v => A *ᵥ v + b) h v - Gen.step R (fun v => A *ᵥ v + b) h (y t))
        + (Gen.step R (fun v => A *ᵥ v + b) h (y t) - y (t + h)) := by abel
    rw [e]
    unfold wnorm2
    rw [hsum, hsum, hsum]
    simp only [map_add]
    exact l2_add _ _
  linarith

end Odes
