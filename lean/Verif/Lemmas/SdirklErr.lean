import Verif.Lemmas.SdirklOrder
import Mathlib.Analysis.Matrix.Normed
import Mathlib.Analysis.Calculus.MeanValue
import Mathlib.Analysis.Calculus.Deriv.Pow
import Mathlib.Analysis.Calculus.Deriv.Mul
import Mathlib.Analysis.Calculus.Deriv.Add
import Mathlib.Topology.Order.Compact

/-!
# Local error of the step
-/

namespace Odes.Spec

open Matrix Finset

attribute [local instance] Matrix.linftyOpNormedAddCommGroup Matrix.linftyOpNormedRing
  Matrix.linftyOpNormedAlgebra

variable {n s : ℕ}

/-- a matrix is a bounded map. -/
theorem exists_bound (L : Matrix (Fin n) (Fin n) ℝ) :
    ∃ K : ℝ, 0 ≤ K ∧ ∀ v : Fin n → ℝ, ‖L *ᵥ v‖ ≤ K * ‖v‖ :=
  ⟨‖L‖, norm_nonneg _, fun v => Matrix.linfty_opNorm_mulVec L v⟩

theorem pow_bound {L : Matrix (Fin n) (Fin n) ℝ} {K : ℝ} (hK0 : 0 ≤ K)
    (hK : ∀ v : Fin n → ℝ, ‖L *ᵥ v‖ ≤ K * ‖v‖) (p : ℕ) (v : Fin n → ℝ) :
    ‖(L ^ p) *ᵥ v‖ ≤ K ^ p * ‖v‖ := by
  induction p generalizing v with
  | zero => simp
  | succ p ih =>
    rw [pow_succ, ← Matrix.mulVec_mulVec, pow_succ, mul_assoc]
    exact (ih _).trans (mul_le_mul_of_nonneg_left (hK v) (pow_nonneg hK0 p))

theorem norm_sum_smul_le (c : Fin s → ℝ) (Z : Fin s → Fin n → ℝ) :
    ‖∑ j, c j • Z j‖ ≤ (∑ j, |c j|) * ‖Z‖ := by
  rw [Finset.sum_mul]
  refine (norm_sum_le _ _).trans (Finset.sum_le_sum fun j _ => ?_)
  rw [norm_smul, Real.norm_eq_abs]
  exact mul_le_mul_of_nonneg_left (norm_le_pi_norm Z j) (abs_nonneg _)

/-- the step is its expansion up to `C (|u| + |g|) dt^(p+1)`. -/
theorem IsZStep.near_unif (A : Fin s → Fin s → ℝ) (S D : Fin s → ℝ) (L : Matrix (Fin n) (Fin n) ℝ)
    (p : ℕ) : ∃ C h0 : ℝ, 0 ≤ C ∧ 0 < h0 ∧ ∀ g u : Fin n → ℝ, ∀ dt, 0 ≤ dt → dt ≤ h0 → ∀ u',
      IsZStep A S D dt L g u u' →
      ‖u' - (u + ∑ k ∈ range p, (weight A S D k * dt ^ (k + 1)) • ((L ^ k) *ᵥ (L *ᵥ u + g)))‖
        ≤ C * (‖u‖ + ‖g‖) * dt ^ (p + 1) := by
  obtain ⟨K, hK0, hK⟩ := exists_bound L
  set a : ℝ := ∑ i, ∑ j, |A i j| with ha
  set σ : ℝ := ∑ i, |S i| with hσ
  set δ : ℝ := ∑ i, |powD A D p i| with hδ
  have a0 : 0 ≤ a := Finset.sum_nonneg fun i _ => Finset.sum_nonneg fun j _ => abs_nonneg _
  have σ0 : 0 ≤ σ := Finset.sum_nonneg fun i _ => abs_nonneg _
  have δ0 : 0 ≤ δ := Finset.sum_nonneg fun i _ => abs_nonneg _
  refine ⟨K ^ p * (δ * (2 * (σ * (K + 1)))), 1 / (2 * (K * a + 1)), by positivity,
    by positivity, ?_⟩
  intro g u dt hdt0 hdt u' h
  obtain ⟨Z, hZ, hu⟩ := h.expand
  have hz : ‖Z‖ ≤ dt * (K * (σ * ‖u‖ + a * ‖Z‖) + σ * ‖g‖) := by
    rw [pi_norm_le_iff_of_nonneg (by positivity)]
    intro i
    have hSi : |S i| ≤ σ := Finset.single_le_sum (f := fun i => |S i|)
      (fun i _ => abs_nonneg _) (Finset.mem_univ i)
    have hAi : ∑ j, |A i j| ≤ a := Finset.single_le_sum (f := fun i => ∑ j, |A i j|)
      (fun i _ => Finset.sum_nonneg fun j _ => abs_nonneg _) (Finset.mem_univ i)
    have h1 : ‖S i • u + ∑ j, A i j • Z j‖ ≤ σ * ‖u‖ + a * ‖Z‖ := by
      refine (norm_add_le _ _).trans (add_le_add ?_ ?_)
      · rw [norm_smul, Real.norm_eq_abs]
        exact mul_le_mul_of_nonneg_right hSi (norm_nonneg _)
      · exact (norm_sum_smul_le (A i) Z).trans (mul_le_mul_of_nonneg_right hAi (norm_nonneg _))
    rw [hZ i]
    refine (norm_add_le _ _).trans ?_
    rw [norm_smul, norm_smul, Real.norm_eq_abs, Real.norm_eq_abs, abs_mul, abs_of_nonneg hdt0,
      mul_add, mul_assoc]
    refine add_le_add (mul_le_mul_of_nonneg_left ?_ hdt0) (mul_le_mul_of_nonneg_left ?_ hdt0)
    · exact (hK _).trans (mul_le_mul_of_nonneg_left h1 hK0)
    · exact mul_le_mul_of_nonneg_right hSi (norm_nonneg _)
  have hda : dt * (K * a) ≤ 1 / 2 := by
    have hpos : 0 < 2 * (K * a + 1) := by positivity
    rw [le_div_iff₀ hpos] at hdt
    nlinarith
  have hz2 : ‖Z‖ ≤ dt * (2 * (σ * (K * ‖u‖ + ‖g‖))) := by
    have : dt * (K * a) * ‖Z‖ ≤ 1 / 2 * ‖Z‖ := mul_le_mul_of_nonneg_right hda (norm_nonneg _)
    nlinarith
  have e : u' - (u + ∑ k ∈ range p, (weight A S D k * dt ^ (k + 1)) • ((L ^ k) *ᵥ (L *ᵥ u + g)))
      = dt ^ p • ((L ^ p) *ᵥ ∑ i, powD A D p i • Z i) := by
    rw [hu p]; abel
  rw [e, norm_smul, Real.norm_eq_abs, abs_of_nonneg (pow_nonneg hdt0 p)]
  calc dt ^ p * ‖(L ^ p) *ᵥ ∑ i, powD A D p i • Z i‖
      ≤ dt ^ p * (K ^ p * (δ * (dt * (2 * (σ * (K * ‖u‖ + ‖g‖)))))) := by
        refine mul_le_mul_of_nonneg_left ((pow_bound hK0 hK p _).trans ?_) (pow_nonneg hdt0 p)
        refine mul_le_mul_of_nonneg_left ?_ (pow_nonneg hK0 p)
        exact (norm_sum_smul_le _ Z).trans (mul_le_mul_of_nonneg_left hz2 δ0)
    _ = K ^ p * (δ * (2 * (σ * (K * ‖u‖ + ‖g‖)))) * dt ^ (p + 1) := by ring
    _ ≤ K ^ p * (δ * (2 * (σ * ((K + 1) * (‖u‖ + ‖g‖))))) * dt ^ (p + 1) := by
        have : K * ‖u‖ + ‖g‖ ≤ (K + 1) * (‖u‖ + ‖g‖) := by
          nlinarith [norm_nonneg u, norm_nonneg g, mul_nonneg hK0 (norm_nonneg g)]
        gcongr
    _ = _ := by ring

/-- the step is its expansion up to `C dt^(p+1)`. -/
theorem IsZStep.near (A : Fin s → Fin s → ℝ) (S D : Fin s → ℝ) (L : Matrix (Fin n) (Fin n) ℝ)
    (g u : Fin n → ℝ) (p : ℕ) : ∃ C h0 : ℝ, 0 ≤ C ∧ 0 < h0 ∧ ∀ dt, 0 ≤ dt → dt ≤ h0 → ∀ u',
      IsZStep A S D dt L g u u' →
      ‖u' - (u + ∑ k ∈ range p, (weight A S D k * dt ^ (k + 1)) • ((L ^ k) *ᵥ (L *ᵥ u + g)))‖
        ≤ C * dt ^ (p + 1) := by
  obtain ⟨C, h0, c0, hh, H⟩ := IsZStep.near_unif A S D L p
  exact ⟨C * (‖u‖ + ‖g‖), h0, by positivity, hh, H g u⟩

/-- Taylor expansion of the solution of `y' = L y + g`, with constants. -/
theorem sol_taylor_of {L : Matrix (Fin n) (Fin n) ℝ} {g : Fin n → ℝ} {y : ℝ → Fin n → ℝ}
    (hy : ∀ t, HasDerivAt y (L *ᵥ y t + g) t) {K M : ℝ} (hK0 : 0 ≤ K)
    (hK : ∀ v : Fin n → ℝ, ‖L *ᵥ v‖ ≤ K * ‖v‖) (hM : ∀ t ∈ Set.Icc (0 : ℝ) 1, ‖L *ᵥ y t + g‖ ≤ M) (p : ℕ) :
    ∀ t, 0 ≤ t → t ≤ 1 →
      ‖y t - (y 0 + ∑ k ∈ range p, (1 / (k + 1).factorial * t ^ (k + 1)) •
        ((L ^ k) *ᵥ (L *ᵥ y 0 + g)))‖ ≤ M * K ^ p * t ^ (p + 1) := by
  have hc : Continuous y := continuous_iff_continuousAt.2 fun t => (hy t).continuousAt
  have hM0 : 0 ≤ M := (norm_nonneg _).trans (hM 0 (by norm_num))
  have main : ∀ p : ℕ, ∀ t ∈ Set.Icc (0 : ℝ) 1,
      ‖y t - (y 0 + ∑ k ∈ range p, ((1 / (k + 1).factorial : ℝ) * t ^ (k + 1)) •
        ((L ^ k) *ᵥ (L *ᵥ y 0 + g)))‖ ≤ M * K ^ p * t ^ (p + 1) := by
    intro p
    induction p with
    | zero =>
      have := image_norm_le_of_norm_deriv_right_le_deriv_boundary (a := (0 : ℝ)) (b := 1)
        (f := fun t => y t - y 0) (f' := fun t => L *ᵥ y t + g)
        (B := fun t => M * t) (B' := fun _ => M)
        (hc.sub continuous_const).continuousOn
        (fun x _ => ((hy x).sub_const _).hasDerivWithinAt) (by simp)
        (fun x => by simpa using (hasDerivAt_id x).const_mul M)
        (fun x hx => hM x ⟨hx.1, hx.2.le⟩)
      intro t ht
      simpa using this ht
    | succ p ih =>
      set w := L *ᵥ y 0 + g with hw
      have hd : ∀ t, HasDerivAt (fun t => y t - (y 0 + ∑ k ∈ range (p + 1),
          ((1 / (k + 1).factorial : ℝ) * t ^ (k + 1)) • ((L ^ k) *ᵥ w)))
          (L *ᵥ (y t - (y 0 + ∑ k ∈ range p,
          ((1 / (k + 1).factorial : ℝ) * t ^ (k + 1)) • ((L ^ k) *ᵥ w)))) t := by
        intro t
        have h1 : HasDerivAt (fun t => ∑ k ∈ range (p + 1),
            ((1 / (k + 1).factorial : ℝ) * t ^ (k + 1)) • ((L ^ k) *ᵥ w))
            (∑ k ∈ range (p + 1), ((1 / (k + 1).factorial : ℝ) * ((k + 1 : ℕ) * t ^ k)) •
              ((L ^ k) *ᵥ w)) t := by
          apply HasDerivAt.fun_sum
          intro k _
          have := ((hasDerivAt_pow (k + 1) t).const_mul (1 / (k + 1).factorial : ℝ)).smul_const
            ((L ^ k) *ᵥ w)
          simpa using this
        have h2 := (hy t).sub (h1.const_add (y 0))
        refine h2.congr_deriv ?_
        symm
        rw [Finset.sum_range_succ', Matrix.mulVec_sub, Matrix.mulVec_add, Matrix.mulVec_sum]
        have e : ∀ k ∈ range p, L *ᵥ (((1 / (k + 1).factorial : ℝ) * t ^ (k + 1)) • ((L ^ k) *ᵥ w))
            = ((1 / (k + 1 + 1).factorial : ℝ) * ((k + 1 + 1 : ℕ) * t ^ (k + 1))) •
              ((L ^ (k + 1)) *ᵥ w) := by
          intro k _
          rw [Matrix.mulVec_smul, Matrix.mulVec_mulVec, ← pow_succ']
          congr 1
          rw [Nat.factorial_succ (k + 1)]
          have : ((k + 1).factorial : ℝ) ≠ 0 := by positivity
          push_cast
          field_simp
        rw [Finset.sum_congr rfl e]
        simp only [pow_zero, Matrix.one_mulVec, Nat.zero_add, Nat.factorial_one, Nat.cast_one,
          mul_one, div_one, one_smul, hw]
        abel
      have := image_norm_le_of_norm_deriv_right_le_deriv_boundary (a := (0 : ℝ)) (b := 1)
        (B := fun t => M * K ^ (p + 1) * t ^ (p + 1 + 1))
        (B' := fun t => M * K ^ (p + 1) * ((p + 1 + 1 : ℕ) * t ^ (p + 1)))
        (fun t _ => (hd t).continuousAt.continuousWithinAt)
        (fun x _ => (hd x).hasDerivWithinAt) (by simp)
        (fun x => by simpa using (hasDerivAt_pow (p + 1 + 1) x).const_mul (M * K ^ (p + 1)))
        (fun x hx => by
          refine (hK _).trans ((mul_le_mul_of_nonneg_left (ih x ⟨hx.1, hx.2.le⟩) hK0).trans ?_)
          have h1 : 0 ≤ M * K ^ (p + 1) * x ^ (p + 1) :=
            mul_nonneg (by positivity) (pow_nonneg hx.1 _)
          have h2 : (1 : ℝ) ≤ ((p + 1 + 1 : ℕ) : ℝ) := by push_cast; linarith [Nat.cast_nonneg (α := ℝ) p]
          calc K * (M * K ^ p * x ^ (p + 1)) = 1 * (M * K ^ (p + 1) * x ^ (p + 1)) := by ring
            _ ≤ ((p + 1 + 1 : ℕ) : ℝ) * (M * K ^ (p + 1) * x ^ (p + 1)) :=
              mul_le_mul_of_nonneg_right h2 h1
            _ = _ := by ring)
      intro t ht
      exact this ht
  intro t h0 h1
  exact main p t ⟨h0, h1⟩

/-- Taylor expansion of the solution of `y' = L y + g`. -/
theorem sol_taylor {L : Matrix (Fin n) (Fin n) ℝ} {g : Fin n → ℝ} {y : ℝ → Fin n → ℝ}
    (hy : ∀ t, HasDerivAt y (L *ᵥ y t + g) t) (p : ℕ) :
    ∃ C : ℝ, 0 ≤ C ∧ ∀ t, 0 ≤ t → t ≤ 1 →
      ‖y t - (y 0 + ∑ k ∈ range p, (1 / (k + 1).factorial * t ^ (k + 1)) •
        ((L ^ k) *ᵥ (L *ᵥ y 0 + g)))‖ ≤ C * t ^ (p + 1) := by
  obtain ⟨K, hK0, hK⟩ := exists_bound L
  have hc : Continuous y := continuous_iff_continuousAt.2 fun t => (hy t).continuousAt
  obtain ⟨M, hM⟩ := (isCompact_Icc (a := (0 : ℝ)) (b := 1)).exists_bound_of_continuousOn
    (f := fun t => L *ᵥ y t + g)
    ((Continuous.add (Continuous.matrix_mulVec continuous_const hc) continuous_const).continuousOn)
  have hM0 : 0 ≤ M := (norm_nonneg _).trans (hM 0 (by norm_num))
  exact ⟨M * K ^ p, by positivity, sol_taylor_of hy hK0 hK hM p⟩

end Odes.Spec
