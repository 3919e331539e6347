import Verif.Lemmas.SdirklErr
import Mathlib.Analysis.SpecialFunctions.Exp

/-!
# From local to global errors
-/

namespace Odes.Spec

open Matrix Finset

/-- accumulation of local errors. -/
theorem accumulate {e : ℕ → ℝ} {a b : ℝ} (ha : 0 ≤ a) (hb : 0 ≤ b) (h0 : e 0 ≤ 0) {N : ℕ}
    (hs : ∀ k < N, e (k + 1) ≤ (1 + a) * e k + b) : ∀ k ≤ N, e k ≤ k * b * Real.exp (k * a) := by
  have key : ∀ k ≤ N, e k ≤ k * b * (1 + a) ^ k := by
    intro k
    induction k with
    | zero => intro _; simpa using h0
    | succ k ih =>
      intro hk
      have h1 := ih (by omega)
      have h2 : 1 ≤ (1 + a) ^ (k + 1) := one_le_pow₀ (by linarith)
      calc e (k + 1) ≤ (1 + a) * e k + b := hs k (by omega)
        _ ≤ (1 + a) * (k * b * (1 + a) ^ k) + b * (1 + a) ^ (k + 1) := by
          have := mul_le_mul_of_nonneg_left h1 (by linarith : 0 ≤ 1 + a)
          nlinarith
        _ = ((k + 1 : ℕ) : ℝ) * b * (1 + a) ^ (k + 1) := by push_cast; ring
  intro k hk
  refine (key k hk).trans (mul_le_mul_of_nonneg_left ?_ (by positivity))
  rw [Real.exp_nat_mul]
  have := Real.add_one_le_exp a
  exact pow_le_pow_left₀ (by linarith) (by linarith) k

variable {n s : ℕ}

/-- the local error, uniformly along a solution. -/
theorem IsZStep.local_unif {A : Fin s → Fin s → ℝ} {S D : Fin s → ℝ} {L : Matrix (Fin n) (Fin n) ℝ}
    {g : Fin n → ℝ} {y : ℝ → Fin n → ℝ} (hy : ∀ t, HasDerivAt y (L *ᵥ y t + g) t) {p : ℕ} {tol : ℝ}
    (hw : ∀ k < p, |weight A S D k - 1 / (k + 1).factorial| ≤ tol) (T : ℝ) :
    ∃ C h0 : ℝ, 0 ≤ C ∧ 0 < h0 ∧ ∀ t0, 0 ≤ t0 → t0 ≤ T → ∀ dt, 0 ≤ dt → dt ≤ h0 → ∀ u',
      IsZStep A S D dt L g (y t0) u' →
      ‖u' - y (t0 + dt)‖ ≤ C * dt ^ (p + 1)
        + ∑ k ∈ range p, tol * dt ^ (k + 1) * ‖(L ^ k) *ᵥ (L *ᵥ y t0 + g)‖ := by
  obtain ⟨K, hK0, hK⟩ := exists_bound L
  have hc : Continuous y := continuous_iff_continuousAt.2 fun t => (hy t).continuousAt
  obtain ⟨M, hM⟩ := (isCompact_Icc (a := (0 : ℝ)) (b := T + 1)).exists_bound_of_continuousOn
    (f := fun t => L *ᵥ y t + g)
    ((Continuous.add (Continuous.matrix_mulVec continuous_const hc) continuous_const).continuousOn)
  obtain ⟨Y, hY⟩ := (isCompact_Icc (a := (0 : ℝ)) (b := T + 1)).exists_bound_of_continuousOn
    hc.continuousOn
  obtain ⟨C1, h1, c1, hh, H1⟩ := IsZStep.near_unif A S D L p
  refine ⟨C1 * (|Y| + ‖g‖) + |M| * K ^ p, min h1 1, by positivity, lt_min hh one_pos, ?_⟩
  intro t0 ht0 htT dt hdt hdt2 u' hz
  have e1 := H1 g (y t0) dt hdt (hdt2.trans (min_le_left _ _)) _ hz
  have hy' : ∀ t, HasDerivAt (fun t => y (t0 + t)) (L *ᵥ y (t0 + t) + g) t := by
    intro t
    have := HasDerivAt.scomp t (hy (t0 + t)) ((hasDerivAt_id t).const_add t0)
    rw [one_smul] at this
    exact this
  have e2 := sol_taylor_of hy' hK0 hK (M := |M|)
    (fun t ht => (hM (t0 + t) ⟨by linarith [ht.1], by linarith [ht.2]⟩).trans (le_abs_self _)) p dt hdt
    (hdt2.trans (min_le_right _ _))
  simp only [add_zero] at e2
  generalize hv : L *ᵥ y t0 + g = v at *
  set W := fun k => weight A S D k with hW
  have e3 : ‖(y t0 + ∑ k ∈ range p, (W k * dt ^ (k + 1)) • ((L ^ k) *ᵥ v))
      - (y t0 + ∑ k ∈ range p, ((1 / (k + 1).factorial : ℝ) * dt ^ (k + 1)) • ((L ^ k) *ᵥ v))‖
      ≤ ∑ k ∈ range p, tol * dt ^ (k + 1) * ‖(L ^ k) *ᵥ v‖ := by
    rw [add_sub_add_left_eq_sub, ← Finset.sum_sub_distrib]
    refine (norm_sum_le _ _).trans (Finset.sum_le_sum fun k hk => ?_)
    rw [← sub_smul, norm_smul, ← sub_mul, norm_mul, Real.norm_eq_abs, Real.norm_eq_abs,
      abs_of_nonneg (pow_nonneg hdt _)]
    exact mul_le_mul_of_nonneg_right (mul_le_mul_of_nonneg_right (hw k (Finset.mem_range.1 hk))
      (pow_nonneg hdt _)) (norm_nonneg _)
  rw [norm_sub_rev] at e2
  have e5 := norm_add₃_le (a := u' - (y t0 + ∑ k ∈ range p, (W k * dt ^ (k + 1)) • ((L ^ k) *ᵥ v)))
    (b := (y t0 + ∑ k ∈ range p, (W k * dt ^ (k + 1)) • ((L ^ k) *ᵥ v))
      - (y t0 + ∑ k ∈ range p, ((1 / (k + 1).factorial : ℝ) * dt ^ (k + 1)) • ((L ^ k) *ᵥ v)))
    (c := (y t0 + ∑ k ∈ range p, ((1 / (k + 1).factorial : ℝ) * dt ^ (k + 1)) • ((L ^ k) *ᵥ v))
      - y (t0 + dt))
  have e6 : u' - y (t0 + dt)
    = u' - (y t0 + ∑ k ∈ range p, (W k * dt ^ (k + 1)) • ((L ^ k) *ᵥ v))
    + ((y t0 + ∑ k ∈ range p, (W k * dt ^ (k + 1)) • ((L ^ k) *ᵥ v))
      - (y t0 + ∑ k ∈ range p, ((1 / (k + 1).factorial : ℝ) * dt ^ (k + 1)) • ((L ^ k) *ᵥ v)))
    + ((y t0 + ∑ k ∈ range p, ((1 / (k + 1).factorial : ℝ) * dt ^ (k + 1)) • ((L ^ k) *ᵥ v))
      - y (t0 + dt)) := by abel
  have e7 : C1 * (‖y t0‖ + ‖g‖) * dt ^ (p + 1) ≤ C1 * (|Y| + ‖g‖) * dt ^ (p + 1) := by
    have := (hY t0 ⟨ht0, by linarith⟩).trans (le_abs_self _)
    gcongr
  rw [e6, add_mul]
  linarith

/-- a step is Lipschitz, with a constant close to that of `exp (dt L)`. -/
theorem IsZStep.lipschitz (A : Fin s → Fin s → ℝ) (S D : Fin s → ℝ) (L : Matrix (Fin n) (Fin n) ℝ)
    {K : ℝ} (hK : ∀ v : Fin n → ℝ, ‖L *ᵥ v‖ ≤ K * ‖v‖) {Q : ℝ} (hQ : |weight A S D 0| * K < Q) :
    ∃ h0 : ℝ, 0 < h0 ∧ ∀ v v' : Fin n → ℝ, ∀ dt, 0 ≤ dt → dt ≤ h0 →
      IsZStep A S D dt L 0 v v' → ‖v'‖ ≤ (1 + Q * dt) * ‖v‖ := by
  obtain ⟨C, h0, c0, hh, H⟩ := IsZStep.near_unif (n := n) A S D L 1
  set ε := Q - |weight A S D 0| * K with hε
  have he : 0 < ε := by linarith
  refine ⟨min h0 (ε / (C + 1)), lt_min hh (by positivity), fun v v' dt h1 h2 hz => ?_⟩
  have h3 := H 0 v dt h1 (h2.trans (min_le_left _ _)) v' hz
  have h4 : dt * (C + 1) ≤ ε := (le_div_iff₀ (by positivity)).1 (h2.trans (min_le_right _ _))
  simp only [Finset.range_one, Finset.sum_singleton, add_zero, norm_zero, zero_add, pow_one, pow_zero,
    Matrix.one_mulVec] at h3
  have h5 := norm_sub_norm_le v' (v + (weight A S D 0 * dt) • L *ᵥ v)
  have h6 := norm_add_le v ((weight A S D 0 * dt) • L *ᵥ v)
  rw [norm_smul, norm_mul, Real.norm_eq_abs, Real.norm_eq_abs, abs_of_nonneg h1] at h6
  have h7 : |weight A S D 0| * dt * ‖L *ᵥ v‖ ≤ |weight A S D 0| * dt * (K * ‖v‖) :=
    mul_le_mul_of_nonneg_left (hK v) (by positivity)
  have h8 : C * ‖v‖ * dt ^ (1 + 1) ≤ ε * dt * ‖v‖ := by
    have : C * dt ≤ ε := by nlinarith
    have := mul_le_mul_of_nonneg_right this (mul_nonneg h1 (norm_nonneg v))
    calc C * ‖v‖ * dt ^ (1 + 1) = C * dt * (dt * ‖v‖) := by ring
      _ ≤ ε * (dt * ‖v‖) := this
      _ = _ := by ring
  have h9 : Q = ε + |weight A S D 0| * K := by rw [hε]; ring
  rw [h9]
  linarith

/-- **convergence**, for a seminorm in which the homogeneous steps grow at most like `1 + q dt`. -/
theorem IsZStep.converge {A : Fin s → Fin s → ℝ} {S D : Fin s → ℝ} {L : Matrix (Fin n) (Fin n) ℝ}
    {g : Fin n → ℝ} {y : ℝ → Fin n → ℝ} (hy : ∀ t, HasDerivAt y (L *ᵥ y t + g) t) {p : ℕ} {tol : ℝ}
    (ht : 0 ≤ tol) (hw : ∀ k < p, |weight A S D k - 1 / (k + 1).factorial| ≤ tol)
    (N : (Fin n → ℝ) → ℝ) (N0 : N 0 ≤ 0) (Nadd : ∀ a b, N (a + b) ≤ N a + N b) {c : ℝ} (hc : 0 ≤ c)
    (Nc : ∀ a, N a ≤ c * ‖a‖) {q h1 : ℝ} (hq : 0 ≤ q) (hh1 : 0 < h1)
    (hgrow : ∀ v v' : Fin n → ℝ, ∀ dt, 0 ≤ dt → dt ≤ h1 → IsZStep A S D dt L 0 v v' →
      N v' ≤ (1 + q * dt) * N v) {T : ℝ} (hT : 0 ≤ T) {M : ℕ → ℝ}
    (hM : ∀ k < p, ∀ t, 0 ≤ t → t ≤ T → ‖(L ^ k) *ᵥ (L *ᵥ y t + g)‖ ≤ M k) :
    ∃ C h0 : ℝ, 0 ≤ C ∧ 0 < h0 ∧ ∀ dt, 0 ≤ dt → dt ≤ h0 → ∀ u : ℕ → Fin n → ℝ, u 0 = y 0 →
      (∀ v, ∃ v', IsZStep A S D dt L g v v') →
      (∀ k, IsZStep A S D dt L g (u k) (u (k + 1))) → ∀ k : ℕ, k * dt ≤ T →
      N (u k - y (k * dt)) ≤ C * dt ^ p
        + tol * T * Real.exp (q * T) * c * ∑ j ∈ range p, dt ^ j * M j := by
  obtain ⟨C, h2, hC, hh2, H⟩ := IsZStep.local_unif hy hw T
  refine ⟨T * Real.exp (q * T) * c * C, min (min h1 h2) 1, by positivity,
    lt_min (lt_min hh1 hh2) one_pos, ?_⟩
  intro dt hdt hd u hu hex hz k hk
  have hd1 := hd.trans ((min_le_left _ _).trans (min_le_left _ _))
  have hd2 := hd.trans ((min_le_left _ _).trans (min_le_right _ _))
  have hM0 : ∀ j < p, 0 ≤ M j := fun j hj => (norm_nonneg _).trans (hM j hj 0 le_rfl hT)
  set W := ∑ j ∈ range p, dt ^ j * M j with hS
  have hS0 : 0 ≤ W := Finset.sum_nonneg fun j hj =>
    mul_nonneg (pow_nonneg hdt _) (hM0 j (Finset.mem_range.1 hj))
  -- a step of the scheme started on the solution
  have step : ∀ j < k, N (u (j + 1) - y (((j + 1 : ℕ) : ℝ) * dt))
      ≤ (1 + q * dt) * N (u j - y (j * dt)) + c * (C * dt ^ (p + 1) + tol * dt * W) := by
    intro j hj
    have hjk : (j : ℝ) * dt ≤ T :=
      (mul_le_mul_of_nonneg_right (by exact_mod_cast hj.le) hdt).trans hk
    have hj0 : 0 ≤ (j : ℝ) * dt := by positivity
    obtain ⟨v, hv⟩ := hex (y (j * dt))
    have l1 := H _ hj0 hjk dt hdt hd2 v hv
    have l2 := (hz j).comb 1 (-1) hv
    rw [one_smul, neg_one_smul, add_neg_cancel] at l2
    have l3 := hgrow _ _ dt hdt hd1 l2
    simp only [one_smul, neg_one_smul, ← sub_eq_add_neg] at l3
    have l4 : ∑ k ∈ range p, tol * dt ^ (k + 1) * ‖(L ^ k) *ᵥ (L *ᵥ y (j * dt) + g)‖ ≤ tol * dt * W := by
      rw [hS, Finset.mul_sum]
      refine Finset.sum_le_sum fun i hi => ?_
      calc _ ≤ tol * dt ^ (i + 1) * M i :=
            mul_le_mul_of_nonneg_left (hM i (Finset.mem_range.1 hi) _ hj0 hjk) (by positivity)
        _ = _ := by ring
    have e1 : ((j + 1 : ℕ) : ℝ) * dt = j * dt + dt := by push_cast; ring
    have l5 : N (v - y (((j + 1 : ℕ) : ℝ) * dt)) ≤ c * (C * dt ^ (p + 1) + tol * dt * W) := by
      rw [e1]
      exact (Nc _).trans (mul_le_mul_of_nonneg_left (l1.trans (by linarith)) hc)
    have l6 := Nadd (u (j + 1) - v) (v - y (((j + 1 : ℕ) : ℝ) * dt))
    rw [sub_add_sub_cancel] at l6
    linarith
  have e := accumulate (e := fun j => N (u j - y (j * dt))) (a := q * dt)
    (b := c * (C * dt ^ (p + 1) + tol * dt * W)) (by positivity) (by positivity)
    (by simpa [hu] using N0) step k le_rfl
  have e1 : Real.exp (k * (q * dt)) ≤ Real.exp (q * T) := Real.exp_le_exp.2 (by nlinarith)
  calc N (u k - y (k * dt)) ≤ k * (c * (C * dt ^ (p + 1) + tol * dt * W)) * Real.exp (k * (q * dt)) := e
    _ ≤ k * (c * (C * dt ^ (p + 1) + tol * dt * W)) * Real.exp (q * T) := by gcongr
    _ = k * dt * (c * (C * dt ^ p + tol * W) * Real.exp (q * T)) := by ring
    _ ≤ T * (c * (C * dt ^ p + tol * W) * Real.exp (q * T)) := by gcongr
    _ = _ := by ring

end Odes.Spec
