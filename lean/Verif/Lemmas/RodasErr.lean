import Verif.Lemmas.RodasEnergy
import Mathlib.Analysis.Calculus.Deriv.MeanValue
import Mathlib.Analysis.Calculus.Deriv.Prod
import Mathlib.Analysis.Calculus.Deriv.Mul
import Mathlib.Analysis.Calculus.Deriv.Pow
import Mathlib.Topology.Algebra.Module.FiniteDimensionBilinear
import Mathlib.Analysis.Calculus.FDeriv.Linear
import Mathlib.Analysis.Calculus.Deriv.CompMul

/-!
# Error of the Rodas methods on dissipative linear problems
-/

namespace Odes.Rodas

open Spec

/-! ### the numerator against the exponential -/

/-- numerator minus (Taylor polynomial of degree 4 of the exponential times the denominator). -/
def resid (S : Stab) : List ℚ :=
  padd S.num (pscale (-1) (pmul [1, 1, 1/2, 1/6, 1/24] (epow (1/4) 6)))

/-- its coefficients vanish up to the 14th decimal, up to the degree 4. -/
def Stab.Close (S : Stab) : Prop :=
  (resid S).length = 11 ∧ (resid S).getD 0 0 = 0 ∧ (∀ a : Fin 4, |(resid S).getD (a + 1) 0| ≤ 1/10^14) ∧
  ((List.finRange 6).map fun a : Fin 6 => |(resid S).getD (a + 5) 0| * 4 ^ (a : ℕ)).sum ≤ 32/100

instance (S : Stab) : Decidable S.Close := by unfold Stab.Close; infer_instance

theorem close1 : stab1.Close := by decide +kernel
theorem close2 : stab2.Close := by decide +kernel
theorem close3 : stab3.Close := by decide +kernel

theorem valid_close {meth : ℤ} {c : Coef ℚ} (h : rocoe meth = some c) : ∃ S : Stab, S.Valid c ∧ S.Close := by
  rcases rocoe_cases h with rfl | rfl | rfl
  · exact ⟨_, valid1 c h, close1⟩
  · exact ⟨_, valid2 c h, close2⟩
  · exact ⟨_, valid3 c h, close3⟩

variable {V : Type*} [AddCommGroup V] [Module ℝ V] {B : LinearMap.BilinForm ℝ V} {Z : V →ₗ[ℝ] V}

/-- the Taylor polynomial. -/
noncomputable def taylor4 (Z : V →ₗ[ℝ] V) (y : V) : V :=
  ∑ k ∈ Finset.range 5, (1 / (k.factorial : ℝ)) • (Z ^ k) y

theorem act_taylor (y : V) : act Z y [1, 1, 1/2, 1/6, 1/24] = taylor4 Z y := by
  unfold taylor4
  simp only [Finset.sum_range_succ, Finset.sum_range_zero, act, pow_succ, pow_zero, Module.End.mul_apply,
    Module.End.one_apply, map_add, map_smul, Nat.factorial]
  norm_num
  abel

theorem nrm_pow_le (hB : Energy B Z) {v : V} {a : ℕ} (b : ℕ) (hb : b ≤ 6) :
    nrm B ((Z ^ (a + b)) v) ≤ 4 ^ b * nrm B ((Z ^ a) ((fac (1 / 4) Z ^ 6) v)) := by
  have e : (Z ^ (a + b)) v = (Z ^ b) ((Z ^ a) v) := by rw [add_comm, pow_add]; rfl
  have h1 := nrm_pow hB (by norm_num : (0 : ℝ) < 1 / 4) b ((Z ^ a) v)
  have h2 := nrm_fac_pow hB (by norm_num : (0 : ℝ) ≤ 1 / 4) hb ((Z ^ a) v)
  have h3 : ∀ k, (fac (1 / 4) Z ^ k) ((Z ^ a) v) = (Z ^ a) ((fac (1 / 4) Z ^ k) v) := by
    intro k
    induction k with
    | zero => rfl
    | succ k ih => rw [pow_succ', Module.End.mul_apply, ih, fac_comm_pow, Module.End.mul_apply]
  rw [h3 6] at h2
  rw [e]
  refine h1.trans ?_
  norm_num at h1 h2 ⊢
  exact h2

/-- one step against the Taylor polynomial. -/
theorem step_taylor [FiniteDimensional ℝ V] (hB : Energy B Z) {S : Stab} {c : Coef ℚ} (hS : S.Valid c)
    (hC : S.Close) {y ynew : V} {k : Fin 6 → V} (hk : LinStages (classic c) Z y k)
    (hn : ynew = y + ∑ i, (((classic c).b i : ℚ) : ℝ) • k i) :
    nrm B (ynew - taylor4 Z y) ≤ 1e-14 * (nrm B (Z y) + nrm B ((Z ^ 2) y) + nrm B ((Z ^ 3) y)
      + nrm B ((Z ^ 4) y)) + 0.32 * nrm B ((Z ^ 5) y) := by
  obtain ⟨v, h1, h2⟩ := step_act hB hS hk hn
  have hg : c.GAMMA = 1 / 4 := hS.2.2.2.2.2.2.2.2.2.1
  have e : ynew - taylor4 Z y = act Z v (resid S) := by
    rw [resid, act_add, act_scale, act_mul, act_epow, h2, act_taylor, h1, hg]
    simp [sub_eq_add_neg]
  have hg' : (c.GAMMA : ℝ) = 1 / 4 := by rw [hg]; norm_num
  rw [hg'] at h1
  obtain ⟨l, r0, r1, r2⟩ := hC
  have low : ∀ a : ℕ, nrm B ((Z ^ a) v) ≤ nrm B ((Z ^ a) y) := by
    intro a
    have := nrm_pow_le hB (v := v) (a := a) 0 (by norm_num)
    rw [add_zero, pow_zero, one_mul, ← h1] at this
    exact this
  have high : ∀ a : Fin 6, nrm B ((Z ^ ((a : ℕ) + 5)) v) ≤ 4 ^ (a : ℕ) * nrm B ((Z ^ 5) y) := by
    intro a
    have := nrm_pow_le hB (v := v) (a := 5) a (by omega)
    rw [← h1, add_comm] at this
    exact this
  have hb : ∀ (q : ℚ) (x : V) (c' : ℝ), nrm B x ≤ c' → nrm B ((q : ℝ) • x) ≤ ((|q| : ℚ) : ℝ) * c' := by
    intro q x c' h
    rw [nrm_smul, Rat.cast_abs]
    exact mul_le_mul_of_nonneg_left h (abs_nonneg _)
  rw [e, act_sum (k := 11) Z v _ l.le, Fin.sum_univ_add (a := 5) (b := 6), Fin.sum_univ_succ]
  have z0 : ((resid S).getD ((Fin.castAdd 6 (0 : Fin 5) : Fin 11) : ℕ) 0) = 0 := r0
  rw [z0, Rat.cast_zero, zero_smul, zero_add]
  refine (nrm_add hB _ _).trans (add_le_add ?_ ?_)
  · refine (nrm_sum hB _).trans ?_
    have t : ∀ a : Fin 4, nrm B ((((resid S).getD ((Fin.castAdd 6 a.succ : Fin 11) : ℕ) 0 : ℚ) : ℝ) •
        (Z ^ ((Fin.castAdd 6 a.succ : Fin 11) : ℕ)) v) ≤ 1e-14 * nrm B ((Z ^ ((a : ℕ) + 1)) y) := by
      intro a
      refine (hb _ _ _ (low _)).trans ?_
      refine mul_le_mul_of_nonneg_right ?_ (nrm_nonneg _)
      have := (Rat.cast_le (K := ℝ)).2 (r1 a)
      refine this.trans ?_
      norm_num
    refine (Finset.sum_le_sum fun a _ => t a).trans (le_of_eq ?_)
    rw [Fin.sum_univ_four]
    show 1e-14 * nrm B ((Z ^ (0 + 1)) y) + 1e-14 * nrm B ((Z ^ (1 + 1)) y) + 1e-14 * nrm B ((Z ^ (2 + 1)) y)
      + 1e-14 * nrm B ((Z ^ (3 + 1)) y) = _
    rw [zero_add, pow_one]
    ring
  · refine (nrm_sum hB _).trans ?_
    have t : ∀ a : Fin 6, nrm B ((((resid S).getD ((Fin.natAdd 5 a : Fin 11) : ℕ) 0 : ℚ) : ℝ) •
        (Z ^ ((Fin.natAdd 5 a : Fin 11) : ℕ)) v)
        ≤ ((|(resid S).getD (a + 5) 0| * 4 ^ (a : ℕ) : ℚ) : ℝ) * nrm B ((Z ^ 5) y) := by
      intro a
      have ea : ((Fin.natAdd 5 a : Fin 11) : ℕ) = (a : ℕ) + 5 := by simp [add_comm]
      rw [ea]
      refine (hb _ _ _ (high a)).trans (le_of_eq ?_)
      push_cast
      ring
    refine (Finset.sum_le_sum fun a _ => t a).trans ?_
    rw [← Finset.sum_mul]
    refine mul_le_mul_of_nonneg_right ?_ (nrm_nonneg _)
    rw [← Rat.cast_sum]
    have : (∑ a : Fin 6, |(resid S).getD (a + 5) 0| * 4 ^ (a : ℕ)) ≤ 32/100 := by
      rw [← List.sum_ofFn, List.ofFn_eq_map]; exact r2
    have := (Rat.cast_le (K := ℝ)).2 this
    refine this.trans ?_
    norm_num

/-! ### solutions of dissipative systems -/

section flow

variable {n : ℕ} {B : LinearMap.BilinForm ℝ (Fin n → ℝ)} {L : (Fin n → ℝ) →ₗ[ℝ] (Fin n → ℝ)}

/-- `x' = L x`. -/
def Flow (L : (Fin n → ℝ) →ₗ[ℝ] (Fin n → ℝ)) (x : ℝ → Fin n → ℝ) : Prop := ∀ t, HasDerivAt x (L (x t)) t

theorem hasDerivAt_lin {W : Type*} [NormedAddCommGroup W] [NormedSpace ℝ W] (l : (Fin n → ℝ) →ₗ[ℝ] W)
    {x : ℝ → Fin n → ℝ} {x' : Fin n → ℝ} {t : ℝ} (h : HasDerivAt x x' t) :
    HasDerivAt (fun t => l (x t)) (l x') t :=
  (LinearMap.toContinuousLinearMap l).hasFDerivAt.comp_hasDerivAt t h

theorem Flow.image {x : ℝ → Fin n → ℝ} (hx : Flow L x) : Flow L (fun t => L (x t)) :=
  fun t => hasDerivAt_lin L (hx t)

/-- the energy decays along solutions. -/
theorem Flow.decay (hB : Energy B L) {x : ℝ → Fin n → ℝ} (hx : Flow L x) {t s : ℝ} (hs : t ≤ s) :
    nrm B (x s) ≤ nrm B (x t) := by
  apply Real.sqrt_le_sqrt
  have hd : ∀ t, HasDerivAt (fun t => B (x t) (x t)) (B (L (x t)) (x t) + B (x t) (L (x t))) t := by
    intro t
    have h1 : HasDerivAt (fun t => (LinearMap.toContinuousBilinearMap B) (x t))
        ((LinearMap.toContinuousBilinearMap B) (L (x t))) t :=
      (LinearMap.toContinuousBilinearMap B).hasFDerivAt.comp_hasDerivAt t (hx t)
    exact h1.clm_apply (hx t)
  have : Antitone fun t => B (x t) (x t) := by
    refine antitone_of_deriv_nonpos (fun t => (hd t).differentiableAt) fun t => ?_
    rw [(hd t).deriv, hB.symm (x t) (L (x t))]
    have := hB.diss (x t)
    linarith
  exact this hs

theorem bil_le (hB : Energy B L) (x y : Fin n → ℝ) : B x y ≤ nrm B x * nrm B y := by
  have h1 := LinearMap.BilinForm.apply_sq_le_of_symm B hB.nonneg ⟨hB.symm⟩ x y
  apply abs_le_of_sq_le_sq' _ (mul_nonneg (nrm_nonneg x) (nrm_nonneg y)) |>.2
  rw [mul_pow, nrm_sq hB, nrm_sq hB]
  exact h1

/-- Taylor's formula, the remainder in the norm of the inner product. -/
theorem Flow.taylor (hB : Energy B L) (k : ℕ) : ∀ {x : ℝ → Fin n → ℝ}, Flow L x → ∀ t {s : ℝ}, 0 ≤ s →
    nrm B (x (t + s) - ∑ j ∈ Finset.range k, (s ^ j / (j.factorial : ℝ)) • (L ^ j) (x t))
      ≤ s ^ k / (k.factorial : ℝ) * nrm B ((L ^ k) (x t)) := by
  induction k with
  | zero =>
    intro x hx t s hs
    simpa using hx.decay hB (by linarith : t ≤ t + s)
  | succ k ih =>
    intro x hx t s hs
    set R : ℝ → Fin n → ℝ := fun s =>
      x (t + s) - ∑ j ∈ Finset.range (k + 1), (s ^ j / (j.factorial : ℝ)) • (L ^ j) (x t) with hR
    set R' : ℝ → Fin n → ℝ := fun s =>
      L (x (t + s)) - ∑ j ∈ Finset.range k, (s ^ j / (j.factorial : ℝ)) • (L ^ j) (L (x t)) with hR'
    have hd : ∀ s, HasDerivAt R (R' s) s := by
      intro s
      have h1 : HasDerivAt (fun s => x (t + s)) (L (x (t + s))) s := by
        have := HasDerivAt.scomp s (hx (t + s)) ((hasDerivAt_id s).const_add t)
        rw [one_smul] at this
        exact this
      have h2 : HasDerivAt (fun s : ℝ => ∑ j ∈ Finset.range (k + 1), (s ^ j / (j.factorial : ℝ)) • (L ^ j) (x t))
          (∑ j ∈ Finset.range k, (s ^ j / (j.factorial : ℝ)) • (L ^ j) (L (x t))) s := by
        have h3 : ∀ j ∈ Finset.range (k + 1), HasDerivAt
            (fun s : ℝ => (s ^ j / (j.factorial : ℝ)) • (L ^ j) (x t))
            (((j : ℝ) * s ^ (j - 1) / (j.factorial : ℝ)) • (L ^ j) (x t)) s := fun j _ =>
          ((hasDerivAt_pow j s).div_const _).smul_const _
        have h4 := HasDerivAt.fun_sum h3
        rw [Finset.sum_range_succ'] at h4
        have e0 : (((0 : ℕ) : ℝ) * s ^ (0 - 1) / (Nat.factorial 0 : ℝ)) • (L ^ 0) (x t) = 0 := by simp
        rw [e0, add_zero] at h4
        have e1 : ∑ j ∈ Finset.range k, (((j + 1 : ℕ) : ℝ) * s ^ (j + 1 - 1) / ((j + 1).factorial : ℝ))
              • (L ^ (j + 1)) (x t)
            = ∑ j ∈ Finset.range k, (s ^ j / (j.factorial : ℝ)) • (L ^ j) (L (x t)) := by
          refine Finset.sum_congr rfl fun j _ => ?_
          rw [pow_succ L, Module.End.mul_apply, Nat.add_sub_cancel, Nat.factorial_succ, Nat.cast_mul]
          congr 1
          have : ((j + 1 : ℕ) : ℝ) ≠ 0 := by positivity
          field_simp
        rw [e1] at h4
        exact h4
      exact h1.sub h2
    have hb : ∀ s, 0 ≤ s → nrm B (R' s) ≤ s ^ k / (k.factorial : ℝ) * nrm B ((L ^ (k + 1)) (x t)) := by
      intro s hs
      have := ih hx.image t hs
      rw [pow_succ, Module.End.mul_apply]
      exact this
    set M := nrm B ((L ^ (k + 1)) (x t)) with hM
    have hM0 : 0 ≤ M := nrm_nonneg _
    have hR0 : R 0 = 0 := by
      rw [hR]
      simp [Finset.sum_range_succ']
    have key : ∀ u : Fin n → ℝ, ∀ s, 0 ≤ s →
        B u (R s) ≤ nrm B u * (s ^ (k + 1) / ((k + 1).factorial : ℝ) * M) := by
      intro u
      set f : ℝ → ℝ := fun s => nrm B u * (s ^ (k + 1) / ((k + 1).factorial : ℝ) * M) - B u (R s) with hf
      have hfd : ∀ s, HasDerivAt f (nrm B u * (s ^ k / (k.factorial : ℝ) * M) - B u (R' s)) s := by
        intro s
        have h1 := ((((hasDerivAt_pow (k + 1) s).div_const ((k + 1).factorial : ℝ)).mul_const M).const_mul
          (nrm B u)).sub (hasDerivAt_lin (B u) (hd s))
        have e1 : ((k + 1 : ℕ) : ℝ) * s ^ (k + 1 - 1) / ((k + 1).factorial : ℝ) = s ^ k / (k.factorial : ℝ) := by
          rw [Nat.add_sub_cancel, Nat.factorial_succ, Nat.cast_mul]
          have : ((k + 1 : ℕ) : ℝ) ≠ 0 := by positivity
          field_simp
        rw [e1] at h1
        exact h1
      have hmono : MonotoneOn f (Set.Ici 0) := by
        refine monotoneOn_of_deriv_nonneg (convex_Ici 0)
          (fun s _ => (hfd s).continuousAt.continuousWithinAt)
          (fun s _ => (hfd s).differentiableAt.differentiableWithinAt) fun s hs => ?_
        rw [interior_Ici] at hs
        rw [(hfd s).deriv, sub_nonneg]
        exact (bil_le hB u (R' s)).trans (mul_le_mul_of_nonneg_left (hb s (le_of_lt hs)) (nrm_nonneg u))
      intro s hs
      have h0 : f 0 = 0 := by simp [hf, hR0]
      have := hmono (Set.mem_Ici.2 le_rfl) (Set.mem_Ici.2 hs) hs
      rw [h0, hf] at this
      linarith
    have h1 := key (R s) s hs
    rw [← nrm_sq hB] at h1
    show nrm B (R s) ≤ _
    rcases eq_or_lt_of_le (nrm_nonneg (B := B) (R s)) with h0 | h0
    · rw [← h0]; positivity
    · rw [sq] at h1
      exact le_of_mul_le_mul_left h1 h0

end flow

end Odes.Rodas
