import Verif.Lemmas.Symplectic
import Mathlib.Algebra.BigOperators.Field
import Mathlib.Analysis.Calculus.Deriv.Prod
import Mathlib.Analysis.Calculus.Deriv.Add
import Mathlib.Analysis.Calculus.Deriv.Mul
import Mathlib.Analysis.Calculus.MeanValue
import Mathlib.Analysis.Normed.Module.FiniteDimension
import Mathlib.LinearAlgebra.BilinearMap
import Mathlib.Tactic.LinearCombination
import Mathlib.Tactic.Module

/-!
# Symplectic methods in exact arithmetic
-/

namespace Odes.Spec

variable {n s : ℕ}

/-- the quadratic form is constant along solutions: what `Quad` means. -/
theorem Quad.const {B : (Fin n → ℝ) →ₗ[ℝ] (Fin n → ℝ) →ₗ[ℝ] ℝ} {f : (Fin n → ℝ) → Fin n → ℝ}
    (h : Quad B f) {y : ℝ → Fin n → ℝ} (hy : ∀ t, HasDerivAt y (f (y t)) t) (t t' : ℝ) :
    B (y t) (y t) = B (y t') (y t') := by
  have hexp : ∀ x z : Fin n → ℝ, B x z = ∑ i, ∑ j, x i * (z j * B (Pi.single i 1) (Pi.single j 1)) := by
    intro x z
    conv_lhs => rw [pi_eq_sum_univ' x, pi_eq_sum_univ' z]
    simp only [map_sum, LinearMap.sum_apply, map_smul, LinearMap.smul_apply, smul_eq_mul,
      Finset.mul_sum]
    rw [Finset.sum_comm]
    refine Finset.sum_congr rfl fun i _ => Finset.sum_congr rfl fun j _ => ?_
    ring
  have hd : ∀ t, HasDerivAt (fun t => B (y t) (y t)) 0 t := by
    intro t
    have hc : ∀ i, HasDerivAt (fun t => y t i) (f (y t) i) t := fun i => (hasDerivAt_pi.1 (hy t)) i
    have h1 : HasDerivAt (fun t => ∑ i, ∑ j, y t i * (y t j * B (Pi.single i 1) (Pi.single j 1)))
        (∑ i, ∑ j, (f (y t) i * (y t j * B (Pi.single i 1) (Pi.single j 1)) +
          y t i * (f (y t) j * B (Pi.single i 1) (Pi.single j 1)))) t := by
      refine HasDerivAt.fun_sum fun i _ => HasDerivAt.fun_sum fun j _ => ?_
      exact (hc i).mul ((hc j).mul_const _)
    have h2 : (∑ i, ∑ j, (f (y t) i * (y t j * B (Pi.single i 1) (Pi.single j 1)) +
          y t i * (f (y t) j * B (Pi.single i 1) (Pi.single j 1)))) = 0 := by
      simp only [Finset.sum_add_distrib]
      rw [← hexp, ← hexp, h.symm (f (y t)), h.zero, add_zero]
    rw [h2] at h1
    refine h1.congr_of_eventuallyEq (Filter.Eventually.of_forall fun t => ?_)
    exact hexp _ _
  exact is_const_of_deriv_eq_zero (fun t => (hd t).differentiableAt) (fun t => (hd t).deriv) t t'

/-- change of a quadratic first integral in one sweep. -/
theorem RkSweep.quad {A : Fin s → Fin s → ℝ} {b : Fin s → ℝ} {h : ℝ} {f : (Fin n → ℝ) → Fin n → ℝ}
    {u u' : Fin n → ℝ} {Y Z : Fin s → Fin n → ℝ} (hr : RkSweep A b h f u Y Z u')
    {B : (Fin n → ℝ) →ₗ[ℝ] (Fin n → ℝ) →ₗ[ℝ] ℝ} (hB : Quad B f) :
    B u' u' - B u u = 2 * h * ∑ i, b i * B (Z i - Y i) (f (Y i)) -
      h ^ 2 * ∑ i, ∑ j, defect A b i j * B (f (Y i)) (f (Y j)) := by
  set k := fun i => f (Y i) with hk
  have hu : ∀ i, B u (k i) = B (Z i - Y i) (k i) - h * ∑ j, A i j * B (k i) (k j) := by
    intro i
    have : u = (Z i - Y i) + Y i - h • ∑ j, A i j • k j := by rw [hr.stage i]; module
    conv_lhs => rw [this]
    simp only [map_add, map_sub, map_smul, map_sum, LinearMap.add_apply, LinearMap.sub_apply,
      LinearMap.smul_apply, LinearMap.sum_apply, smul_eq_mul]
    rw [hB.zero]
    simp only [hB.symm (k _) (k i)]
    ring
  have h1 : B u' u' = B u u + 2 * h * ∑ i, b i * B u (k i) +
      h ^ 2 * ∑ i, ∑ j, b i * b j * B (k i) (k j) := by
    rw [hr.result]
    simp only [map_add, map_smul, map_sum, LinearMap.add_apply,
      LinearMap.smul_apply, LinearMap.sum_apply, smul_eq_mul]
    simp only [hB.symm (f _) u, hk]
    have : ∑ x, b x * ∑ x_1, b x_1 * B (f (Y x_1)) (f (Y x)) =
        ∑ i, ∑ j, b i * b j * B (f (Y i)) (f (Y j)) := by
      refine Finset.sum_congr rfl fun i _ => ?_
      rw [Finset.mul_sum]
      refine Finset.sum_congr rfl fun j _ => ?_
      rw [hB.symm (f (Y j))]; ring
    have e4 : ∑ x, b x * (h * ∑ x_1, b x_1 * B (f (Y x_1)) (f (Y x))) =
        h * ∑ x, b x * ∑ x_1, b x_1 * B (f (Y x_1)) (f (Y x)) := by
      rw [Finset.mul_sum]
      exact Finset.sum_congr rfl fun i _ => by ring
    simp only [mul_add, Finset.sum_add_distrib]
    rw [e4, this]
    ring
  have h2 : ∑ i, ∑ j, defect A b i j * B (k i) (k j) =
      2 * (∑ i, b i * ∑ j, A i j * B (k i) (k j)) - ∑ i, ∑ j, b i * b j * B (k i) (k j) := by
    have e1 : ∑ i, ∑ j, b j * A j i * B (k i) (k j) = ∑ i, b i * ∑ j, A i j * B (k i) (k j) := by
      rw [Finset.sum_comm]
      refine Finset.sum_congr rfl fun i _ => ?_
      rw [Finset.mul_sum]
      exact Finset.sum_congr rfl fun j _ => by rw [hB.symm (k j)]; ring
    have e2 : ∑ i, ∑ j, b i * A i j * B (k i) (k j) = ∑ i, b i * ∑ j, A i j * B (k i) (k j) := by
      refine Finset.sum_congr rfl fun i _ => ?_
      rw [Finset.mul_sum]
      exact Finset.sum_congr rfl fun j _ => by ring
    simp only [defect, sub_mul, add_mul, Finset.sum_sub_distrib, Finset.sum_add_distrib]
    rw [e1, e2]; ring
  rw [h1, h2, Finset.sum_congr rfl fun i _ => by rw [hu i]]
  simp only [mul_sub, Finset.sum_sub_distrib]
  have e3 : ∑ i, b i * (h * ∑ j, A i j * B (k i) (k j)) =
      h * ∑ i, b i * ∑ j, A i j * B (k i) (k j) := by
    rw [Finset.mul_sum]
    exact Finset.sum_congr rfl fun i _ => by ring
  rw [e3]
  ring

/-- a linear first integral is preserved, whatever the stages. -/
theorem RkSweep.linear {A : Fin s → Fin s → ℝ} {b : Fin s → ℝ} {h : ℝ} {f : (Fin n → ℝ) → Fin n → ℝ}
    {u u' : Fin n → ℝ} {Y Z : Fin s → Fin n → ℝ} (hr : RkSweep A b h f u Y Z u')
    {L : (Fin n → ℝ) →ₗ[ℝ] ℝ} (hL : ∀ y, L (f y) = 0) : L u' = L u := by
  rw [hr.result]
  simp [map_add, map_smul, map_sum, hL]

end Odes.Spec

namespace Odes.Symp

open Odes.Mem Spec

variable {n : ℕ}

theorem sumL_real (g : ℕ → ℝ) (init : ℝ) (k : ℕ) : sumL g init k = init + ∑ i : Fin k, g i := by
  rw [Fin.sum_univ_eq_sum_range]
  induction k with
  | zero => simp [sumL]
  | succ k ih => rw [sumL, ih, Finset.sum_range_succ]; ring

theorem sqSum_real (x y : Fin n → ℝ) (t : ℝ) : sqSum x y t = t + ∑ l, (x l - y l) ^ 2 := by
  have : ∀ (L : List (Fin n)) (t : ℝ), L.foldl (fun t l => t + (x l - y l) * (x l - y l)) t =
      t + (L.map fun l => (x l - y l) ^ 2).sum := by
    intro L
    induction L with
    | nil => simp
    | cons a L ih => intro t; rw [List.foldl_cons, ih, List.map_cons, List.sum_cons]; ring
  rw [sqSum, this, ← List.ofFn_eq_map, List.sum_ofFn]

theorem resid_real (Z Y : ℕ → Fin n → ℝ) (k : ℕ) :
    resid Z Y k = ∑ i : Fin k, ∑ l, (Z i l - Y i l) ^ 2 := by
  rw [Fin.sum_univ_eq_sum_range (fun i => ∑ l, (Z i l - Y i l) ^ 2)]
  induction k with
  | zero => rfl
  | succ k ih => rw [resid, sqSum_real, ih, Finset.sum_range_succ]

end Odes.Symp
