import Verif.Spec.NBody
import Mathlib.Analysis.Calculus.Deriv.Add
import Mathlib.Analysis.Calculus.Deriv.Pow
import Mathlib.Analysis.Calculus.Deriv.Mul
import Mathlib.Algebra.BigOperators.Field
import Mathlib.Tactic.Ring
import Mathlib.Tactic.Linarith
import Mathlib.Tactic.Positivity
import Mathlib.Tactic.FieldSimp

/-! Conservation laws of the gravitational problem. -/

namespace Odes.Spec.NBody

variable {N : ℕ}

theorem dist2_comm (x y : Fin 3 → ℝ) : dist2 x y = dist2 y x :=
  Finset.sum_congr rfl fun s _ => by ring

theorem dist2_pos {x y : Fin 3 → ℝ} (h : x ≠ y) : 0 < dist2 x y := by
  rcases Function.ne_iff.1 h with ⟨s, hs⟩
  exact Finset.sum_pos' (fun _ _ => sq_nonneg _)
    ⟨s, Finset.mem_univ _, by have := sub_ne_zero.2 hs; positivity⟩

/-- a sum antisymmetric in its two indices is zero. -/
theorem sum_anti {W : Fin N → Fin N → ℝ} (h : ∀ i j, W i j = -W j i) : ∑ i, ∑ j, W i j = 0 := by
  have h1 : ∑ i, ∑ j, W i j = ∑ i, ∑ j, -W i j := by
    conv_lhs => rw [Finset.sum_comm]
    exact Finset.sum_congr rfl fun i _ => Finset.sum_congr rfl fun j _ => h j i
  simp only [Finset.sum_neg_distrib] at h1
  linarith

theorem posOf_newton (G : ℝ) (m : Fin N → ℝ) (y : Fin (6 * N) → ℝ) (i : Fin N) (s : Fin 3) :
    posOf (newton G m y) i s = momOf y i s / m i := by
  have hi := i.2
  have hs := s.2
  rw [posOf, newton, dif_pos (show 3 * (i : ℕ) + s < 3 * N by omega)]
  have e1 : (⟨(3 * (i : ℕ) + s) / 3, by omega⟩ : Fin N) = i := Fin.ext (by simp only; omega)
  have e2 : (⟨(3 * (i : ℕ) + s) % 3, by omega⟩ : Fin 3) = s := Fin.ext (by simp only; omega)
  simp only [e1, e2]

theorem momOf_newton (G : ℝ) (m : Fin N → ℝ) (y : Fin (6 * N) → ℝ) (i : Fin N) (s : Fin 3) :
    momOf (newton G m y) i s = force G m (posOf y) i s := by
  have hi := i.2
  have hs := s.2
  rw [momOf, newton, dif_neg (show ¬ 3 * N + (3 * (i : ℕ) + s) < 3 * N by omega)]
  have e1 : (⟨(3 * N + (3 * (i : ℕ) + s) - 3 * N) / 3, by omega⟩ : Fin N) = i :=
    Fin.ext (by simp only; omega)
  have e2 : (⟨(3 * N + (3 * (i : ℕ) + s) - 3 * N) % 3, by omega⟩ : Fin 3) = s :=
    Fin.ext (by simp only; omega)
  simp only [e1, e2]

/-- every component is a position or a momentum -/
theorem coord (k : Fin (6 * N)) : (∃ (i : Fin N) (s : Fin 3), (k : ℕ) = 3 * i + s) ∨
    ∃ (i : Fin N) (s : Fin 3), (k : ℕ) = 3 * N + (3 * i + s) := by
  have := k.2
  by_cases h : (k : ℕ) < 3 * N
  · exact Or.inl ⟨⟨k / 3, by omega⟩, ⟨k % 3, by omega⟩, by simp only; omega⟩
  · exact Or.inr ⟨⟨(k - 3 * N) / 3, by omega⟩, ⟨(k - 3 * N) % 3, by omega⟩, by simp only; omega⟩

/-- action and reaction -/
theorem force_sum (G : ℝ) (m : Fin N → ℝ) (q : Fin N → Fin 3 → ℝ) (s : Fin 3) :
    ∑ i, force G m q i s = 0 := by
  simp only [force, Finset.sum_neg_distrib]
  rw [sum_anti, neg_zero]
  intro i j
  rw [dist2_comm]
  ring

/-- the forces have no torque -/
theorem torque (G : ℝ) (m : Fin N → ℝ) (q : Fin N → Fin 3 → ℝ) (a b : Fin 3) :
    ∑ i, (q i a * force G m q i b - q i b * force G m q i a) = 0 := by
  have h : ∀ i, q i a * force G m q i b - q i b * force G m q i a =
      ∑ j, G * m i * m j / √(dist2 (q i) (q j)) ^ 3 * (q i a * q j b - q i b * q j a) := by
    intro i
    simp only [force, mul_neg, Finset.mul_sum, ← Finset.sum_neg_distrib, ← Finset.sum_sub_distrib]
    exact Finset.sum_congr rfl fun j _ => by ring
  simp only [h]
  refine sum_anti fun i j => ?_
  rw [dist2_comm]
  ring

/-- derivative of the inverse of a distance -/
theorem hasDerivAt_inv_dist {x y : ℝ → Fin 3 → ℝ} {x' y' : Fin 3 → ℝ} {t : ℝ}
    (hx : ∀ s, HasDerivAt (fun t => x t s) (x' s) t) (hy : ∀ s, HasDerivAt (fun t => y t s) (y' s) t)
    (h : x t ≠ y t) (c : ℝ) :
    HasDerivAt (fun t => c / √(dist2 (x t) (y t)))
      (-(c / √(dist2 (x t) (y t)) ^ 3 * ∑ s, (x t s - y t s) * (x' s - y' s))) t := by
  have hp := dist2_pos h
  have h1 : HasDerivAt (fun t => dist2 (x t) (y t)) (∑ s, 2 * ((x t s - y t s) * (x' s - y' s))) t := by
    refine (HasDerivAt.fun_sum fun s _ => ((hx s).sub (hy s)).fun_pow 2).congr_deriv ?_
    refine Finset.sum_congr rfl fun s _ => ?_
    simp
    ring
  have h2 := ((h1.sqrt hp.ne').fun_inv (Real.sqrt_pos.2 hp).ne').const_mul c
  refine h2.congr_deriv ?_
  rw [← Finset.mul_sum]
  have := (Real.sqrt_pos.2 hp).ne'
  field_simp

/-- derivative of the energy along a curve -/
theorem hasDerivAt_energy (G : ℝ) {m : Fin N → ℝ} {q p : ℝ → Fin N → Fin 3 → ℝ}
    {q' p' : Fin N → Fin 3 → ℝ} {t : ℝ}
    (hq : ∀ i s, HasDerivAt (fun t => q t i s) (q' i s) t)
    (hp : ∀ i s, HasDerivAt (fun t => p t i s) (p' i s) t) (h : Apart (q t)) :
    HasDerivAt (fun t => energy G m (q t) (p t))
      (∑ i, (∑ s, p t i s * p' i s) / m i + G * ∑ i, ∑ j, if j < i then
        m i * m j / √(dist2 (q t i) (q t j)) ^ 3 * ∑ s, (q t i s - q t j s) * (q' i s - q' j s) else 0) t := by
  have h1 : HasDerivAt (fun t => ∑ i, (∑ s, p t i s ^ 2) / (2 * m i))
      (∑ i, (∑ s, p t i s * p' i s) / m i) t := by
    refine (HasDerivAt.fun_sum fun i _ =>
      (HasDerivAt.fun_sum fun s _ => (hp i s).fun_pow 2).div_const (2 * m i)).congr_deriv ?_
    refine Finset.sum_congr rfl fun i _ => ?_
    rw [Finset.sum_div, Finset.sum_div]
    refine Finset.sum_congr rfl fun s _ => ?_
    simp
    ring
  have h2 : HasDerivAt (fun t => ∑ i, ∑ j, if j < i then m i * m j / √(dist2 (q t i) (q t j)) else 0)
      (∑ i, ∑ j, if j < i then
        -(m i * m j / √(dist2 (q t i) (q t j)) ^ 3 * ∑ s, (q t i s - q t j s) * (q' i s - q' j s)) else 0) t := by
    refine HasDerivAt.fun_sum fun i _ => HasDerivAt.fun_sum fun j _ => ?_
    by_cases hij : j < i
    · simp only [if_pos hij]
      exact hasDerivAt_inv_dist (hq i) (hq j) (h i j hij.ne') _
    · simp only [if_neg hij]
      exact hasDerivAt_const _ _
  refine (HasDerivAt.fun_sub h1 (h2.const_mul G)).congr_deriv ?_
  rw [sub_eq_add_neg, ← mul_neg, ← Finset.sum_neg_distrib]
  congr 2
  refine Finset.sum_congr rfl fun i _ => ?_
  rw [← Finset.sum_neg_distrib]
  refine Finset.sum_congr rfl fun j _ => ?_
  split_ifs <;> ring

/-- a double sum with zero diagonal, ordered pairs. -/
theorem sum_pairs (W : Fin N → Fin N → ℝ) (h0 : ∀ i, W i i = 0) :
    ∑ i, ∑ j, W i j = ∑ i, ∑ j, if j < i then W i j + W j i else 0 := by
  have h1 : ∀ i j, W i j = (if j < i then W i j else 0) + if i < j then W i j else 0 := by
    intro i j
    rcases lt_trichotomy i j with h | h | h
    · rw [if_neg h.not_gt, if_pos h, zero_add]
    · subst h; rw [if_neg (lt_irrefl _), h0, zero_add]
    · rw [if_pos h, if_neg h.not_gt, add_zero]
  calc ∑ i, ∑ j, W i j
      = ∑ i, ∑ j, (if j < i then W i j else 0) + ∑ i, ∑ j, (if i < j then W i j else 0) := by
        rw [← Finset.sum_add_distrib]
        refine Finset.sum_congr rfl fun i _ => ?_
        rw [← Finset.sum_add_distrib]
        exact Finset.sum_congr rfl fun j _ => h1 i j
    _ = ∑ i, ∑ j, (if j < i then W i j else 0) + ∑ i, ∑ j, (if j < i then W j i else 0) := by
        congr 1
        rw [Finset.sum_comm]
    _ = _ := by
        rw [← Finset.sum_add_distrib]
        refine Finset.sum_congr rfl fun i _ => ?_
        rw [← Finset.sum_add_distrib]
        refine Finset.sum_congr rfl fun j _ => ?_
        split_ifs <;> ring

/-- the energy is constant along solutions, forward (`σ=1`) or backward (`σ=-1`) in time. -/
theorem energy_const (G : ℝ) {m : Fin N → ℝ} {q p : ℝ → Fin N → Fin 3 → ℝ} {t σ : ℝ}
    (hq : ∀ i s, HasDerivAt (fun t => q t i s) (σ * (p t i s / m i)) t)
    (hp : ∀ i s, HasDerivAt (fun t => p t i s) (σ * force G m (q t) i s) t) (h : Apart (q t)) :
    HasDerivAt (fun t => energy G m (q t) (p t)) 0 t := by
  refine (hasDerivAt_energy G hq hp h).congr_deriv ?_
  have e1 : ∑ i, (∑ s, p t i s * (σ * force G m (q t) i s)) / m i =
      -(σ * ∑ i, ∑ j, G * m i * m j / √(dist2 (q t i) (q t j)) ^ 3 *
        ∑ s, p t i s / m i * (q t i s - q t j s)) := by
    rw [Finset.mul_sum, ← Finset.sum_neg_distrib]
    refine Finset.sum_congr rfl fun i _ => ?_
    simp only [force, mul_neg, Finset.mul_sum, neg_div, Finset.sum_neg_distrib, Finset.sum_div]
    rw [Finset.sum_comm]
    congr 1
    exact Finset.sum_congr rfl fun j _ => Finset.sum_congr rfl fun s _ => by ring
  rw [e1, sum_pairs _ (fun i => by simp), Finset.mul_sum, Finset.mul_sum, ← Finset.sum_neg_distrib,
    ← Finset.sum_add_distrib]
  refine Finset.sum_eq_zero fun i _ => ?_
  rw [Finset.mul_sum, Finset.mul_sum, ← Finset.sum_neg_distrib, ← Finset.sum_add_distrib]
  refine Finset.sum_eq_zero fun j _ => ?_
  split_ifs
  · rw [dist2_comm (q t j) (q t i)]
    simp only [Finset.mul_sum]
    rw [← Finset.sum_add_distrib, Finset.mul_sum, ← Finset.sum_neg_distrib, ← Finset.sum_add_distrib]
    refine Finset.sum_eq_zero fun s _ => ?_
    ring
  · ring

end Odes.Spec.NBody
