import Mathlib.LinearAlgebra.Matrix.NonsingularInverse
import Mathlib.Algebra.BigOperators.Fin
import Mathlib.Tactic.Module
import Mathlib.Tactic.LinearCombination

/-!
# Runge-Kutta methods on linear problems
-/

namespace Odes.Spec

open Matrix

variable {α : Type} [Field α] {n s : ℕ}

/-- `u'` is the result of one step of length `dt` of the Runge-Kutta method `(A, b)` for
`u' = L u + g`, started at `u`. -/
def IsRKStep (A : Fin s → Fin s → α) (b : Fin s → α) (dt : α) (L : Matrix (Fin n) (Fin n) α)
    (g u u' : Fin n → α) : Prop :=
  ∃ k : Fin s → Fin n → α,
    (∀ i, k i = L *ᵥ (u + dt • ∑ j, A i j • k j) + g) ∧ u' = u + dt • ∑ i, b i • k i

/-- the rational method used by the code: with row sums `S` and weights `D`,
`Z_i = dt L (S_i u + sum_j A_ij Z_j) + dt S_i g`, `u' = u + sum_i D_i Z_i`. -/
def IsZStep (A : Fin s → Fin s → α) (S D : Fin s → α) (dt : α) (L : Matrix (Fin n) (Fin n) α)
    (g u u' : Fin n → α) : Prop :=
  ∃ Z : Fin s → Fin n → α,
    (∀ i, Z i = dt • (L *ᵥ (S i • u + ∑ j, A i j • Z j)) + (dt * S i) • g) ∧
    u' = u + ∑ i, D i • Z i

/-- if `S` are the row sums and `b = D A`, it is the Runge-Kutta step. -/
theorem IsZStep.rk {A : Fin s → Fin s → α} {S D b : Fin s → α} (hS : ∀ i, S i = ∑ j, A i j)
    (hb : ∀ j, b j = ∑ i, D i * A i j) {dt : α} {L : Matrix (Fin n) (Fin n) α}
    {g u u' : Fin n → α} (h : IsZStep A S D dt L g u u') : IsRKStep A b dt L g u u' := by
  obtain ⟨Z, hZ, hu⟩ := h
  have key : ∀ i, dt • ∑ j, A i j • (L *ᵥ (u + Z j) + g) = Z i := by
    intro i
    conv_rhs => rw [hZ i]
    have e : ∑ j, A i j • (L *ᵥ (u + Z j) + g)
        = L *ᵥ (S i • u + ∑ j, A i j • Z j) + S i • g := by
      simp only [smul_add, Finset.sum_add_distrib, Matrix.mulVec_add, hS, Finset.sum_smul,
        Matrix.mulVec_smul, Matrix.mulVec_sum]
    rw [e, smul_add, smul_smul]
  refine ⟨fun j => L *ᵥ (u + Z j) + g, fun i => by rw [key], ?_⟩
  rw [hu]
  congr 1
  have : ∀ i, D i • Z i = dt • ∑ j, (D i * A i j) • (L *ᵥ (u + Z j) + g) := by
    intro i
    conv_lhs => rw [← key i]
    rw [smul_comm, Finset.smul_sum]
    simp only [smul_smul]
  simp only [this, ← Finset.smul_sum, hb, Finset.sum_smul]
  rw [Finset.sum_comm]

/-- two solutions of triangular stage equations are equal when `1 - dt A_ii L` is injective. -/
theorem IsRKStep.unique {A : Fin s → Fin s → α} {b : Fin s → α} {dt : α}
    {L : Matrix (Fin n) (Fin n) α} {g u u' u'' : Fin n → α} (hA : ∀ i j, i < j → A i j = 0)
    (hL : ∀ i, IsUnit (1 - (dt * A i i) • L)) (h' : IsRKStep A b dt L g u u')
    (h'' : IsRKStep A b dt L g u u'') : u' = u'' := by
  obtain ⟨k, hk, rfl⟩ := h'
  obtain ⟨l, hl, rfl⟩ := h''
  have e : ∀ m : ℕ, ∀ i : Fin s, i.1 < m → k i = l i := by
    intro m
    induction m with
    | zero => intro i hi; omega
    | succ m ih =>
      intro i hi
      have hs : ∀ f : Fin s → Fin n → α, ∑ j, A i j • f j
          = A i i • f i + ∑ j ∈ Finset.univ.filter (· < i), A i j • f j := by
        intro f
        rw [← Finset.sum_filter_add_sum_filter_not Finset.univ (· < i), add_comm]
        congr 1
        rw [Finset.sum_eq_single i]
        · intro j hj hne
          have : ¬ j < i := by simpa using hj
          rw [hA i j (lt_of_le_of_ne (not_lt.1 this) (Ne.symm hne)), zero_smul]
        · intro h; simp at h
      have hlow : ∑ j ∈ Finset.univ.filter (· < i), A i j • k j
          = ∑ j ∈ Finset.univ.filter (· < i), A i j • l j := by
        refine Finset.sum_congr rfl fun j hj => ?_
        have : j < i := by simpa using hj
        rw [ih j (by omega)]
      have h1 := hk i
      have h2 := hl i
      rw [hs] at h1 h2
      rw [hlow] at h1
      have h3 : (1 - (dt * A i i) • L) *ᵥ (k i - l i) = 0 := by
        rw [Matrix.sub_mulVec, Matrix.one_mulVec, Matrix.smul_mulVec, Matrix.mulVec_sub]
        simp only [Matrix.mulVec_add, Matrix.mulVec_smul] at h1 h2
        linear_combination (norm := module) h1 - h2
      have := (Matrix.mulVec_injective_iff_isUnit.2 (hL i))
      have h4 : k i - l i = 0 := this (by rw [h3, Matrix.mulVec_zero])
      exact sub_eq_zero.1 h4
  have : k = l := funext fun i => e (i.1 + 1) i (Nat.lt_succ_self _)
  rw [this]

end Odes.Spec
