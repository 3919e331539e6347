import Verif.Props.Rodas

/-!
# C99: what the flag `autonomous` of Rodas is worth

The problem `y' = t` (one component, Jacobian 0).  With the time derivative the step has the order of the
method; with `autonomous=true` the term with the time derivative is left out and the error of one step is
of second order.
-/

namespace Odes.Rodas

open Spec

/-- the right hand side `t`. -/
def clock : ℝ → (Fin 1 → ℝ) → Fin 1 → ℝ := fun t _ _ => t

/-- the relevant sums of the three tables. -/
theorem flag_sums {meth : ℤ} {c : Coef ℚ} (hc : rocoe meth = some c) :
    0.02 ≤ |∑ i, (classic c).b i * (method c).alpha i - 1 / 2| ∧
    |∑ i, (classic c).b i * ((method c).alpha i + (method c).d i) - 1 / 2| ≤ 1e-13 := by
  have key : ∀ m ∈ [(1 : ℤ), 2, 3], ∀ c ∈ rocoe m,
      0.02 ≤ |∑ i, (classic c).b i * (method c).alpha i - 1 / 2| ∧
      |∑ i, (classic c).b i * ((method c).alpha i + (method c).d i) - 1 / 2| ≤ 1e-13 := by
    decide +kernel
  exact key meth (by rcases rocoe_cases hc with h | h | h <;> simp [h]) c hc

theorem clock_step {meth : ℤ} {c : Coef ℚ} (hc : rocoe meth = some c) {h y ft : ℝ} (h0 : h ≠ 0)
    {k : Fin 6 → Fin 1 → ℝ} {ynew : Fin 1 → ℝ}
    (hs : (method c.real).Step clock 0 (fun _ => ft) 0 h (fun _ => y) k ynew) :
    ynew 0 = y + h ^ 2 * (∑ i, (classic c).b i * ((method c).alpha i) : ℚ)
      + h ^ 2 * ft * (∑ i, (classic c).b i * (method c).d i : ℚ) := by
  obtain ⟨u, h1, h2⟩ := rodas_step_classic hc h0 hs
  obtain ⟨-, m2, m3, -⟩ := method_real c
  have e : ∀ i, u i 0 = h ^ 2 * ((method c).alpha i : ℚ) + h ^ 2 * ft * ((method c).d i : ℚ) := fun i => by
    rw [h1 i]
    simp only [clock, Matrix.zero_mulVec, smul_zero, add_zero, Pi.add_apply, Pi.smul_apply, smul_eq_mul,
      m2, m3, zero_add]
    ring
  rw [h2]
  simp only [Pi.add_apply, Finset.sum_apply, Pi.smul_apply, smul_eq_mul, e, classicR]
  push_cast
  rw [add_assoc, Finset.mul_sum, Finset.mul_sum, ← Finset.sum_add_distrib]
  congr 1
  exact Finset.sum_congr rfl fun i _ => by ring

/-- C99: for each of the three methods, the step of size `h` on `y' = t` computed with `autonomous=true` is
wrong by at least `0.02*h^2`; with the time derivative it is right up to `1e-13*h^2`. -/
theorem rodas_flag_matters {meth : ℤ} {c : Coef ℚ} (hc : rocoe meth = some c) {h y : ℝ} (h0 : h ≠ 0)
    {k : Fin 6 → Fin 1 → ℝ} {ynew : Fin 1 → ℝ} :
    ((method c.real).Step clock 0 (fun _ => 0) 0 h (fun _ => y) k ynew →
      0.02 * h ^ 2 ≤ |ynew 0 - (y + h ^ 2 / 2)|) ∧
    ((method c.real).Step clock 0 (fun _ => 1) 0 h (fun _ => y) k ynew →
      |ynew 0 - (y + h ^ 2 / 2)| ≤ 1e-13 * h ^ 2) := by
  obtain ⟨s1, s2⟩ := flag_sums hc
  have s1' : (0.02 : ℝ) ≤ |((∑ i, (classic c).b i * (method c).alpha i : ℚ) : ℝ) - 1 / 2| := by
    have := (Rat.cast_le (K := ℝ)).2 s1
    push_cast at this ⊢
    norm_num at this ⊢
    exact this
  have s2' : |((∑ i, (classic c).b i * (method c).alpha i : ℚ) : ℝ)
      + ((∑ i, (classic c).b i * (method c).d i : ℚ) : ℝ) - 1 / 2| ≤ 1e-13 := by
    rw [← Rat.cast_add, ← Finset.sum_add_distrib]
    simp only [← mul_add]
    have := (Rat.cast_le (K := ℝ)).2 s2
    push_cast at this ⊢
    norm_num at this ⊢
    exact this
  have hh := sq_nonneg h
  constructor
  · intro hs
    rw [clock_step hc h0 hs]
    have e : ∀ A B : ℝ, y + h ^ 2 * A + h ^ 2 * 0 * B - (y + h ^ 2 / 2) = h ^ 2 * (A - 1 / 2) := by
      intros; ring
    rw [e, abs_mul, abs_of_nonneg hh, mul_comm]
    exact mul_le_mul_of_nonneg_left s1' hh
  · intro hs
    rw [clock_step hc h0 hs]
    have e : ∀ A B : ℝ, y + h ^ 2 * A + h ^ 2 * 1 * B - (y + h ^ 2 / 2) = h ^ 2 * (A + B - 1 / 2) := by
      intros; ring
    rw [e, abs_mul, abs_of_nonneg hh, mul_comm]
    exact mul_le_mul_of_nonneg_right s2' hh

/-- C99: the same for the stages of the code, with a correct linear algebra: a step from time 0 on `y' = t`
with the flag `autonomous=true` is wrong by at least `0.02*h^2`, with `autonomous=false` and the exact time
derivative it is right up to `1e-13*h^2`. -/
theorem rodas_flag_attempt {L : Lin ℝ 1} {Shape : (Fin 1 → Fin 1 → ℝ) → Prop} (hL : LinSpec L Shape)
    {meth : ℤ} {c : Coef ℚ} (hc : rocoe meth = some c) {P : Prob ℝ 1} (hF : P.F = clock) {h y : ℝ}
    (h0 : h ≠ 0) {s j : L.σ} {k : Stages ℝ 1} (hJ : hL.R (fun _ _ => 0) s)
    (ha : attempt L P c.real 0 h (fun _ => y) (P.F 0 fun _ => y) (fun _ => 1) s = some (j, k)) :
    (P.autonms = true → 0.02 * h ^ 2 ≤ |k.YNEW 0 - (y + h ^ 2 / 2)|) ∧
    (P.autonms = false → |k.YNEW 0 - (y + h ^ 2 / 2)| ≤ 1e-13 * h ^ 2) := by
  have hs := (rodas_stages hL P c.real 0 h _ _ hJ ha).2
  rw [hF] at hs
  have e : Matrix.of (fun _ _ => 0 : Fin 1 → Fin 1 → ℝ) = 0 := rfl
  rw [e] at hs
  constructor
  · intro hP
    rw [if_pos hP] at hs
    exact (rodas_flag_matters hc h0).1 hs
  · intro hP
    rw [if_neg (by simp [hP])] at hs
    exact (rodas_flag_matters hc h0).2 hs

/-- the hypotheses of `rodas_flag_attempt` hold: one step of size 1 with exact linear algebra. -/
example {meth : ℤ} {c : Coef ℚ} (hc : rocoe meth = some c) (b : Bool) :
    ∃ (P : Prob ℝ 1) (j : (exactLin 1).σ) (k : Stages ℝ 1), P.F = clock ∧ P.autonms = b ∧
      (exactLin_spec 1).R (fun _ _ => 0) ((exactLin 1).load fun _ _ => 0) ∧
      attempt (exactLin 1) P c.real 0 1 (fun _ => 0) (P.F 0 fun _ => 0) (fun _ => 1)
        ((exactLin 1).load fun _ _ => 0) = some (j, k) := by
  have hg : c.real.GAMMA ≠ 0 := by
    have : c.GAMMA ≠ 0 := by
      have key : ∀ m ∈ [(1 : ℤ), 2, 3], ∀ c ∈ rocoe m, c.GAMMA ≠ 0 := by decide +kernel
      exact key meth (by rcases rocoe_cases hc with h | h | h <;> simp [h]) c hc
    exact Rat.cast_ne_zero.2 this
  have e : (exactLin 1).decomr (1 / (1 * c.real.GAMMA)) ((exactLin 1).load fun _ _ => 0) =
      some (fun _ _ => 0, 1 / (1 * c.real.GAMMA)) := by
    refine if_neg ?_
    simp [shifted, hg, exactLin]
  let P : Prob ℝ 1 := ⟨clock, fun _ _ _ _ _ => 0, fun _ _ _ => 1, false, b, true, fun _ _ => true⟩
  have h : ∃ q, attempt (exactLin 1) P c.real 0 1 (fun _ => 0) (P.F 0 fun _ => 0) (fun _ => 1)
      ((exactLin 1).load fun _ _ => 0) = some q := by
    unfold attempt
    rw [e]
    exact ⟨_, rfl⟩
  obtain ⟨⟨j, k⟩, h⟩ := h
  exact ⟨P, j, k, rfl, rfl, rfl, h⟩

end Odes.Rodas
