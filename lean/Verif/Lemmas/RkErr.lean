import Verif.Spec.RkErr
import Mathlib.Analysis.Calculus.MeanValue
import Mathlib.Analysis.Calculus.Deriv.Shift
import Mathlib.Analysis.Calculus.Deriv.Pow
import Mathlib.Analysis.Calculus.Deriv.Mul
import Mathlib.Analysis.SpecialFunctions.Exp
import Mathlib.Tactic.Module

/-!
# Error of one perturbed Runge-Kutta step
-/

namespace Odes.Spec

open Finset

variable {E : Type*} [NormedAddCommGroup E] [NormedSpace ℝ E]

/-- Taylor's formula. -/
theorem taylor_seq {a b M : ℝ} (m : ℕ) {y : ℕ → ℝ → E}
    (hd : ∀ j, j < m → ∀ t, a ≤ t → t ≤ b → HasDerivAt (y j) (y (j + 1) t) t)
    (hM : ∀ t, a ≤ t → t ≤ b → ‖y m t‖ ≤ M) {t : ℝ} (ht : a ≤ t) {X : ℝ} (hX : t + X ≤ b) :
    ∀ x, 0 ≤ x → x ≤ X →
      ‖y 0 (t + x) - ∑ k ∈ range m, (x ^ k / (k.factorial : ℝ)) • y k t‖ ≤ M * x ^ m / m.factorial := by
  induction m generalizing y with
  | zero =>
    intro x h0 h1
    simpa using hM (t + x) (by linarith) (by linarith)
  | succ m ih =>
    have ih' := ih (y := fun j => y (j + 1)) (fun j hj => hd (j + 1) (by omega)) hM
    -- derivative of the remainder
    have hR : ∀ x, 0 ≤ x → x ≤ X → HasDerivAt
        (fun x => y 0 (t + x) - ∑ k ∈ range (m + 1), (x ^ k / (k.factorial : ℝ)) • y k t)
        (y 1 (t + x) - ∑ k ∈ range m, (x ^ k / (k.factorial : ℝ)) • y (k + 1) t) x := by
      intro x h0 h1
      have h2 : HasDerivAt (fun x => y 0 (t + x)) (y 1 (t + x)) x :=
        (hd 0 (by omega) (t + x) (by linarith) (by linarith)).comp_const_add t x
      have h3 : HasDerivAt (fun x : ℝ => ∑ k ∈ range (m + 1), (x ^ k / (k.factorial : ℝ)) • y k t)
          (∑ k ∈ range m, (x ^ k / (k.factorial : ℝ)) • y (k + 1) t) x := by
        have e : (fun x : ℝ => ∑ k ∈ range (m + 1), (x ^ k / (k.factorial : ℝ)) • y k t) =
            fun x : ℝ => ∑ k ∈ range m, (x ^ (k + 1) / ((k + 1).factorial : ℝ)) • y (k + 1) t +
              (1 : ℝ) • y 0 t := by
          funext x
          rw [sum_range_succ']
          simp
        rw [e]
        refine HasDerivAt.add_const _ (HasDerivAt.fun_sum fun k _ => ?_)
        refine HasDerivAt.smul_const ?_ _
        have := (hasDerivAt_pow (k + 1) x).div_const ((k + 1).factorial : ℝ)
        refine this.congr_deriv ?_
        rw [Nat.factorial_succ]
        push_cast
        have : (k.factorial : ℝ) ≠ 0 := by exact_mod_cast k.factorial_ne_zero
        have h1 : (k : ℝ) + 1 ≠ 0 := by positivity
        field_simp
      exact h2.sub h3
    intro x h0 h1
    have := image_norm_le_of_norm_deriv_right_le_deriv_boundary (a := (0 : ℝ)) (b := X)
      (f := fun x => y 0 (t + x) - ∑ k ∈ range (m + 1), (x ^ k / (k.factorial : ℝ)) • y k t)
      (f' := fun x => y 1 (t + x) - ∑ k ∈ range m, (x ^ k / (k.factorial : ℝ)) • y (k + 1) t)
      (B := fun x => M * x ^ (m + 1) / (m + 1).factorial) (B' := fun x => M * x ^ m / m.factorial)
      (fun x hx => (hR x hx.1 hx.2).continuousAt.continuousWithinAt)
      (fun x hx => (hR x hx.1 hx.2.le).hasDerivWithinAt) ?_ ?_ ?_ ⟨h0, h1⟩
    · exact this
    · rw [sum_range_succ']
      simp
    · intro x
      have := ((hasDerivAt_pow (m + 1) x).const_mul M).div_const ((m + 1).factorial : ℝ)
      refine this.congr_deriv ?_
      rw [Nat.factorial_succ]
      push_cast
      have : (m.factorial : ℝ) ≠ 0 := by exact_mod_cast m.factorial_ne_zero
      have h1 : (m : ℝ) + 1 ≠ 0 := by positivity
      field_simp
    · intro x hx
      exact ih' x hx.1 hx.2.le

/-- truncation error of `y(t+c0 h) - y(t) ≈ h Σ a_j y'(t+c_j h)`. -/
theorem quad_resid {s : ℕ} {w c : Fin s → ℝ} {c0 δ S : ℝ} {q : ℕ} {M : ℕ → ℝ} {y : ℕ → ℝ → E} {a b : ℝ}
    (hc : ∀ j, 0 ≤ c j ∧ c j ≤ 1) (hc0 : 0 ≤ c0 ∧ c0 ≤ 1)
    (hw : ∀ k, k < q → |∑ j, w j * c j ^ k - c0 ^ (k + 1) / (k + 1)| ≤ δ) (hS : ∑ j, |w j| ≤ S)
    (hy : Smooth y a b (q + 1) M) {t h : ℝ} (ht : a ≤ t) (hh : 0 ≤ h) (hth : t + h ≤ b) :
    ‖y 0 (t + c0 * h) - y 0 t - h • ∑ j, w j • y 1 (t + c j * h)‖ ≤ trunc δ S q M h := by
  have hM : ∀ k, k ≤ q + 1 → 0 ≤ M k := fun k hk => (norm_nonneg _).trans (hy.bound k hk t ht (by linarith))
  have hq : (0 : ℝ) < q.factorial := by exact_mod_cast q.factorial_pos
  have hc0h : c0 * h ≤ h := by nlinarith [hc0.2]
  set R0 := y 0 (t + c0 * h) - ∑ k ∈ range (q + 1), ((c0 * h) ^ k / (k.factorial : ℝ)) • y k t with hR0
  set R := fun j => y 1 (t + c j * h) - ∑ k ∈ range q, ((c j * h) ^ k / (k.factorial : ℝ)) • y (k + 1) t
    with hR
  have e0 : ‖R0‖ ≤ M (q + 1) * h ^ (q + 1) / q.factorial := by
    have := taylor_seq (q + 1) hy.deriv (hy.bound (q + 1) le_rfl) ht hth (c0 * h)
      (mul_nonneg hc0.1 hh) hc0h
    refine this.trans ?_
    have h1 : (c0 * h) ^ (q + 1) ≤ h ^ (q + 1) := pow_le_pow_left₀ (mul_nonneg hc0.1 hh) hc0h _
    have h2 : (q.factorial : ℝ) ≤ (q + 1).factorial := by
      exact_mod_cast Nat.factorial_le (Nat.le_succ q)
    refine div_le_div₀ ?_ (mul_le_mul_of_nonneg_left h1 (hM _ le_rfl)) hq h2
    exact mul_nonneg (hM _ le_rfl) (pow_nonneg hh _)
  have e1 : ∀ j, ‖R j‖ ≤ M (q + 1) * h ^ q / q.factorial := by
    intro j
    have hcj : c j * h ≤ h := by nlinarith [(hc j).2]
    have := taylor_seq (a := a) (b := b) q (y := fun j => y (j + 1)) (fun j hj => hy.deriv (j + 1) (by omega))
      (hy.bound (q + 1) le_rfl) ht hth (c j * h) (mul_nonneg (hc j).1 hh) hcj
    refine this.trans ?_
    have h1 : (c j * h) ^ q ≤ h ^ q := pow_le_pow_left₀ (mul_nonneg (hc j).1 hh) hcj _
    exact div_le_div_of_nonneg_right (mul_le_mul_of_nonneg_left h1 (hM _ le_rfl)) hq.le
  have key : y 0 (t + c0 * h) - y 0 t - h • ∑ j, w j • y 1 (t + c j * h) =
      ∑ k ∈ range q, (-(h ^ (k + 1) / k.factorial * (∑ j, w j * c j ^ k - c0 ^ (k + 1) / (k + 1)))) •
        y (k + 1) t + (R0 - h • ∑ j, w j • R j) := by
    have a1 : y 0 (t + c0 * h) = R0 + y 0 t +
        ∑ k ∈ range q, ((c0 * h) ^ (k + 1) / ((k + 1).factorial : ℝ)) • y (k + 1) t := by
      rw [hR0, sum_range_succ']
      simp only [pow_zero, Nat.factorial_zero, Nat.cast_one, div_one, one_smul]
      module
    have a2 : ∀ j, y 1 (t + c j * h) =
        R j + ∑ k ∈ range q, ((c j * h) ^ k / (k.factorial : ℝ)) • y (k + 1) t := by
      intro j
      rw [hR]; module
    have a3 : ∑ j, w j • y 1 (t + c j * h) = ∑ j, w j • R j +
        ∑ k ∈ range q, (∑ j, w j * ((c j * h) ^ k / (k.factorial : ℝ))) • y (k + 1) t := by
      simp only [sum_smul]
      rw [sum_comm, ← sum_add_distrib]
      refine sum_congr rfl fun j _ => ?_
      rw [a2 j, smul_add, smul_sum]
      congr 1
      exact sum_congr rfl fun k _ => by rw [smul_smul]
    rw [a1, a3, smul_add, smul_sum (s := range q)]
    have a4 : ∑ k ∈ range q, (-(h ^ (k + 1) / k.factorial *
        (∑ j, w j * c j ^ k - c0 ^ (k + 1) / (k + 1)))) • y (k + 1) t =
        ∑ k ∈ range q, ((c0 * h) ^ (k + 1) / ((k + 1).factorial : ℝ)) • y (k + 1) t -
        ∑ k ∈ range q, h • (∑ j, w j * ((c j * h) ^ k / (k.factorial : ℝ))) • y (k + 1) t := by
      rw [← sum_sub_distrib]
      refine sum_congr rfl fun k _ => ?_
      rw [smul_smul, ← sub_smul]
      congr 1
      have b1 : ∑ j, w j * ((c j * h) ^ k / (k.factorial : ℝ)) =
          h ^ k / k.factorial * ∑ j, w j * c j ^ k := by
        rw [mul_sum]
        exact sum_congr rfl fun j _ => by rw [mul_pow]; ring
      rw [b1, Nat.factorial_succ]
      push_cast
      have : (k.factorial : ℝ) ≠ 0 := by exact_mod_cast k.factorial_ne_zero
      have h1 : (k : ℝ) + 1 ≠ 0 := by positivity
      rw [mul_pow]
      field_simp
      ring
    rw [a4]
    module
  rw [key]
  have f1 : ‖∑ k ∈ range q, (-(h ^ (k + 1) / k.factorial *
      (∑ j, w j * c j ^ k - c0 ^ (k + 1) / (k + 1)))) • y (k + 1) t‖ ≤
      δ * ∑ k ∈ range q, h ^ (k + 1) / k.factorial * M (k + 1) := by
    rw [mul_sum]
    refine (norm_sum_le _ _).trans (sum_le_sum fun k hk => ?_)
    have hk := mem_range.1 hk
    rw [norm_smul, Real.norm_eq_abs, abs_neg, abs_mul]
    have h1 : |h ^ (k + 1) / (k.factorial : ℝ)| = h ^ (k + 1) / k.factorial := abs_of_nonneg (by positivity)
    rw [h1]
    have h2 := hy.bound (k + 1) (by omega) t ht (by linarith)
    have h3 := hw k hk
    have h4 : 0 ≤ h ^ (k + 1) / (k.factorial : ℝ) := by positivity
    calc h ^ (k + 1) / k.factorial * |∑ j, w j * c j ^ k - c0 ^ (k + 1) / (k + 1)| * ‖y (k + 1) t‖
        ≤ h ^ (k + 1) / k.factorial * δ * M (k + 1) :=
          mul_le_mul (mul_le_mul_of_nonneg_left h3 h4) h2 (norm_nonneg _)
            (mul_nonneg h4 ((abs_nonneg _).trans h3))
      _ = δ * (h ^ (k + 1) / k.factorial * M (k + 1)) := by ring
  have f2 : ‖h • ∑ j, w j • R j‖ ≤ S * M (q + 1) * h ^ (q + 1) / q.factorial := by
    have g0 : 0 ≤ M (q + 1) * h ^ q / (q.factorial : ℝ) :=
      div_nonneg (mul_nonneg (hM _ le_rfl) (pow_nonneg hh _)) hq.le
    have g1 : ‖∑ j, w j • R j‖ ≤ S * (M (q + 1) * h ^ q / q.factorial) := by
      calc ‖∑ j, w j • R j‖ ≤ ∑ j, |w j| * (M (q + 1) * h ^ q / q.factorial) := by
            refine (norm_sum_le _ _).trans (sum_le_sum fun j _ => ?_)
            rw [norm_smul, Real.norm_eq_abs]
            exact mul_le_mul_of_nonneg_left (e1 j) (abs_nonneg _)
        _ = (∑ j, |w j|) * (M (q + 1) * h ^ q / q.factorial) := by rw [sum_mul]
        _ ≤ _ := mul_le_mul_of_nonneg_right hS g0
    rw [norm_smul, Real.norm_eq_abs, abs_of_nonneg hh]
    refine (mul_le_mul_of_nonneg_left g1 hh).trans_eq ?_
    rw [pow_succ]; ring
  unfold trunc
  refine (norm_add_le _ _).trans ?_
  have := norm_sub_le R0 (h • ∑ j, w j • R j)
  have e : (1 + S) * M (q + 1) * h ^ (q + 1) / (q.factorial : ℝ) =
      M (q + 1) * h ^ (q + 1) / q.factorial + S * M (q + 1) * h ^ (q + 1) / q.factorial := by ring
  rw [e]
  linarith

/-- error of `u + h Σ w_j K_j`, computed with an error `r` from slopes with errors, as an approximation
of the solution at `t+c0 h`. -/
theorem rk_err {s : ℕ} {w c : Fin s → ℝ} {c0 δ S : ℝ} {q : ℕ} {M : ℕ → ℝ} {f : E → E} {y : ℕ → ℝ → E}
    {a b ρ L : ℝ} (hc : ∀ j, 0 ≤ c j ∧ c j ≤ 1) (hc0 : 0 ≤ c0 ∧ c0 ≤ 1)
    (hw : ∀ k, k < q → |∑ j, w j * c j ^ k - c0 ^ (k + 1) / (k + 1)| ≤ δ) (hS : ∑ j, |w j| ≤ S)
    (hy : Smooth y a b (q + 1) M) (hf : Tube f y a b ρ L) (hL : 0 ≤ L)
    {t h : ℝ} (ht : a ≤ t) (hh : 0 ≤ h) (hth : t + h ≤ b)
    {Y K : Fin s → E} {e η : ℝ} (he : ∀ j, ‖Y j - y 0 (t + c j * h)‖ ≤ e) (heρ : e ≤ ρ) (hη : 0 ≤ η)
    (he0 : 0 ≤ e) (hK : ∀ j, ‖K j - f (Y j)‖ ≤ η) {u Z : E} {r : ℝ}
    (hZ : ‖Z - (u + h • ∑ j, w j • K j)‖ ≤ r) :
    ‖Z - y 0 (t + c0 * h)‖ ≤ ‖u - y 0 t‖ + h * S * (η + L * e) + r + trunc δ S q M h := by
  have h1 := quad_resid hc hc0 hw hS hy ht hh hth
  have hk : ∀ j, ‖K j - y 1 (t + c j * h)‖ ≤ η + L * e := by
    intro j
    have t1 : a ≤ t + c j * h := by nlinarith [mul_nonneg (hc j).1 hh]
    have t2 : t + c j * h ≤ b := by nlinarith [(hc j).2]
    rw [hf.ode _ t1 t2]
    have := hf.lip _ t1 t2 (Y j) ((he j).trans heρ)
    have h3 : K j - f (y 0 (t + c j * h)) = (K j - f (Y j)) + (f (Y j) - f (y 0 (t + c j * h))) := by abel
    rw [h3]
    refine (norm_add_le _ _).trans (add_le_add (hK j) (this.trans ?_))
    exact mul_le_mul_of_nonneg_left (he j) hL
  have h2 : ‖h • ∑ j, w j • (K j - y 1 (t + c j * h))‖ ≤ h * S * (η + L * e) := by
    rw [norm_smul, Real.norm_eq_abs, abs_of_nonneg hh, mul_assoc]
    refine mul_le_mul_of_nonneg_left ?_ hh
    calc ‖∑ j, w j • (K j - y 1 (t + c j * h))‖ ≤ ∑ j, |w j| * (η + L * e) := by
          refine (norm_sum_le _ _).trans (sum_le_sum fun j _ => ?_)
          rw [norm_smul, Real.norm_eq_abs]
          exact mul_le_mul_of_nonneg_left (hk j) (abs_nonneg _)
      _ = (∑ j, |w j|) * (η + L * e) := by rw [sum_mul]
      _ ≤ _ := mul_le_mul_of_nonneg_right hS (by positivity)
  have e1 : Z - y 0 (t + c0 * h) = (Z - (u + h • ∑ j, w j • K j)) + (u - y 0 t) +
      h • ∑ j, w j • (K j - y 1 (t + c j * h)) -
      (y 0 (t + c0 * h) - y 0 t - h • ∑ j, w j • y 1 (t + c j * h)) := by
    have : ∑ j, w j • (K j - y 1 (t + c j * h)) =
        ∑ j, w j • K j - ∑ j, w j • y 1 (t + c j * h) := by
      rw [← sum_sub_distrib]
      exact sum_congr rfl fun j _ => smul_sub _ _ _
    rw [this]
    module
  rw [e1]
  refine (norm_sub_le _ _).trans ?_
  have h3 := norm_add_le (Z - (u + h • ∑ j, w j • K j) + (u - y 0 t))
    (h • ∑ j, w j • (K j - y 1 (t + c j * h)))
  have h4 := norm_add_le (Z - (u + h • ∑ j, w j • K j)) (u - y 0 t)
  linarith

/-- discrete Gronwall inequality. -/
theorem gronwall_step {N : ℕ} {x e0 e e' g : ℝ} (hx : 0 ≤ x) (he0 : 0 ≤ e0) (hg : 0 ≤ g)
    (he : e ≤ Real.exp (x * N) * (e0 + N * g)) (he' : e' ≤ (1 + x) * e + g) :
    e' ≤ Real.exp (x * (N + 1 : ℕ)) * (e0 + (N + 1 : ℕ) * g) := by
  have h1 : 1 + x ≤ Real.exp x := by linarith [Real.add_one_le_exp x]
  have h2 : Real.exp (x * (N + 1 : ℕ)) = Real.exp x * Real.exp (x * N) := by
    rw [← Real.exp_add]; congr 1; push_cast; ring
  have h3 : (1 + x) * e ≤ (1 + x) * (Real.exp (x * N) * (e0 + N * g)) :=
    mul_le_mul_of_nonneg_left he (by linarith)
  have h4 : 0 ≤ Real.exp (x * N) * (e0 + N * g) := by positivity
  have h5 : (1 + x) * (Real.exp (x * N) * (e0 + N * g)) ≤
      Real.exp x * (Real.exp (x * N) * (e0 + N * g)) := mul_le_mul_of_nonneg_right h1 h4
  have h6 : g ≤ Real.exp (x * (N + 1 : ℕ)) * g :=
    le_mul_of_one_le_left hg (Real.one_le_exp (by positivity))
  have h7 : Real.exp (x * (N + 1 : ℕ)) * (e0 + (N + 1 : ℕ) * g) =
      Real.exp x * (Real.exp (x * N) * (e0 + N * g)) + Real.exp (x * (N + 1 : ℕ)) * g := by
    rw [h2]; push_cast; ring
  rw [h7]
  linarith

end Odes.Spec
