import Verif.Tables.Extrap
import Verif.Tables.Gauss
import Mathlib.Analysis.SpecialFunctions.Integrals.Basic
import Mathlib.Algebra.Polynomial.Eval.Degree
import Mathlib.Tactic.IntervalCases

/-!
# C121: the tables of the class Extrap

`q` predicts the values at the nodes of the next step from the slopes `k_j` at the nodes of the last one,
`Y_i = y + h Σ_j q[8*j+i] k_j` (columns one after the other): for slopes which are the values `p(c_j)` of a
polynomial the prediction is to be the integral of `p` from 0 to `1 + c_i`.
-/

namespace Odes.Symp

open Polynomial

/-- the element for node `i` of the new step and slope `j`, of a table with `d` digits. -/
noncomputable def extrapCoef (d : ℕ) (Q : List ℤ) (i j : ℕ) : ℝ := (Q.getD (8 * j + i) 0 : ℝ) / 10 ^ d

/-- the nodes of the method with 8 stages: sums of the rows of `icoeffs<8,long double>`. -/
noncomputable def node8 (i : ℕ) : ℝ := ((gaussL8.rows.getD i []).sum : ℝ) / 10 ^ gaussL8.da

/-- a table predicts with error at most `tol`, for polynomials of degree at most 7, relative to the sum of the
absolute values of their coefficients. -/
def Predicts (q : ℕ → ℕ → ℝ) (c : ℕ → ℝ) (tol : ℝ) : Prop :=
  ∀ p : ℝ[X], p.natDegree < 8 → ∀ i < 8,
    |∑ j ∈ Finset.range 8, q i j * p.eval (c j) - ∫ x in (0 : ℝ)..1 + c i, p.eval x|
      ≤ tol * ∑ k ∈ Finset.range 8, |p.coeff k|

/-- it is enough to look at the powers. -/
theorem predicts_of {q : ℕ → ℕ → ℝ} {c : ℕ → ℝ} {tol : ℝ}
    (h : ∀ i < 8, ∀ k : ℕ, k < 8 → |∑ j ∈ Finset.range 8, q i j * c j ^ k - (1 + c i) ^ (k + 1) / (k + 1)| ≤ tol) :
    Predicts q c tol := by
  intro p hp i hi
  have e1 : ∀ x, p.eval x = ∑ k ∈ Finset.range 8, p.coeff k * x ^ k := fun x => eval_eq_sum_range' hp x
  have e2 : ∫ x in (0 : ℝ)..1 + c i, p.eval x
      = ∑ k ∈ Finset.range 8, p.coeff k * ((1 + c i) ^ (k + 1) / (k + 1)) := by
    simp only [e1]
    rw [intervalIntegral.integral_finsetSum fun k _ => (by fun_prop : Continuous fun x : ℝ =>
      p.coeff k * x ^ k).intervalIntegrable _ _]
    refine Finset.sum_congr rfl fun k _ => ?_
    rw [intervalIntegral.integral_const_mul, integral_pow, zero_pow (Nat.succ_ne_zero k), sub_zero]
  have e3 : ∑ j ∈ Finset.range 8, q i j * p.eval (c j)
      = ∑ k ∈ Finset.range 8, p.coeff k * ∑ j ∈ Finset.range 8, q i j * c j ^ k := by
    simp only [e1, Finset.mul_sum]
    rw [Finset.sum_comm]
    refine Finset.sum_congr rfl fun k _ => Finset.sum_congr rfl fun j _ => ?_
    ring
  rw [e2, e3, ← Finset.sum_sub_distrib, Finset.mul_sum]
  refine (Finset.abs_sum_le_sum_abs _ _).trans (Finset.sum_le_sum fun k hk => ?_)
  rw [← mul_sub, abs_mul, mul_comm]
  exact mul_le_mul_of_nonneg_right (h i hi k (Finset.mem_range.1 hk)) (abs_nonneg _)

/-- the defect for the power `k`, as an integer. -/
def defect8 (d : ℕ) (Q : List ℤ) (i k : ℕ) : ℤ :=
  (k + 1) * 10 ^ gaussL8.da * ((List.range 8).map fun j => Q.getD (8 * j + i) 0
      * (gaussL8.rows.getD j []).sum ^ k).sum
    - 10 ^ d * (10 ^ gaussL8.da + (gaussL8.rows.getD i []).sum) ^ (k + 1)

theorem defect8_eq (d : ℕ) (Q : List ℤ) (i k : ℕ) :
    ∑ j ∈ Finset.range 8, extrapCoef d Q i j * node8 j ^ k - (1 + node8 i) ^ (k + 1) / (k + 1)
      = (defect8 d Q i k : ℝ) / ((k + 1) * 10 ^ d * (10 ^ gaussL8.da) ^ (k + 1)) := by
  have hk : (k : ℝ) + 1 ≠ 0 := by positivity
  have h1 : ((10 : ℝ) ^ d) ≠ 0 := by positivity
  have h2 : ((10 : ℝ) ^ gaussL8.da) ≠ 0 := by positivity
  have e : (1 + node8 i) = (10 ^ gaussL8.da + ((gaussL8.rows.getD i []).sum : ℝ)) / 10 ^ gaussL8.da := by
    rw [node8, add_div, div_self h2]
  have e2 : ∑ j ∈ Finset.range 8, extrapCoef d Q i j * node8 j ^ k
      = ((((List.range 8).map fun j => Q.getD (8 * j + i) 0 * (gaussL8.rows.getD j []).sum ^ k).sum : ℤ) : ℝ)
        / (10 ^ d * (10 ^ gaussL8.da) ^ k) := by
    have a : ∀ j, extrapCoef d Q i j * node8 j ^ k
        = ((Q.getD (8 * j + i) 0 * (gaussL8.rows.getD j []).sum ^ k : ℤ) : ℝ) / (10 ^ d * (10 ^ gaussL8.da) ^ k) := by
      intro j
      rw [extrapCoef, node8, div_pow, div_mul_div_comm, Int.cast_mul, Int.cast_pow]
    rw [Finset.sum_congr rfl fun j _ => a j, ← Finset.sum_div, ← Int.cast_sum]
    rfl
  rw [e, e2, defect8, div_pow, Int.cast_sub, Int.cast_mul, Int.cast_mul, Int.cast_mul, Int.cast_pow, Int.cast_pow,
    Int.cast_pow, Int.cast_add, Int.cast_add, Int.cast_pow]
  generalize (((List.range 8).map fun j => Q.getD (8 * j + i) 0 * (gaussL8.rows.getD j []).sum ^ k).sum : ℤ) = z
  generalize (gaussL8.rows.getD i []).sum = w
  simp only [Int.cast_ofNat, Int.cast_natCast, Int.cast_one]
  generalize (10 : ℝ) ^ gaussL8.da = A at *
  field_simp
  ring

theorem predicts8 (d : ℕ) (Q : List ℤ) (T N : ℕ)
    (h : ((List.range 8).all fun i => (List.range 8).all fun k =>
      (defect8 d Q i k).natAbs * N ≤ T * ((k + 1) * 10 ^ d * (10 ^ gaussL8.da) ^ (k + 1))) = true) (hN : 0 < N) :
    Predicts (extrapCoef d Q) node8 (T / N) := by
  refine predicts_of fun i hi k hk => ?_
  rw [defect8_eq, abs_div]
  have h1 := of_decide_eq_true (List.all_eq_true.1 (List.all_eq_true.1 h i (List.mem_range.2 hi)) k (List.mem_range.2 hk))
  have p : (0 : ℝ) < (k + 1) * 10 ^ d * (10 ^ gaussL8.da) ^ (k + 1) := by positivity
  rw [abs_of_pos p, div_le_div_iff₀ p (by positivity)]
  have h2 : ((defect8 d Q i k).natAbs : ℝ) * N ≤ T * ((k + 1) * 10 ^ d * (10 ^ gaussL8.da) ^ (k + 1)) := by
    exact_mod_cast h1
  rwa [Nat.cast_natAbs, Int.cast_abs] at h2

/-- C121: **the table for long double predicts polynomials of degree at most 7 with error 2e-26.** -/
theorem extrap_long_double : Predicts (extrapCoef 34 extrapL) node8 (2 / 10 ^ 26) := by
  have := predicts8 34 extrapL 2 (10 ^ 26) (by decide +kernel) (by norm_num)
  norm_num at this ⊢
  exact this

/-- C121: the table for double does so with error 7e-10 only. -/
theorem extrap_double_partial : Predicts (extrapCoef 16 extrapD) node8 (7 / 10 ^ 10) := by
  have := predicts8 16 extrapD 7 (10 ^ 10) (by decide +kernel) (by norm_num)
  norm_num at this ⊢
  exact this

/-- comparison of two tables, relative `T / N`. -/
theorem close64 (T N : ℕ) (h : ((List.range 64).all fun m =>
      (extrapD.getD m 0 * 10 ^ 18 - extrapL.getD m 0).natAbs * N ≤ T * (extrapL.getD m 0).natAbs) = true) (hN : 0 < N)
    {i j : ℕ} (hi : i < 8) (hj : j < 8) :
    |extrapCoef 16 extrapD i j - extrapCoef 34 extrapL i j| ≤ T / N * |extrapCoef 34 extrapL i j| := by
  have h1 := of_decide_eq_true (List.all_eq_true.1 h (8 * j + i) (List.mem_range.2 (by omega)))
  have h2 : (|(extrapD.getD (8 * j + i) 0 : ℝ) * 10 ^ 18 - (extrapL.getD (8 * j + i) 0 : ℝ)|) * N
      ≤ T * |(extrapL.getD (8 * j + i) 0 : ℝ)| := by
    have : (((extrapD.getD (8 * j + i) 0 * 10 ^ 18 - extrapL.getD (8 * j + i) 0).natAbs : ℕ) : ℝ) * N
      ≤ T * ((extrapL.getD (8 * j + i) 0).natAbs : ℕ) := by exact_mod_cast h1
    rw [Nat.cast_natAbs, Nat.cast_natAbs, Int.cast_abs, Int.cast_abs] at this
    norm_num at this ⊢
    exact this
  have e : extrapCoef 16 extrapD i j - extrapCoef 34 extrapL i j
      = ((extrapD.getD (8 * j + i) 0 : ℝ) * 10 ^ 18 - (extrapL.getD (8 * j + i) 0 : ℝ)) / 10 ^ 34 := by
    unfold extrapCoef
    ring
  have n0 : (0 : ℝ) < N := by exact_mod_cast hN
  rw [e, extrapCoef, abs_div, abs_div, abs_of_pos (by positivity : (0 : ℝ) < 10 ^ 34), ← mul_div_assoc]
  refine div_le_div_of_nonneg_right ?_ (by positivity)
  rw [div_mul_eq_mul_div, le_div_iff₀ n0]
  exact h2

/-- C121: the tables for double and long double agree up to a relative 1.2e-11. -/
theorem extrap_tables_agree_partial {i j : ℕ} (hi : i < 8) (hj : j < 8) :
    |extrapCoef 16 extrapD i j - extrapCoef 34 extrapL i j| ≤ 12 / 10 ^ 12 * |extrapCoef 34 extrapL i j| := by
  have := close64 12 (10 ^ 12) (by decide +kernel) (by norm_num) hi hj
  norm_num at this ⊢
  exact this

/-- C121, violated: **the digits printed for double are not those of the coefficients**: `q[1]` is given with 15
digits, the last four are wrong. -/
theorem not_extrap_double_digits :
    1.1e-11 * |extrapCoef 34 extrapL 1 0| ≤ |extrapCoef 16 extrapD 1 0 - extrapCoef 34 extrapL 1 0| := by
  have e1 : extrapD.getD (8 * 0 + 1) 0 = 133004602296517 := by decide +kernel
  have e2 : extrapL.getD (8 * 0 + 1) 0 = 133004602295002209836059857100117 := by decide +kernel
  rw [extrapCoef, extrapCoef, e1, e2]
  rw [abs_of_pos (by norm_num), abs_of_pos (by norm_num)]
  norm_num

/-- C121: the constant slope 1, predicted value `1 + c_i`. -/
example : |∑ j ∈ Finset.range 8, extrapCoef 34 extrapL 0 j - (1 + node8 0)| ≤ 2 / 10 ^ 26 := by
  have := extrap_long_double 1 (by simp) 0 (by norm_num)
  simpa [Polynomial.coeff_one, Finset.sum_range_succ] using this

end Odes.Symp
