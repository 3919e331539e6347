import Verif.Props.StiffTest
import Mathlib.Tactic.FinCases

/-!
# Stiff test problems: Oregonator, E5, BZ

C92, C93, C94 (E5).
-/

namespace Odes.Stiff

open Odes.Mem Odes.Storage Spec.Heat

/-! ### Oregonator -/

/-- derivatives of the right hand side by the product rule -/
theorem ore_partial (y : Fin 3 → ℝ) (i j : Fin 3) : IsPartial oreRhs y i j
    ((![77.27 * ((if 1 = j then 1 else 0) + ((if 0 = j then 1 else 0) * (1 - 8.375e-06 * y 0 - y 1) +
        y 0 * (-(8.375e-06 * (if 0 = j then 1 else 0)) - (if 1 = j then 1 else 0)))),
      ((if 2 = j then 1 else 0) - ((if 0 = j then 1 else 0) * y 1 + (1 + y 0) * (if 1 = j then 1 else 0)))
        * u7,
      0.161 * ((if 0 = j then 1 else 0) - (if 2 = j then 1 else 0))] : Fin 3 → ℝ) i) := by
  have h0 := hasDerivAt_coord y j 0
  have h1 := hasDerivAt_coord y j 1
  have h2 := hasDerivAt_coord y j 2
  have e : ∀ k, Function.update y j (y j) k = y k := fun k => by rw [Function.update_eq_self]
  unfold IsPartial oreRhs
  fin_cases i
  · have h := (h1.fun_add (h0.fun_mul (((h0.const_mul 8.375e-06).const_sub 1).fun_sub h1))).const_mul 77.27
    simp only [e] at h
    exact h
  · have h := (h2.fun_sub ((h0.const_add 1).fun_mul h1)).mul_const u7
    simp only [e] at h
    exact h
  · exact (h0.fun_sub h2).const_mul 0.161

/-- C93: the Jacobian of the Oregonator of Radau5 is exact. -/
theorem ore_jac_radau (y : Fin 3 → ℝ) (i j : Fin 3) : IsPartial oreRhs y i j (oreJacRadau y i j) := by
  refine (ore_partial y i j).congr_deriv ?_
  have ea : (0.00129427250 : ℝ) = 2 * (77.27 * 8.375e-06) := by norm_num
  have eb : (77.270 : ℝ) = 77.27 := by norm_num
  have ec : (0.16100 : ℝ) = 0.161 := by norm_num
  have ez : (0.0 : ℝ) = 0 := by norm_num
  have eo : (1.0 : ℝ) = 1 := by norm_num
  match i, j with
  | 0, 0 =>
      show 77.27 * ((0 : ℝ) + (1 * (1 - 8.375e-06 * y 0 - y 1) + y 0 * (-(8.375e-06 * 1) - 0)))
      = -0.00129427250 * y 0 - 77.270 * y 1 + 77.270
      rw [ea, eb]; ring
  | 0, 1 =>
      show 77.27 * ((1 : ℝ) + (0 * (1 - 8.375e-06 * y 0 - y 1) + y 0 * (-(8.375e-06 * 0) - 1)))
      = -77.270 * y 0 + 77.270
      rw [eb]; ring
  | 0, 2 =>
      show 77.27 * ((0 : ℝ) + (0 * (1 - 8.375e-06 * y 0 - y 1) + y 0 * (-(8.375e-06 * 0) - 0)))
      = 0.0
      rw [ez]; ring
  | 1, 0 =>
      show ((0 : ℝ) - (1 * y 1 + (1 + y 0) * 0)) * u7
      = -u7 * y 1
      ring
  | 1, 1 =>
      show ((0 : ℝ) - (0 * y 1 + (1 + y 0) * 1)) * u7
      = -u7 * (y 0 + 1.0)
      rw [eo]; ring
  | 1, 2 =>
      show ((1 : ℝ) - (0 * y 1 + (1 + y 0) * 0)) * u7
      = u7
      ring
  | 2, 0 =>
      show 0.161 * ((1 : ℝ) - 0)
      = 0.161
      ring
  | 2, 1 =>
      show 0.161 * ((0 : ℝ) - 0)
      = 0.0
      rw [ez]; ring
  | 2, 2 =>
      show 0.161 * ((0 : ℝ) - 1)
      = -0.16100
      rw [ec]; ring

/-- C93: the Jacobian of the Oregonator of Rodas: all entries but the first are right, those with the
constant `1/77.27` up to `1e-16` (relative to `|y1|+|y0|+1`). -/
theorem ore_jac_rodas_partial (y : Fin 3 → ℝ) (i j : Fin 3) (h : ¬ (i = 0 ∧ j = 0)) :
    ∃ d, IsPartial oreRhs y i j d ∧ |oreJacRodas y i j - d| ≤ 1e-16 * (|y 0| + |y 1| + 1) := by
  refine ⟨_, ore_jac_radau y i j, ?_⟩
  have hu : |(0.0129416332341141 : ℝ) - u7| ≤ 1e-16 := by
    unfold u7
    rw [abs_le]
    constructor <;> norm_num
  have h0 : 0 ≤ (1e-16 : ℝ) * (|y 0| + |y 1| + 1) := by positivity
  have hc : ∀ {c e z : ℝ}, |c - u7| ≤ e → 0 ≤ e → |z| ≤ |y 0| + |y 1| + 1 →
      |(c - u7) * z| ≤ e * (|y 0| + |y 1| + 1) := fun h1 h2 h3 => by
    rw [abs_mul]
    exact mul_le_mul h1 h3 (abs_nonneg _) h2
  have e1 : ∀ c : ℝ, -c * y 1 - -u7 * y 1 = -((c - u7) * y 1) := fun c => by ring
  have e2 : ∀ c : ℝ, -c * y 0 - c - -u7 * (y 0 + 1) = -((c - u7) * (y 0 + 1)) := fun c => by ring
  have a0 := abs_nonneg (y 0)
  have a1 := abs_nonneg (y 1)
  unfold oreJacRodas oreJacRadau
  fin_cases i <;> fin_cases j
  · exact absurd ⟨rfl, rfl⟩ h
  · exact (congrArg abs (sub_self _)).trans_le (abs_zero.trans_le h0)
  · exact (congrArg abs (sub_self _)).trans_le (abs_zero.trans_le h0)
  · show |-0.0129416332341141 * y 1 - -u7 * y 1| ≤ _
    rw [e1, abs_neg]
    exact hc hu (by norm_num) (by linarith)
  · show |-0.0129416332341141 * y 0 - 0.0129416332341141 - -u7 * (y 0 + 1.0)| ≤ _
    rw [show (1.0 : ℝ) = 1 by norm_num, e2, abs_neg]
    exact hc hu (by norm_num) ((abs_add_le _ _).trans (by rw [abs_one]; linarith))
  · show |0.0129416332341141 - u7| ≤ _
    rw [← mul_one (0.0129416332341141 - u7)]
    exact hc hu (by norm_num) (by rw [abs_one]; linarith)
  · exact (congrArg abs (sub_self _)).trans_le (abs_zero.trans_le h0)
  · exact (congrArg abs (sub_self _)).trans_le (abs_zero.trans_le h0)
  · exact (congrArg abs (sub_self _)).trans_le (abs_zero.trans_le h0)

/-- C93 fails: in the Jacobian of the Oregonator of Rodas the sign of the first term of the first entry is
wrong; it is not the derivative unless `y0 = 0`. -/
theorem ore_jac_rodas_fails {y : Fin 3 → ℝ} (h : y 0 ≠ 0) : ¬ IsPartial oreRhs y 0 0 (oreJacRodas y 0 0) := by
  intro h1
  have h2 := IsPartial.unique h1 (ore_jac_radau y 0 0)
  apply h
  have h3 : (0.00129427250 : ℝ) * y 0 - 77.270 * y 1 + 77.270
      = -0.00129427250 * y 0 - 77.270 * y 1 + 77.270 := h2
  linarith

/-- the initial value of the test (Rodas-NG/test/Oregonator.hpp 33-36) is such a case -/
example : ¬ IsPartial oreRhs ![1, 2, 3] 0 0 (oreJacRodas ![1, 2, 3] 0 0) := ore_jac_rodas_fails (by simp)

/-! ### E5 -/

/-- C94: `e5` is the right hand side of the E5 problem, although `res[2]` is computed from `res[1]` and
`res[3]`. -/
theorem e5_eq (y : Fin 4 → ℝ) : e5 y =
    ![-7.89e-10 * y 0 - 1.1e7 * y 0 * y 2,
      7.89e-10 * y 0 - 1.13e9 * y 1 * y 2,
      7.89e-10 * y 0 - 1.1e7 * y 0 * y 2 - 1.13e9 * y 1 * y 2 + 1.13e3 * y 3,
      1.1e7 * y 0 * y 2 - 1.13e3 * y 3] := by
  funext i
  fin_cases i <;> simp [e5] <;> norm_num <;> ring

/-- C94: the linear invariant used in the code. -/
theorem e5_invariant (y : Fin 4 → ℝ) : e5 y 1 - e5 y 2 - e5 y 3 = 0 := by
  simp [e5]

/-- C94: the right hand side points into the set of nonnegative concentrations. -/
theorem e5_nonneg {y : Fin 4 → ℝ} (hy : ∀ i, 0 ≤ y i) {i : Fin 4} (hi : y i = 0) : 0 ≤ e5 y i := by
  rw [e5_eq]
  have h0 := hy 0
  have h1 := hy 1
  have h2 := hy 2
  have h3 := hy 3
  fin_cases i
  · replace hi : y 0 = 0 := hi
    simp [hi]
  · replace hi : y 1 = 0 := hi
    simp [hi]
    positivity
  · replace hi : y 2 = 0 := hi
    simp [hi]
    positivity
  · replace hi : y 3 = 0 := hi
    simp [hi]
    positivity

example : (∀ i, 0 ≤ e5Init i) ∧ e5Init 1 - e5Init 2 - e5Init 3 = 0 ∧ 0 < e5 e5Init 1 := by
  refine ⟨fun i => ?_, by simp [e5Init], ?_⟩
  · fin_cases i <;> simp [e5Init] <;> norm_num
  · rw [e5_eq]; simp [e5Init]; norm_num

end Odes.Stiff
