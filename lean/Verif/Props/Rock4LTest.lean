import Verif.Model.Rock4LTest
import Verif.Props.Rock4L
import Mathlib.Analysis.Real.Pi.Bounds
import Mathlib.Algebra.BigOperators.Ring.Finset

/-!
# Rock4-L: the example operator (C79, C80)
-/

namespace Odes.Rock4L.Test

open Matrix

variable {K : Type} [Field K] {m : ℕ}

/-- the matrix of the Laplacian on `m+2` points with homogeneous Neumann conditions. -/
def lap (K : Type) [Field K] (m : ℕ) : Matrix (Fin (m + 2)) (Fin (m + 2)) K := fun i j =>
  (mesh K m * mesh K m)⁻¹ *
    (if j = i then -2
     else if i.1 + 1 = j.1 ∨ j.1 + 1 = i.1 then (if i.1 = 0 ∨ i.1 = m + 1 then 2 else 1)
     else 0)

theorem lap_mulVec (v : Fin (m + 2) → K) (i : Fin (m + 2)) :
    (lap K m *ᵥ v) i = (mesh K m * mesh K m)⁻¹ *
      (if i.1 = 0 then -2 * v 0 + 2 * v 1
       else if i.1 = m + 1 then 2 * v ⟨m, by omega⟩ - 2 * v ⟨m + 1, by omega⟩
       else v (lft i) - 2 * v i + v (rgt i)) := by
  unfold mulVec dotProduct lap
  simp only [mul_assoc]
  rw [← Finset.mul_sum]
  congr 1
  have one_ne : (1 : Fin (m + 2)).1 = 1 := by simp
  by_cases h0 : i.1 = 0
  · have e : ∀ j : Fin (m + 2), (if j = i then (-2 : K)
        else if i.1 + 1 = j.1 ∨ j.1 + 1 = i.1 then (if i.1 = 0 ∨ i.1 = m + 1 then 2 else 1)
        else 0) * v j = (if j = 0 then -2 * v j else 0) + (if j = 1 then 2 * v j else 0) := by
      intro j
      have hi : i = 0 := Fin.ext h0
      by_cases hj : j = 0
      · subst hj; subst hi
        simp
      · by_cases hj1 : j = 1
        · subst hj1; subst hi; simp
        · have : j.1 ≠ 1 := fun h => hj1 (Fin.ext (by rw [h, one_ne]))
          rw [if_neg (by rw [hi]; exact hj), if_neg (by rw [h0]; omega), if_neg hj, if_neg hj1]
          ring
    rw [Finset.sum_congr rfl (fun j _ => e j), Finset.sum_add_distrib, if_pos h0]
    simp
  · by_cases h1 : i.1 = m + 1
    · have e : ∀ j : Fin (m + 2), (if j = i then (-2 : K)
          else if i.1 + 1 = j.1 ∨ j.1 + 1 = i.1 then (if i.1 = 0 ∨ i.1 = m + 1 then 2 else 1)
          else 0) * v j = (if j = ⟨m, by omega⟩ then 2 * v j else 0)
            + (if j = ⟨m + 1, by omega⟩ then -2 * v j else 0) := by
        intro j
        by_cases hj : j.1 = m + 1
        · have a1 : j = i := Fin.ext (by omega)
          have a2 : j = ⟨m + 1, by omega⟩ := Fin.ext hj
          have a3 : j ≠ ⟨m, by omega⟩ := by intro h; rw [h] at hj; simp at hj
          rw [if_pos a1, if_neg a3, if_pos a2]; ring
        · have a1 : j ≠ i := by intro h; rw [h] at hj; omega
          have a2 : j ≠ ⟨m + 1, by omega⟩ := by intro h; rw [h] at hj; simp at hj
          rw [if_neg a1, if_neg a2]
          by_cases hm : j.1 = m
          · have a3 : j = ⟨m, by omega⟩ := Fin.ext hm
            rw [if_pos (by omega), if_pos (by omega), if_pos a3]; ring
          · have a3 : j ≠ ⟨m, by omega⟩ := by intro h; rw [h] at hm; simp at hm
            rw [if_neg (by have := j.2; omega), if_neg a3]; ring
      rw [Finset.sum_congr rfl (fun j _ => e j), Finset.sum_add_distrib, if_neg h0, if_pos h1]
      simp
      ring
    · have hl : (lft i).1 = i.1 - 1 := rfl
      have hr : (rgt i).1 = i.1 + 1 := by
        show min (i.1 + 1) (m + 1) = _
        have := i.2
        omega
      have e : ∀ j : Fin (m + 2), (if j = i then (-2 : K)
          else if i.1 + 1 = j.1 ∨ j.1 + 1 = i.1 then (if i.1 = 0 ∨ i.1 = m + 1 then 2 else 1)
          else 0) * v j = (if j = lft i then v j else 0)
            + (if j = i then -2 * v j else 0) + (if j = rgt i then v j else 0) := by
        intro j
        have d1 : j = lft i ↔ j.1 = i.1 - 1 := by rw [Fin.ext_iff, hl]
        have d2 : j = rgt i ↔ j.1 = i.1 + 1 := by rw [Fin.ext_iff, hr]
        have d3 : j = i ↔ j.1 = i.1 := Fin.ext_iff
        simp only [d1, d2, d3]
        by_cases c3 : j.1 = i.1
        · rw [if_pos c3, if_neg (by omega), if_pos c3, if_neg (by omega)]; ring
        · rw [if_neg c3, if_neg c3]
          by_cases c1 : j.1 = i.1 - 1
          · rw [if_pos (by omega), if_neg (by omega), if_pos c1, if_neg (by omega)]; ring
          · rw [if_neg c1]
            by_cases c2 : j.1 = i.1 + 1
            · rw [if_pos (by omega), if_neg (by omega), if_pos c2]; ring
            · rw [if_neg (by omega), if_neg c2]; ring
      rw [Finset.sum_congr rfl (fun j _ => e j), Finset.sum_add_distrib,
        Finset.sum_add_distrib, if_neg h0, if_neg h1]
      simp
      ring

/-- **C79** The shipped example operator satisfies the contracts of the linear solver and those
with which the affine solver is correct, for the Neumann Laplacian, for every number of
points. -/
theorem rock4l_test_contract (m : ℕ) :
    LinearOp (lap K m) (oper m) ∧ AffineOp (lap K m) (oper m) := by
  have ze : ∀ i : Fin (m + 2), i.1 = 0 → (0 : Fin (m + 2)) = i := fun i h => Fin.ext h.symm
  have le : ∀ i : Fin (m + 2), i.1 = m + 1 → (⟨m + 1, by omega⟩ : Fin (m + 2)) = i :=
    fun i h => Fin.ext h.symm
  have h5 : ∀ v s a b, (oper (K := K) m).op5 v s a b = a • (lap K m *ᵥ v) + b • s := by
    intro v s a b
    funext i
    simp only [Pi.add_apply, Pi.smul_apply, smul_eq_mul, lap_mulVec, oper]
    split_ifs with h0 h1
    · rw [ze i h0]; ring
    · rw [le i h1]; ring
    · ring
  refine ⟨⟨h5, ?_⟩, ⟨h5, ?_, ?_⟩⟩
  · intro v s a b c
    funext i
    simp only [Pi.add_apply, Pi.smul_apply, smul_eq_mul, lap_mulVec, oper]
    split_ifs with h0 h1
    · ring
    · ring
    · ring
  · intro v s a b g
    funext i
    simp only [Pi.add_apply, Pi.smul_apply, smul_eq_mul, lap_mulVec, oper]
    split_ifs with h0 h1
    · rw [ze i h0]; ring
    · rw [le i h1]; ring
    · ring
  · intro v s a b c g
    funext i
    simp only [Pi.add_apply, Pi.smul_apply, smul_eq_mul, lap_mulVec, oper]
    split_ifs with h0 h1
    · rw [ze i h0]; ring
    · rw [le i h1]; ring
    · ring

/-- the alternating vector is an eigenvector for the eigenvalue `-4/h^2`. -/
theorem lap_eigen (m : ℕ) :
    lap ℝ m *ᵥ (fun i : Fin (m + 2) => (-1 : ℝ) ^ i.1)
      = (-(4 / (mesh ℝ m * mesh ℝ m))) • (fun i : Fin (m + 2) => (-1 : ℝ) ^ i.1) := by
  funext i
  rw [lap_mulVec]
  simp only [Pi.smul_apply, smul_eq_mul]
  split_ifs with h0 h1
  · have : ((1 : Fin (m + 2)).1) = 1 := by simp
    rw [h0, this]
    simp
    ring
  · rw [h1, pow_succ]
    ring
  · have hl : (lft i).1 = i.1 - 1 := rfl
    have hr : (rgt i).1 = i.1 + 1 := by
      show min (i.1 + 1) (m + 1) = _
      have := i.2
      omega
    rw [hl, hr]
    obtain ⟨k, hk⟩ : ∃ k, i.1 = k + 1 := ⟨i.1 - 1, by omega⟩
    rw [hk]
    simp only [Nat.add_sub_cancel, pow_succ]
    ring

theorem foldl_max_lt (f : ℕ → ℝ) (c : ℝ) : ∀ (l : List ℕ) (r : ℝ), r < c → (∀ i ∈ l, f i < c) →
    l.foldl (fun R i => max (f i) R) r < c
  | [], r, hr, _ => hr
  | x :: l, r, hr, h => by
    rw [List.foldl_cons]
    exact foldl_max_lt f c l _ (max_lt (h x List.mem_cons_self) hr)
      (fun i hi => h i (List.mem_cons_of_mem _ hi))

/-- **C80** (negation) `rho()` of the shipped example, which should be the spectral radius, is
strictly smaller than the modulus of the eigenvalue `-4/h^2`, for every number of points an
`int` can hold. -/
theorem rock4l_test_rho_small (m : ℕ) (hm : m + 2 ≤ 2147483647) :
    (∃ v : Fin (m + 2) → ℝ, v ≠ 0 ∧ lap ℝ m *ᵥ v = (-(4 / (mesh ℝ m * mesh ℝ m))) • v) ∧
    rho m < |(-(4 / (mesh ℝ m * mesh ℝ m)))| := by
  have hmesh : 0 < mesh ℝ m := by
    unfold mesh
    apply one_div_pos.2
    push_cast
    have : (0 : ℝ) ≤ m := Nat.cast_nonneg m
    linarith
  have hpos : 0 < 4 / (mesh ℝ m * mesh ℝ m) := by positivity
  refine ⟨⟨_, ?_, lap_eigen m⟩, ?_⟩
  · intro h
    have := congrFun h 0
    simp at this
  rw [abs_neg, abs_of_pos hpos]
  unfold rho
  refine foldl_max_lt _ _ _ _ hpos ?_
  intro i hi
  have hi' : i < m + 2 := List.mem_range.1 hi
  have hn : (0 : ℝ) < (m + 2 : ℕ) := by positivity
  -- the angle is strictly below pi
  have hang : (i : ℝ) * 3.14159265359 / (m + 2 : ℕ) < Real.pi := by
    rw [div_lt_iff₀ hn]
    have h1 : (i : ℝ) ≤ (m + 2 : ℕ) - 1 := by
      have : (i : ℝ) + 1 ≤ (m + 2 : ℕ) := by exact_mod_cast hi'
      linarith
    have h2 : ((m + 2 : ℕ) : ℝ) ≤ 2147483647 := by exact_mod_cast hm
    have h3 := Real.pi_gt_d20
    nlinarith
  have hang0 : 0 ≤ (i : ℝ) * 3.14159265359 / (m + 2 : ℕ) := by positivity
  have hcos : -1 < Real.cos ((i : ℝ) * 3.14159265359 / (m + 2 : ℕ)) := by
    rw [← Real.cos_pi]
    exact Real.cos_lt_cos_of_nonneg_of_le_pi hang0 le_rfl hang
  have hcos1 := Real.cos_le_one ((i : ℝ) * 3.14159265359 / (m + 2 : ℕ))
  rw [abs_mul, abs_of_pos (by positivity), abs_of_nonpos (by linarith)]
  have h2 : 0 < 2 / (mesh ℝ m * mesh ℝ m) := by positivity
  have e : 4 / (mesh ℝ m * mesh ℝ m) = 2 / (mesh ℝ m * mesh ℝ m) * 2 := by ring
  rw [e]
  exact mul_lt_mul_of_pos_left (by linarith) h2

example : (5 : ℕ) + 2 ≤ 2147483647 := by norm_num

end Odes.Rock4L.Test
