import Verif.Props.Rock4LTest
import Mathlib.Analysis.SpecialFunctions.Trigonometric.Bounds
import Mathlib.Analysis.Complex.Basic

/-! # C80: how much too small `rho()` of the example is -/

namespace Odes.Rock4L.Test

open Matrix

theorem le_foldl_max (f : ℕ → ℝ) : ∀ (l : List ℕ) (r : ℝ),
    r ≤ l.foldl (fun R i => max (f i) R) r ∧ ∀ i ∈ l, f i ≤ l.foldl (fun R i => max (f i) R) r
  | [], r => ⟨le_rfl, by simp⟩
  | x :: l, r => by
    rw [List.foldl_cons]
    obtain ⟨h1, h2⟩ := le_foldl_max f l (max (f x) r)
    refine ⟨(le_max_right _ _).trans h1, fun i hi => ?_⟩
    rcases List.mem_cons.1 hi with rfl | hi
    · exact (le_max_left _ _).trans h1
    · exact h2 i hi

theorem mesh_pos (m : ℕ) : 0 < mesh ℝ m := by
  unfold mesh
  apply one_div_pos.2
  push_cast
  have : (0 : ℝ) ≤ m := Nat.cast_nonneg m
  linarith

/-- `4/h^2` bounds the spectrum (real and complex). -/
theorem lap_spectrum (m : ℕ) (μ : ℂ) (v : Fin (m + 2) → ℂ) (hv : v ≠ 0) (h : lap ℂ m *ᵥ v = μ • v) :
    ‖μ‖ ≤ 4 / (mesh ℝ m * mesh ℝ m) := by
  obtain ⟨i, -, hi⟩ := Finset.exists_max_image Finset.univ (fun i => ‖v i‖) ⟨0, Finset.mem_univ _⟩
  have hi' : ∀ j, ‖v j‖ ≤ ‖v i‖ := fun j => hi j (Finset.mem_univ _)
  have hpos : 0 < ‖v i‖ := by
    rcases (norm_nonneg (v i)).lt_or_eq with h0 | h0
    · exact h0
    · exact absurd (funext fun j => norm_le_zero_iff.1 ((hi' j).trans h0.ge)) hv
  have e := congrFun h i
  rw [lap_mulVec, Pi.smul_apply, smul_eq_mul] at e
  have hm : (mesh ℂ m * mesh ℂ m) = ((mesh ℝ m * mesh ℝ m : ℝ) : ℂ) := by
    unfold mesh; push_cast; rfl
  have hM : 0 < mesh ℝ m * mesh ℝ m := mul_pos (mesh_pos m) (mesh_pos m)
  have key : ‖μ‖ * ‖v i‖ ≤ (mesh ℝ m * mesh ℝ m)⁻¹ * (4 * ‖v i‖) := by
    rw [← norm_mul, ← e, norm_mul, hm, norm_inv, Complex.norm_real, Real.norm_of_nonneg hM.le]
    refine mul_le_mul_of_nonneg_left ?_ (inv_nonneg.2 hM.le)
    have t1 : ∀ j, ‖(2 : ℂ) * v j‖ ≤ 2 * ‖v i‖ := fun j => by
      rw [norm_mul, Complex.norm_ofNat]; linarith [hi' j]
    split_ifs
    · refine (norm_add_le _ _).trans ?_
      rw [neg_mul, norm_neg]
      linarith [t1 0, t1 1]
    · refine (norm_sub_le _ _).trans ?_
      linarith [t1 ⟨m, by omega⟩, t1 ⟨m + 1, by omega⟩]
    · refine (norm_add_le _ _).trans ?_
      have := norm_sub_le (v (lft i)) (2 * v i)
      linarith [t1 i, hi' (lft i), hi' (rgt i)]
  rw [div_eq_inv_mul]
  have := le_of_mul_le_mul_right (by linarith : ‖μ‖ * ‖v i‖ ≤ ((mesh ℝ m * mesh ℝ m)⁻¹ * 4) * ‖v i‖) hpos
  exact this

/-- **C80**, partial: the modulus of every eigenvalue is at most `4/h^2`, and `rho()` is at least `1-3/Size^2` times
it: what is missing is less than the fraction `3/Size^2`. -/
theorem rock4l_test_rho_partial (m : ℕ) (hm : m + 2 ≤ 2147483647) (μ : ℂ) (v : Fin (m + 2) → ℂ) (hv : v ≠ 0)
    (h : lap ℂ m *ᵥ v = μ • v) :
    ‖μ‖ ≤ 4 / (mesh ℝ m * mesh ℝ m) ∧ (1 - 3 / ((m + 2 : ℕ) : ℝ) ^ 2) * ‖μ‖ ≤ rho m := by
  have hμ := lap_spectrum m μ v hv h
  refine ⟨hμ, ?_⟩
  have hM : 0 < mesh ℝ m * mesh ℝ m := mul_pos (mesh_pos m) (mesh_pos m)
  have hn2 : (2 : ℝ) ≤ (m + 2 : ℕ) := by push_cast; have : (0 : ℝ) ≤ m := Nat.cast_nonneg m; linarith
  have hnI : ((m + 2 : ℕ) : ℝ) ≤ 2147483647 := by exact_mod_cast hm
  have hr := (le_foldl_max (fun i => |2 / (mesh ℝ m * mesh ℝ m) *
    (Real.cos ((i : ℝ) * 3.14159265359 / (m + 2 : ℕ)) - 1)|) (List.range (m + 2)) 0).2 (m + 1) (by simp)
  refine le_trans ?_ hr
  have hc1 : (((m + 1 : ℕ) : ℝ)) = ((m + 2 : ℕ) : ℝ) - 1 := by push_cast; ring
  rw [hc1]
  generalize ((m + 2 : ℕ) : ℝ) = N at hn2 hnI
  have hN : 0 < N := by linarith
  -- the angle is close to pi
  obtain ⟨θ, hθ⟩ : ∃ θ, θ = Real.pi - (N - 1) * 3.14159265359 / N := ⟨_, rfl⟩
  have p1 := Real.pi_gt_d20
  have p2 := Real.pi_lt_d20
  have hθN : θ * N = Real.pi * N - (N - 1) * 3.14159265359 := by rw [hθ]; field_simp
  have hθ0 : 0 ≤ θ * N := by rw [hθN]; nlinarith
  have hθ1 : θ * N ≤ 3.2 := by rw [hθN]; nlinarith
  have hcos : Real.cos ((N - 1) * 3.14159265359 / N) ≤ -1 + θ ^ 2 / 2 := by
    have : (N - 1) * 3.14159265359 / N = Real.pi - θ := by rw [hθ]; ring
    rw [this, Real.cos_pi_sub]
    linarith [Real.one_sub_sq_div_two_le_cos (x := θ)]
  have hsq : θ ^ 2 ≤ 12 / N ^ 2 := by
    rw [le_div_iff₀ (by positivity), ← mul_pow]
    nlinarith
  rw [abs_mul, abs_of_pos (by positivity), abs_of_nonpos (by linarith [Real.cos_le_one ((N - 1) * 3.14159265359 / N)])]
  have hk : 2 * (1 - 3 / N ^ 2) ≤ -(Real.cos ((N - 1) * 3.14159265359 / N) - 1) := by
    have : 12 / N ^ 2 / 2 = 2 * (3 / N ^ 2) := by ring
    linarith
  have hk0 : 0 ≤ 1 - 3 / N ^ 2 := by
    have : 3 / N ^ 2 ≤ 1 := by rw [div_le_one (by positivity)]; nlinarith
    linarith
  calc (1 - 3 / N ^ 2) * ‖μ‖ ≤ (1 - 3 / N ^ 2) * (4 / (mesh ℝ m * mesh ℝ m)) := mul_le_mul_of_nonneg_left hμ hk0
    _ = 2 / (mesh ℝ m * mesh ℝ m) * (2 * (1 - 3 / N ^ 2)) := by ring
    _ ≤ _ := mul_le_mul_of_nonneg_left hk (by positivity)

/-- an eigenvalue and its vector. -/
example : ∃ v : Fin (5 + 2) → ℂ, v ≠ 0 ∧ lap ℂ 5 *ᵥ v = (0 : ℂ) • v := by
  refine ⟨fun _ => 1, fun h => by simpa using congrFun h 0, ?_⟩
  funext i
  rw [lap_mulVec]
  split_ifs <;> norm_num

end Odes.Rock4L.Test
