import Verif.Props.StiffTest
import Mathlib.Analysis.Complex.Basic
import Mathlib.Data.Finset.Max

/-!
# Fisher-KPP, the test problem of Rock4-NG

C92 (right hand side), C95 (spectral radius and bounds).
-/

namespace Odes.Stiff

open Odes.Mem Spec.Heat

/-- C92: for every `Size ≥ 2` the right hand side stays in the arrays, fills the whole result and computes
the second difference with reflection at the ends of the end cells, plus the reaction. -/
theorem fisher_rhs {n : ℤ} (hn : 2 ≤ n) {x y : Buf ℝ} (hx : x.size = n) (hy : y.size = n) :
    ∃ y', fisherRhs n x y = some y' ∧ y'.size = n ∧ ∀ i, 0 ≤ i → i < n →
      y'.cell i = diffuse (cellMirror n) (fisherUh2 n) (fun _ => fisherF) x.cell i := by
  unfold fisherRhs
  rw [Buf.rd_in (b := x) (by omega), Option.bind_some, Buf.rd_in (b := x) (by omega), Option.bind_some,
    Buf.wr_in _ (by omega), Option.bind_some]
  generalize fisherUh2 n = D
  obtain ⟨r1, h1, h2, h3⟩ := forUp_inv
    (body := fun i (y : Buf ℝ) => (x.rd (i - 1)).bind fun a => (x.rd i).bind fun b =>
      (x.rd (i + 1)).bind fun c => y.wr i (D * (a - 2.0 * b + c) + fisherF b))
    (fun k (r : Buf ℝ) => r.size = n ∧ ∀ i, 0 ≤ i → i < k →
      r.cell i = diffuse (cellMirror n) D (fun _ => fisherF) x.cell i)
    (lo := 1) (hi := n - 1 - 1)
    (s := ⟨y.size, Function.update y.cell 0 (D * (x.cell 1 - x.cell 0) + fisherF (x.cell 0))⟩)
    (by omega) ⟨hy, by
      intro i h0 h1
      obtain rfl : i = 0 := by omega
      simp only [Function.update_self, diffuse, cellMirror]
      rw [if_pos (by omega), if_neg (by omega), if_neg (by omega),
        show (-1 - (0 - 1) : ℤ) = 0 by norm_num, show (0 + 1 : ℤ) = 1 by norm_num]
      ring⟩ (by
      rintro i r hi hi' ⟨e1, e2⟩
      rw [Buf.rd_in (b := x) (by omega), Option.bind_some, Buf.rd_in (b := x) (by omega),
        Option.bind_some, Buf.rd_in (b := x) (by omega), Option.bind_some, Buf.wr_in _ (by omega)]
      refine ⟨_, rfl, e1, ?_⟩
      intro k hk hk'
      by_cases hki : k = i
      · subst hki
        simp only [Function.update_self, diffuse, cellMirror]
        rw [if_neg (by omega), if_neg (by omega), if_neg (by omega), if_neg (by omega),
          show (2.0 : ℝ) = 2 by norm_num]
      · simp only [Function.update_of_ne hki]
        exact e2 k hk (by omega))
  rw [h1, Option.bind_some, Buf.rd_in (b := x) (by omega), Option.bind_some,
    Buf.rd_in (b := x) (by omega), Option.bind_some, Buf.wr_in _ (by omega)]
  refine ⟨_, rfl, h2, ?_⟩
  intro k hk hk'
  by_cases hkn : k = n - 1
  · subst hkn
    simp only [Function.update_self, diffuse, cellMirror]
    rw [if_neg (by omega), if_neg (by omega), if_neg (by omega), if_pos (by omega),
      show 2 * n - 1 - (n - 1 + 1) = n - 1 by ring, show n - 1 - 1 = n - 2 by ring]
    ring
  · simp only [Function.update_of_ne hkn]
    exact h3 k hk (by omega)

theorem field_fisher {n : ℤ} (hn : 2 ≤ n) (x : ℤ → ℝ) {i : ℤ} (h0 : 0 ≤ i) (h1 : i < n) :
    field n (fisherRhs n) x i = diffuse (cellMirror n) (fisherUh2 n) (fun _ => fisherF) x i := by
  obtain ⟨r, e1, -, e2⟩ := fisher_rhs hn (x := ⟨n, x⟩) (y := ⟨n, fun _ => 0⟩) rfl rfl
  unfold field
  rw [e1, Option.map_some, Option.getD_some, e2 i h0 h1]

theorem cellMirror_mem {n i : ℤ} (h0 : 0 ≤ i) (h1 : i < n) :
    (0 ≤ cellMirror n (i - 1) ∧ cellMirror n (i - 1) < n) ∧
      0 ≤ cellMirror n (i + 1) ∧ cellMirror n (i + 1) < n := by
  unfold cellMirror
  split_ifs <;> omega

/-- the reaction: zero outside `[0,1]`, the outer `min` never acts -/
theorem fisherF_eq (u : ℝ) : fisherF u = if 0 ≤ u ∧ u ≤ 1 then 0.5 * u * (1 - u) else 0 := by
  unfold fisherF
  split_ifs with h
  · have h1 : 0 ≤ 0.5 * u * (1 - u) := mul_nonneg (by linarith) (by linarith)
    rw [max_eq_right h1, min_eq_right]
    nlinarith [sq_nonneg (u - 1 / 2)]
  · have h1 : 0.5 * u * (1 - u) ≤ 0 := by
      by_cases h0 : 0 ≤ u
      · have : 1 < u := by by_contra h2; exact h ⟨h0, by linarith⟩
        nlinarith
      · nlinarith
    rw [max_eq_left h1, min_eq_right zero_le_one]

/-- the reaction is Lipschitz continuous with constant 1/2 -/
theorem fisherF_lip (u v : ℝ) : |fisherF u - fisherF v| ≤ 1 / 2 * |u - v| := by
  have key : ∀ u v : ℝ, u ≤ v → |fisherF u - fisherF v| ≤ 1 / 2 * (v - u) := by
    intro u v huv
    rw [fisherF_eq, fisherF_eq, abs_le]
    split_ifs with h1 h2 h2
    · constructor <;> nlinarith
    · have : 1 < v := by by_contra h; exact h2 ⟨by linarith [h1.1], by linarith⟩
      constructor <;> nlinarith
    · have : u < 0 := by by_contra h; exact h1 ⟨by linarith, by linarith [h2.2]⟩
      constructor <;> nlinarith
    · constructor <;> linarith
  rcases le_total u v with h | h
  · rw [abs_of_nonpos (by linarith : u - v ≤ 0)]
    have := key u v h
    linarith
  · rw [abs_of_nonneg (by linarith : 0 ≤ u - v), abs_sub_comm]
    exact key v u h

theorem uh2_pos {n : ℤ} (hn : 2 ≤ n) : 0 < fisherUh2 n := by
  have : (2 : ℝ) ≤ n := by exact_mod_cast hn
  unfold fisherUh2
  have : 0 < 1 / ((n : ℝ) - 1) := div_pos one_pos (by linarith)
  positivity

/-- C95: `rho()` is a Lipschitz constant of the right hand side in the maximum norm, for every number of
points and all states (also outside `[0,1]`). -/
theorem fisher_lipschitz {n : ℤ} (hn : 2 ≤ n) (x x' : ℤ → ℝ) {M : ℝ}
    (hM : ∀ i, 0 ≤ i → i < n → |x i - x' i| ≤ M) {i : ℤ} (h0 : 0 ≤ i) (h1 : i < n) :
    |field n (fisherRhs n) x i - field n (fisherRhs n) x' i| ≤ fisherRho n * M := by
  rw [field_fisher hn x h0 h1, field_fisher hn x' h0 h1]
  unfold diffuse fisherRho
  have hD := uh2_pos hn
  generalize fisherUh2 n = D at *
  obtain ⟨⟨a1, a2⟩, a3, a4⟩ := cellMirror_mem h0 h1
  have e1 := abs_le.1 (hM _ a1 a2)
  have e2 := abs_le.1 (hM _ a3 a4)
  have e3 := abs_le.1 (hM i h0 h1)
  have e4 := abs_le.1 (fisherF_lip (x i) (x' i))
  have e5 := hM i h0 h1
  have hM0 : 0 ≤ M := (abs_nonneg _).trans e5
  rw [abs_le]
  constructor <;> nlinarith

/-- the derivatives of the right hand side -/
theorem fisher_deriv {n : ℤ} (hn : 2 ≤ n) (x : ℤ → ℝ) {i : ℤ} (h0 : 0 ≤ i) (h1 : i < n)
    {d : ℤ → ℝ} (hd : ∀ j, 0 ≤ j → j < n → IsPartial (field n (fisherRhs n)) x i j (d j)) :
    ∃ c, |c| ≤ 1 / 2 ∧ ∀ j, 0 ≤ j → j < n → d j = fisherUh2 n *
      ((if cellMirror n (i - 1) = j then 1 else 0) - 2 * (if i = j then 1 else 0) +
        (if cellMirror n (i + 1) = j then 1 else 0)) + if i = j then c else 0 := by
  have hlin : ∀ j, HasDerivAt (fun s => fisherUh2 n * (Function.update x j s (cellMirror n (i - 1)) -
      2 * Function.update x j s i + Function.update x j s (cellMirror n (i + 1))))
      (fisherUh2 n * ((if cellMirror n (i - 1) = j then 1 else 0) - 2 * (if i = j then 1 else 0) +
        (if cellMirror n (i + 1) = j then 1 else 0))) (x j) := fun j =>
    HasDerivAt.const_mul _ (((hasDerivAt_coord x j _).fun_sub
      ((hasDerivAt_coord x j i).const_mul 2)).fun_add (hasDerivAt_coord x j _))
  have hf : ∀ j s, field n (fisherRhs n) (Function.update x j s) i =
      fisherUh2 n * (Function.update x j s (cellMirror n (i - 1)) -
      2 * Function.update x j s i + Function.update x j s (cellMirror n (i + 1))) +
      fisherF (Function.update x j s i) := fun j s => field_fisher hn _ h0 h1
  refine ⟨d i - fisherUh2 n * ((if cellMirror n (i - 1) = i then 1 else 0) - 2 * (if i = i then 1 else 0) +
        (if cellMirror n (i + 1) = i then 1 else 0)), ?_, ?_⟩
  · have h := (hd i h0 h1).fun_sub (hlin i)
    simp only [hf, add_sub_cancel_left, Function.update_self] at h
    simp only
    refine HasDerivAt.le_of_lip' (C := 1 / 2) h (by norm_num) (Filter.Eventually.of_forall fun u => ?_)
    exact fisherF_lip u (x i)
  · intro j h2 h3
    by_cases hij : i = j
    · subst hij
      rw [if_pos rfl, if_pos rfl]
      ring
    · rw [if_neg hij, if_neg hij]
      have h := hlin j
      rw [if_neg hij] at h
      have hd' := hd j h2 h3
      unfold IsPartial at hd'
      simp only [hf] at hd'
      have h4 := h.add_const (fisherF (x i))
      have e : (fun s => fisherUh2 n * (Function.update x j s (cellMirror n (i - 1)) -
          2 * Function.update x j s i + Function.update x j s (cellMirror n (i + 1))) +
          fisherF (Function.update x j s i)) = fun s => fisherUh2 n *
          (Function.update x j s (cellMirror n (i - 1)) -
          2 * Function.update x j s i + Function.update x j s (cellMirror n (i + 1))) + fisherF (x i) := by
        funext s
        rw [Function.update_of_ne hij]
      rw [e] at hd'
      rw [hd'.unique h4, add_zero]

/-- C95: eigenvalues.  If `d i j` are the derivatives of the right hand side at a state, every eigenvalue
(complex, with a nonzero complex eigenvector) has modulus at most `rho()`. -/
theorem fisher_rho {n : ℤ} (hn : 2 ≤ n) (x : ℤ → ℝ) {d : ℤ → ℤ → ℝ}
    (hd : ∀ i j, 0 ≤ i → i < n → 0 ≤ j → j < n → IsPartial (field n (fisherRhs n)) x i j (d i j))
    {lam : ℂ} {v : ℤ → ℂ} (hv : ∃ i, 0 ≤ i ∧ i < n ∧ v i ≠ 0)
    (hl : ∀ i, 0 ≤ i → i < n → ∑ j ∈ Finset.Ico 0 n, (d i j : ℂ) * v j = lam * v i) :
    ‖lam‖ ≤ fisherRho n := by
  obtain ⟨i, hi, hmax⟩ := Finset.exists_max_image (Finset.Ico 0 n) (fun i => ‖v i‖)
    ⟨0, Finset.mem_Ico.2 ⟨le_refl 0, by omega⟩⟩
  obtain ⟨h0, h1⟩ := Finset.mem_Ico.1 hi
  have hpos : 0 < ‖v i‖ := by
    obtain ⟨k, a, b, c⟩ := hv
    exact (norm_pos_iff.2 c).trans_le (hmax k (Finset.mem_Ico.2 ⟨a, b⟩))
  obtain ⟨c, hc, hrow⟩ := fisher_deriv hn x h0 h1 (fun j => hd i j h0 h1)
  obtain ⟨⟨a1, a2⟩, a3, a4⟩ := cellMirror_mem h0 h1
  have hpick : ∀ k, 0 ≤ k → k < n → ∑ j ∈ Finset.Ico 0 n, (if k = j then (1 : ℂ) else 0) * v j = v k := by
    intro k hk hk'
    simp only [ite_mul, one_mul, zero_mul]
    rw [Finset.sum_ite_eq, if_pos (Finset.mem_Ico.2 ⟨hk, hk'⟩)]
  have hD := uh2_pos hn
  unfold fisherRho
  generalize fisherUh2 n = D at *
  have e : lam * v i = D * (v (cellMirror n (i - 1)) - 2 * v i + v (cellMirror n (i + 1))) + c * v i := by
    rw [← hl i h0 h1, ← hpick _ a1 a2, ← hpick _ a3 a4]
    conv_rhs => rw [← hpick i h0 h1]
    rw [Finset.mul_sum, ← Finset.sum_sub_distrib, ← Finset.sum_add_distrib, Finset.mul_sum, Finset.mul_sum,
      ← Finset.sum_add_distrib]
    refine Finset.sum_congr rfl fun j hj => ?_
    obtain ⟨b1, b2⟩ := Finset.mem_Ico.1 hj
    rw [hrow j b1 b2]
    split_ifs <;> push_cast <;> ring
  have n1 : ‖v (cellMirror n (i - 1))‖ ≤ ‖v i‖ := hmax _ (Finset.mem_Ico.2 ⟨a1, a2⟩)
  have n2 : ‖v (cellMirror n (i + 1))‖ ≤ ‖v i‖ := hmax _ (Finset.mem_Ico.2 ⟨a3, a4⟩)
  have n3 : ‖lam‖ * ‖v i‖ ≤ D * (‖v i‖ + 2 * ‖v i‖ + ‖v i‖) + 1 / 2 * ‖v i‖ := by
    rw [← norm_mul, e]
    refine (norm_add_le _ _).trans (add_le_add ?_ ?_)
    · rw [norm_mul, Complex.norm_real, Real.norm_of_nonneg hD.le]
      refine mul_le_mul_of_nonneg_left ?_ hD.le
      refine (norm_add_le _ _).trans (add_le_add ((norm_sub_le _ _).trans (add_le_add n1 ?_)) n2)
      rw [norm_mul]
      simp
    · rw [norm_mul, Complex.norm_real]
      exact mul_le_mul_of_nonneg_right hc (norm_nonneg _)
  nlinarith

/-- C95: the derivatives exist wherever no component is 0 or 1 -/
theorem fisher_differentiable {n : ℤ} (hn : 2 ≤ n) {x : ℤ → ℝ} {i : ℤ} (h0 : 0 ≤ i) (h1 : i < n)
    (hx : x i ≠ 0 ∧ x i ≠ 1) (j : ℤ) : ∃ d, IsPartial (field n (fisherRhs n)) x i j d := by
  have hF : ∃ c, HasDerivAt fisherF c (x i) := by
    by_cases h : 0 < x i ∧ x i < 1
    · have hp : HasDerivAt (fun u : ℝ => 0.5 * u * (1 - u)) (0.5 * 1 * (1 - x i) + 0.5 * x i * -1) (x i) :=
        ((hasDerivAt_id' (x i)).const_mul 0.5).fun_mul ((hasDerivAt_id' (x i)).const_sub 1)
      refine ⟨_, hp.congr_of_eventuallyEq ?_⟩
      filter_upwards [Ioo_mem_nhds h.1 h.2] with u hu
      rw [fisherF_eq, if_pos ⟨hu.1.le, hu.2.le⟩]
    · refine ⟨0, (hasDerivAt_const (x i) (0 : ℝ)).congr_of_eventuallyEq ?_⟩
      rcases lt_or_gt_of_ne hx.1 with h2 | h2
      · filter_upwards [Iio_mem_nhds h2] with u hu
        rw [fisherF_eq, if_neg (fun h => absurd hu (not_lt.2 h.1))]
      · have h3 : 1 < x i := by
          rcases lt_or_gt_of_ne hx.2 with h4 | h4
          · exact absurd ⟨h2, h4⟩ h
          · exact h4
        filter_upwards [Ioi_mem_nhds h3] with u hu
        rw [fisherF_eq, if_neg (fun h => absurd hu (not_lt.2 h.2))]
  obtain ⟨c, hc⟩ := hF
  have h := diffuse_partial (m := cellMirror n) (D := fisherUh2 n) (f := fun _ => fisherF)
    (f' := fun _ _ => c) (y := x) i j hc
  unfold IsPartial at h
  refine ⟨_, h.congr_of_eventuallyEq (Filter.Eventually.of_forall fun s => ?_)⟩
  exact field_fisher hn _ h0 h1

/-- C95: in the set `0 ≤ u ≤ 1` the right hand side never points out of it. -/
theorem fisher_bounds {n : ℤ} (hn : 2 ≤ n) {x : ℤ → ℝ} (hx : ∀ i, 0 ≤ i → i < n → 0 ≤ x i ∧ x i ≤ 1)
    {i : ℤ} (h0 : 0 ≤ i) (h1 : i < n) :
    (x i = 0 → 0 ≤ field n (fisherRhs n) x i) ∧ (x i = 1 → field n (fisherRhs n) x i ≤ 0) := by
  rw [field_fisher hn x h0 h1]
  simp only [diffuse]
  have hD := uh2_pos hn
  obtain ⟨⟨a1, a2⟩, a3, a4⟩ := cellMirror_mem h0 h1
  obtain ⟨p1, p2⟩ := hx _ a1 a2
  obtain ⟨q1, q2⟩ := hx _ a3 a4
  constructor
  · intro h
    rw [h, fisherF_eq, if_pos (by norm_num)]
    have : 0 ≤ fisherUh2 n * (x (cellMirror n (i - 1)) - 2 * 0 + x (cellMirror n (i + 1))) :=
      mul_nonneg hD.le (by linarith)
    linarith
  · intro h
    rw [h, fisherF_eq, if_pos (by norm_num)]
    have : fisherUh2 n * (x (cellMirror n (i - 1)) - 2 * 1 + x (cellMirror n (i + 1))) ≤ 0 :=
      mul_nonpos_of_nonneg_of_nonpos hD.le (by linarith)
    linarith

/-- the hypotheses of `fisher_rho` can be met: two points, `u = 1/2`, the constant vector -/
example : ∃ (d : ℤ → ℤ → ℝ) (lam : ℂ), (∀ i j, 0 ≤ i → i < 2 → 0 ≤ j → j < 2 →
    IsPartial (field 2 (fisherRhs 2)) (fun _ => 1 / 2) i j (d i j)) ∧
    ∀ i : ℤ, 0 ≤ i → i < 2 → ∑ j ∈ Finset.Ico (0 : ℤ) 2, (d i j : ℂ) * 1 = lam * 1 := by
  have h : ∀ i j : ℤ, ∃ d, 0 ≤ i → i < 2 → IsPartial (field 2 (fisherRhs 2)) (fun _ => 1 / 2) i j d := by
    intro i j
    by_cases hi : 0 ≤ i ∧ i < 2
    · obtain ⟨d, hd⟩ := fisher_differentiable (x := fun _ => 1 / 2) (le_refl 2) hi.1 hi.2
        ⟨by norm_num, by norm_num⟩ j
      exact ⟨d, fun _ _ => hd⟩
    · exact ⟨0, fun h1 h2 => absurd ⟨h1, h2⟩ hi⟩
  have hF : HasDerivAt fisherF 0 (1 / 2) := by
    have hp : HasDerivAt (fun u : ℝ => 0.5 * u * (1 - u)) (0.5 * 1 * (1 - 1 / 2) + 0.5 * (1 / 2) * -1)
        (1 / 2) := ((hasDerivAt_id' _).const_mul 0.5).fun_mul ((hasDerivAt_id' _).const_sub 1)
    refine (hp.congr_of_eventuallyEq ?_).congr_deriv (by norm_num)
    filter_upwards [Ioo_mem_nhds (by norm_num : (0 : ℝ) < 1 / 2) (by norm_num : (1 : ℝ) / 2 < 1)] with u hu
    rw [fisherF_eq, if_pos ⟨hu.1.le, hu.2.le⟩]
  have hp : ∀ i j : ℤ, 0 ≤ i → i < 2 → IsPartial (field 2 (fisherRhs 2)) (fun _ => 1 / 2) i j
      (fisherUh2 2 * ((if cellMirror 2 (i - 1) = j then 1 else 0) - 2 * (if i = j then 1 else 0) +
        (if cellMirror 2 (i + 1) = j then 1 else 0)) + if i = j then 0 else 0) := by
    intro i j h0 h1
    have h := diffuse_partial (m := cellMirror 2) (D := fisherUh2 2) (f := fun _ => fisherF)
      (f' := fun _ _ => 0) (y := fun _ => 1 / 2) i j hF
    unfold IsPartial at h
    exact h.congr_of_eventuallyEq (Filter.Eventually.of_forall fun s => field_fisher (le_refl 2) _ h0 h1)
  refine ⟨_, 0, fun i j h0 h1 _ _ => hp i j h0 h1, ?_⟩
  intro i h0 h1
  have hi : i = 0 ∨ i = 1 := by omega
  have hs : Finset.Ico (0 : ℤ) 2 = {0, 1} := by decide
  rw [hs, Finset.sum_pair (by norm_num)]
  rcases hi with rfl | rfl <;> simp [cellMirror] <;> ring

end Odes.Stiff
