import Verif.Lemmas.GermErr
import Verif.Lemmas.RosSer
import Mathlib.LinearAlgebra.Matrix.NonsingularInverse
import Mathlib.LinearAlgebra.Matrix.ToLin

/-!
# Stages of a Rosenbrock step on a polynomial problem: existence, size, dependence on the data
-/

namespace Odes

noncomputable section

open Spec Germ

variable {n s : ℕ}

/-- the stages of a step for `y' = f(y)` with the matrix `J` in the place of the Jacobian. -/
def Stages (M : Classic ℝ s) (P : Fin n → MvPolynomial (Fin n) ℝ) (J : Matrix (Fin n) (Fin n) ℝ) (h : ℝ)
    (u : Fin n → ℝ) (k : Fin s → Fin n → ℝ) : Prop :=
  ∀ i, k i = h • polyField P (u + ∑ j, M.alpha i j • k j) + h • J.mulVec (∑ j, M.gam i j • k j)

/-- the operator norm of `J` is at most `B`. -/
def MatLe (J : Matrix (Fin n) (Fin n) ℝ) (B : ℝ) : Prop := ∀ x, ‖J.mulVec x‖ ≤ B * ‖x‖

/-- triangular coefficients with the constant `γ` on the diagonal. -/
structure Tri (M : Classic ℝ s) (γ : ℝ) : Prop where
  alpha : ∀ i j, ¬ j < i → M.alpha i j = 0
  gam : ∀ i j, i < j → M.gam i j = 0
  diag : ∀ i, M.gam i i = γ
  pos : 0 ≤ γ

/-- the sum of the absolute values of all coefficients. -/
def coefSum (M : Classic ℝ s) : ℝ := ∑ i, ((∑ j, (|M.alpha i j| + |M.gam i j|)) + |M.b i|)

theorem coefSum_nonneg (M : Classic ℝ s) : 0 ≤ coefSum M :=
  Finset.sum_nonneg fun i _ => add_nonneg (Finset.sum_nonneg fun j _ => by positivity) (abs_nonneg _)

theorem row_le (M : Classic ℝ s) (i : Fin s) : ∑ j, (|M.alpha i j| + |M.gam i j|) ≤ coefSum M := by
  have h : (∑ j, (|M.alpha i j| + |M.gam i j|)) + |M.b i| ≤ coefSum M := Finset.single_le_sum (f := fun i => (∑ j, (|M.alpha i j| + |M.gam i j|)) + |M.b i|)
    (fun j _ => add_nonneg (Finset.sum_nonneg fun j _ => by positivity) (abs_nonneg _)) (Finset.mem_univ i)
  have := abs_nonneg (M.b i)
  linarith

theorem alpha_sum_le (M : Classic ℝ s) (i : Fin s) {x : Fin s → Fin n → ℝ} {m : ℝ} (hm : 0 ≤ m)
    (hx : ∀ j, M.alpha i j = 0 ∨ ‖x j‖ ≤ m) : ‖∑ j, M.alpha i j • x j‖ ≤ coefSum M * m := by
  refine (norm_sum_le _ _).trans (le_trans ?_ (mul_le_mul_of_nonneg_right (row_le M i) hm))
  rw [Finset.sum_mul]
  refine Finset.sum_le_sum fun j _ => ?_
  rw [norm_smul, Real.norm_eq_abs]
  rcases hx j with h | h
  · rw [h]; simp; positivity
  · have := mul_le_mul_of_nonneg_left h (abs_nonneg (M.alpha i j))
    have : 0 ≤ |M.gam i j| * m := by positivity
    linarith

theorem gam_sum_le (M : Classic ℝ s) (i : Fin s) {x : Fin s → Fin n → ℝ} {m : ℝ} (hm : 0 ≤ m)
    (hx : ∀ j, j ≠ i → M.gam i j = 0 ∨ ‖x j‖ ≤ m) :
    ‖∑ j, M.gam i j • x j‖ ≤ coefSum M * m + |M.gam i i| * ‖x i‖ := by
  have e : ∑ j, M.gam i j • x j = (∑ j, if j = i then 0 else M.gam i j • x j) + M.gam i i • x i := by
    have : M.gam i i • x i = ∑ j, if j = i then M.gam i j • x j else 0 := by simp
    rw [this, ← Finset.sum_add_distrib]
    refine Finset.sum_congr rfl fun j _ => ?_
    split_ifs <;> simp
  rw [e]
  refine (norm_add_le _ _).trans (add_le_add ?_ ?_)
  · refine (norm_sum_le _ _).trans (le_trans ?_ (mul_le_mul_of_nonneg_right (row_le M i) hm))
    rw [Finset.sum_mul]
    refine Finset.sum_le_sum fun j _ => ?_
    have p1 : 0 ≤ |M.alpha i j| * m := by positivity
    have p2 : 0 ≤ |M.gam i j| * m := by positivity
    split_ifs with hj
    · rw [norm_zero]; linarith
    · rw [norm_smul, Real.norm_eq_abs]
      rcases hx j hj with h | h
      · rw [h] at p2 ⊢; simp at p2 ⊢; positivity
      · have := mul_le_mul_of_nonneg_left h (abs_nonneg (M.gam i j))
        linarith
  · rw [norm_smul, Real.norm_eq_abs]

theorem b_sum_le (M : Classic ℝ s) {x : Fin s → Fin n → ℝ} {m : ℝ} (hm : 0 ≤ m)
    (hx : ∀ j, ‖x j‖ ≤ m) : ‖∑ j, M.b j • x j‖ ≤ coefSum M * m := by
  refine (norm_sum_le _ _).trans ?_
  unfold coefSum
  rw [Finset.sum_mul]
  refine Finset.sum_le_sum fun j _ => ?_
  rw [norm_smul, Real.norm_eq_abs]
  have h1 : 0 ≤ ∑ l, (|M.alpha j l| + |M.gam j l|) := Finset.sum_nonneg fun l _ => by positivity
  have h2 := mul_le_mul_of_nonneg_left (hx j) (abs_nonneg (M.b j))
  have := mul_nonneg h1 hm
  linarith

/-- **the stages are at most a multiple of `h`.** -/
theorem stages_bound (M : Classic ℝ s) {γ : ℝ} (hM : Tri M γ) (P : Fin n → MvPolynomial (Fin n) ℝ)
    (R : ℝ) {B : ℝ} (hB : 0 ≤ B) :
    ∃ Z, 0 ≤ Z ∧ ∀ J h u k, MatLe J B → 0 ≤ h → h ≤ 1 → h * (γ * B) ≤ 1 / 2 → ‖u‖ ≤ R →
      Stages M P J h u k → ∀ i, ‖k i‖ ≤ Z * h := by
  have key : ∀ m : ℕ, ∃ Z, 0 ≤ Z ∧ ∀ J h u k, MatLe J B → 0 ≤ h → h ≤ 1 → h * (γ * B) ≤ 1 / 2 →
      ‖u‖ ≤ R → Stages M P J h u k → ∀ i : Fin s, i.val < m → ‖k i‖ ≤ Z * h := by
    intro m
    induction m with
    | zero => exact ⟨0, le_rfl, fun _ _ _ _ _ _ _ _ _ _ i hi => by omega⟩
    | succ m ih =>
      obtain ⟨Z, z0, hZ⟩ := ih
      have hA := coefSum_nonneg M
      obtain ⟨L, l0, hL⟩ := polyField_lip P (R + coefSum M * Z)
      refine ⟨Z + 2 * (L + B * (coefSum M * Z)), by positivity, ?_⟩
      intro J h u k hJ h0 h1 hγ hu hk i hi
      have IH := hZ J h u k hJ h0 h1 hγ hu hk
      rcases Nat.lt_succ_iff_lt_or_eq.1 hi with hi' | hi'
      · refine (IH i hi').trans (mul_le_mul_of_nonneg_right ?_ h0)
        have : 0 ≤ 2 * (L + B * (coefSum M * Z)) := by positivity
        linarith
      · have hj : ∀ j, j < i → ‖k j‖ ≤ Z * h := fun j hj => IH j (by
          have : j.val < i.val := hj
          omega)
        have hZh : Z * h ≤ Z := by nlinarith
        have a1 : ‖∑ j, M.alpha i j • k j‖ ≤ coefSum M * (Z * h) :=
          alpha_sum_le M i (by positivity) fun j => by
            by_cases hji : j < i
            · exact Or.inr (hj j hji)
            · exact Or.inl (hM.alpha i j hji)
        have a2 : ‖∑ j, M.gam i j • k j‖ ≤ coefSum M * (Z * h) + |M.gam i i| * ‖k i‖ :=
          gam_sum_le M i (by positivity) fun j hne => by
            rcases lt_or_gt_of_ne hne with hji | hji
            · exact Or.inr (hj j hji)
            · exact Or.inl (hM.gam i j hji)
        rw [hM.diag, abs_of_nonneg hM.pos] at a2
        have a1' : coefSum M * (Z * h) ≤ coefSum M * Z := mul_le_mul_of_nonneg_left hZh hA
        have b1 : ‖polyField P (u + ∑ j, M.alpha i j • k j)‖ ≤ L := by
          have hn : ‖u + ∑ j, M.alpha i j • k j‖ ≤ R + coefSum M * Z :=
            (norm_add_le _ _).trans (add_le_add hu (a1.trans a1'))
          exact (hL _ _ hn hn).1
        have b2 : ‖J.mulVec (∑ j, M.gam i j • k j)‖ ≤ B * (coefSum M * Z + γ * ‖k i‖) :=
          (hJ _).trans (mul_le_mul_of_nonneg_left (a2.trans (by linarith)) hB)
        have c : ‖k i‖ ≤ h * L + h * (B * (coefSum M * Z + γ * ‖k i‖)) := by
          rw [hk i]
          refine (norm_add_le _ _).trans ?_
          rw [norm_smul, norm_smul, Real.norm_eq_abs, abs_of_nonneg h0]
          rw [hk i] at b2
          exact add_le_add (mul_le_mul_of_nonneg_left b1 h0) (mul_le_mul_of_nonneg_left b2 h0)
        have d := mul_le_mul_of_nonneg_right hγ (norm_nonneg (k i))
        have e : 0 ≤ Z * h := by positivity
        nlinarith
  obtain ⟨Z, z0, hZ⟩ := key s
  exact ⟨Z, z0, fun J h u k hJ h0 h1 hγ hu hk i => hZ J h u k hJ h0 h1 hγ hu hk i i.2⟩

/-- **the stages depend on the data in a Lipschitz way.** -/
theorem stages_diff (M : Classic ℝ s) {γ : ℝ} (hM : Tri M γ) (P : Fin n → MvPolynomial (Fin n) ℝ)
    (R : ℝ) {B : ℝ} (hB : 0 ≤ B) :
    ∃ Z, 0 ≤ Z ∧ ∀ J J' h u u' k k' κ, MatLe J B → MatLe J' B → MatLe (J - J') κ → 0 ≤ κ → 0 ≤ h →
      h ≤ 1 → h * (γ * B) ≤ 1 / 2 → ‖u‖ ≤ R → ‖u'‖ ≤ R → Stages M P J h u k → Stages M P J' h u' k' →
      ∀ i, ‖k i - k' i‖ ≤ Z * (h * (‖u - u'‖ + κ * h)) := by
  obtain ⟨Y, y0, hY⟩ := stages_bound M hM P R hB
  have hA := coefSum_nonneg M
  obtain ⟨L, l0, hL⟩ := polyField_lip P (R + coefSum M * Y)
  have key : ∀ m : ℕ, ∃ Z, 0 ≤ Z ∧ ∀ J J' h u u' k k' κ, MatLe J B → MatLe J' B → MatLe (J - J') κ →
      0 ≤ κ → 0 ≤ h → h ≤ 1 → h * (γ * B) ≤ 1 / 2 → ‖u‖ ≤ R → ‖u'‖ ≤ R → Stages M P J h u k →
      Stages M P J' h u' k' → ∀ i : Fin s, i.val < m → ‖k i - k' i‖ ≤ Z * (h * (‖u - u'‖ + κ * h)) := by
    intro m
    induction m with
    | zero => exact ⟨0, le_rfl, fun _ _ _ _ _ _ _ _ _ _ _ _ _ _ _ _ _ _ _ i hi => by omega⟩
    | succ m ih =>
      obtain ⟨Z, z0, hZ⟩ := ih
      refine ⟨Z + 2 * (L + L * (coefSum M * Z) + B * (coefSum M * Z)
        + (coefSum M * Y + γ * Y)), by have := hM.pos; positivity, ?_⟩
      intro J J' h u u' k k' κ hJ hJ' hd hκ h0 h1 hγ hu hu' hk hk' i hi
      have IH := hZ J J' h u u' k k' κ hJ hJ' hd hκ h0 h1 hγ hu hu' hk hk'
      have hγ0 := hM.pos
      set E : ℝ := ‖u - u'‖ + κ * h with hE
      have hE0 : 0 ≤ E := by positivity
      rcases Nat.lt_succ_iff_lt_or_eq.1 hi with hi' | hi'
      · refine (IH i hi').trans (mul_le_mul_of_nonneg_right ?_ (by positivity))
        have : 0 ≤ 2 * (L + L * (coefSum M * Z) + B * (coefSum M * Z) + (coefSum M * Y + γ * Y)) := by
          positivity
        linarith
      · have hj : ∀ j, j < i → ‖k j - k' j‖ ≤ Z * (h * E) := fun j hj => IH j (by
          have : j.val < i.val := hj
          omega)
        have hhE : h * E ≤ E := by nlinarith
        have hZh : Z * (h * E) ≤ Z * E := mul_le_mul_of_nonneg_left hhE z0
        have hYk := hY J h u k hJ h0 h1 hγ hu hk
        have hYk' := hY J' h u' k' hJ' h0 h1 hγ hu' hk'
        have hYh : Y * h ≤ Y := by nlinarith
        have a1 : ‖∑ j, M.alpha i j • (k j - k' j)‖ ≤ coefSum M * (Z * (h * E)) :=
          alpha_sum_le M i (by positivity) fun j => by
            by_cases hji : j < i
            · exact Or.inr (hj j hji)
            · exact Or.inl (hM.alpha i j hji)
        have a2 : ‖∑ j, M.gam i j • (k j - k' j)‖ ≤ coefSum M * (Z * (h * E)) + |M.gam i i| * ‖k i - k' i‖ :=
          gam_sum_le M i (by positivity) fun j hne => by
            rcases lt_or_gt_of_ne hne with hji | hji
            · exact Or.inr (hj j hji)
            · exact Or.inl (hM.gam i j hji)
        rw [hM.diag, abs_of_nonneg hγ0] at a2
        have a3 : ‖∑ j, M.gam i j • k' j‖ ≤ coefSum M * (Y * h) + |M.gam i i| * ‖k' i‖ :=
          gam_sum_le M i (by positivity) fun j _ => Or.inr (hYk' j)
        rw [hM.diag, abs_of_nonneg hγ0] at a3
        have a4 : ‖∑ j, M.gam i j • k' j‖ ≤ (coefSum M * Y + γ * Y) * h := by
          have := mul_le_mul_of_nonneg_left (hYk' i) hγ0
          linarith
        have ball : ∀ (v : Fin n → ℝ) (q : Fin s → Fin n → ℝ), ‖v‖ ≤ R → (∀ j, ‖q j‖ ≤ Y * h) →
            ‖v + ∑ j, M.alpha i j • q j‖ ≤ R + coefSum M * Y := by
          intro v q hv hq
          refine (norm_add_le _ _).trans (add_le_add hv ?_)
          exact (alpha_sum_le M i (by positivity) fun j => Or.inr (hq j)).trans
            (mul_le_mul_of_nonneg_left hYh hA)
        have b1 : ‖polyField P (u + ∑ j, M.alpha i j • k j) - polyField P (u' + ∑ j, M.alpha i j • k' j)‖
            ≤ L * (E + coefSum M * (Z * E)) := by
          refine (hL _ _ (ball u k hu hYk) (ball u' k' hu' hYk')).2.trans
            (mul_le_mul_of_nonneg_left ?_ l0)
          have e : (u + ∑ j, M.alpha i j • k j) - (u' + ∑ j, M.alpha i j • k' j)
              = (u - u') + ∑ j, M.alpha i j • (k j - k' j) := by
            simp only [smul_sub, Finset.sum_sub_distrib]; abel
          rw [e]
          refine (norm_add_le _ _).trans (add_le_add ?_ (a1.trans (mul_le_mul_of_nonneg_left hZh hA)))
          have : 0 ≤ κ * h := by positivity
          linarith
        have b2 : ‖J.mulVec (∑ j, M.gam i j • k j) - J'.mulVec (∑ j, M.gam i j • k' j)‖
            ≤ B * (coefSum M * (Z * E) + γ * ‖k i - k' i‖) + (coefSum M * Y + γ * Y) * E := by
          have e : J.mulVec (∑ j, M.gam i j • k j) - J'.mulVec (∑ j, M.gam i j • k' j)
              = J.mulVec (∑ j, M.gam i j • (k j - k' j)) + (J - J').mulVec (∑ j, M.gam i j • k' j) := by
            simp only [smul_sub, Finset.sum_sub_distrib, Matrix.mulVec_sub, Matrix.sub_mulVec]
            abel
          rw [e]
          refine (norm_add_le _ _).trans (add_le_add ?_ ?_)
          · refine (hJ _).trans (mul_le_mul_of_nonneg_left (a2.trans ?_) hB)
            have := mul_le_mul_of_nonneg_left hZh hA
            linarith
          · refine (hd _).trans ((mul_le_mul_of_nonneg_left a4 hκ).trans ?_)
            have p : 0 ≤ (coefSum M * Y + γ * Y) * ‖u - u'‖ := by positivity
            have e2 : κ * ((coefSum M * Y + γ * Y) * h) = (coefSum M * Y + γ * Y) * (κ * h) := by ring
            rw [e2, hE, mul_add]
            linarith
        have c : ‖k i - k' i‖ ≤ h * (L * (E + coefSum M * (Z * E)))
            + h * (B * (coefSum M * (Z * E) + γ * ‖k i - k' i‖) + (coefSum M * Y + γ * Y) * E) := by
          have e : k i - k' i = h • (polyField P (u + ∑ j, M.alpha i j • k j)
              - polyField P (u' + ∑ j, M.alpha i j • k' j))
              + h • (J.mulVec (∑ j, M.gam i j • k j) - J'.mulVec (∑ j, M.gam i j • k' j)) := by
            conv_lhs => rw [hk i, hk' i]
            module
          calc ‖k i - k' i‖ ≤ _ := (congrArg norm e).le.trans (norm_add_le _ _)
            _ ≤ _ := by
              rw [norm_smul, norm_smul, Real.norm_eq_abs, abs_of_nonneg h0]
              exact add_le_add (mul_le_mul_of_nonneg_left b1 h0) (mul_le_mul_of_nonneg_left b2 h0)
        have d := mul_le_mul_of_nonneg_right hγ (norm_nonneg (k i - k' i))
        have e : 0 ≤ Z * (h * E) := by positivity
        nlinarith
  obtain ⟨Z, z0, hZ⟩ := key s
  exact ⟨Z, z0, fun J J' h u u' k k' κ hJ hJ' hd hκ h0 h1 hγ hu hu' hk hk' i =>
    hZ J J' h u u' k k' κ hJ hJ' hd hκ h0 h1 hγ hu hu' hk hk' i i.2⟩

/-- **the stages exist** when `h γ ‖J‖ ≤ 1/2`. -/
theorem stages_exist (M : Classic ℝ s) {γ : ℝ} (hM : Tri M γ) (P : Fin n → MvPolynomial (Fin n) ℝ)
    {B : ℝ} {J : Matrix (Fin n) (Fin n) ℝ} {h : ℝ} (hJ : MatLe J B) (h0 : 0 ≤ h)
    (hγ : h * (γ * B) ≤ 1 / 2) (u : Fin n → ℝ) : ∃ k, Stages M P J h u k := by
  have hinj : Function.Injective ((1 - (h * γ) • J).mulVec) := by
    have h1 : ∀ x, (1 - (h * γ) • J).mulVec x = 0 → x = 0 := by
      intro x hx
      have e : x = (h * γ) • J.mulVec x := by
        have := hx
        rw [Matrix.sub_mulVec, Matrix.one_mulVec, Matrix.smul_mulVec, sub_eq_zero] at this
        exact this
      have h2 : ‖x‖ ≤ 1 / 2 * ‖x‖ := by
        calc ‖x‖ = h * γ * ‖J.mulVec x‖ := by
              conv_lhs => rw [e]
              rw [norm_smul, Real.norm_eq_abs, abs_of_nonneg (mul_nonneg h0 hM.pos)]
          _ ≤ h * γ * (B * ‖x‖) := mul_le_mul_of_nonneg_left (hJ x) (mul_nonneg h0 hM.pos)
          _ = h * (γ * B) * ‖x‖ := by ring
          _ ≤ _ := mul_le_mul_of_nonneg_right hγ (norm_nonneg _)
      have := norm_nonneg x
      exact norm_eq_zero.1 (by linarith)
    intro x x' hxx
    have : (1 - (h * γ) • J).mulVec (x - x') = 0 := by
      rw [Matrix.mulVec_sub, sub_eq_zero]; exact hxx
    exact sub_eq_zero.1 (h1 _ this)
  have hsurj : Function.Surjective ((1 - (h * γ) • J).mulVec) :=
    Matrix.mulVec_surjective_iff_isUnit.2 (Matrix.mulVec_injective_iff_isUnit.1 hinj)
  have key : ∀ m : ℕ, ∃ k : Fin s → Fin n → ℝ, ∀ i : Fin s, i.val < m →
      k i = h • polyField P (u + ∑ j, M.alpha i j • k j) + h • J.mulVec (∑ j, M.gam i j • k j) := by
    intro m
    induction m with
    | zero => exact ⟨0, fun i hi => by omega⟩
    | succ m ih =>
      obtain ⟨k, hk⟩ := ih
      by_cases hm : m < s
      · set l : Fin s := ⟨m, hm⟩ with hl
        obtain ⟨x, hx⟩ := hsurj (h • polyField P (u + ∑ j, M.alpha l j • k j)
          + h • J.mulVec (∑ j, if j = l then 0 else M.gam l j • k j))
        have hα : ∀ i : Fin s, i.val ≤ m → ∑ j, M.alpha i j • Function.update k l x j
            = ∑ j, M.alpha i j • k j := by
          intro i hi
          refine Finset.sum_congr rfl fun j _ => ?_
          by_cases hj : j = l
          · have : ¬ j < i := by
              rw [hj]; intro h'
              have : m < i.val := h'
              omega
            rw [hM.alpha i j this, zero_smul, zero_smul]
          · rw [Function.update_of_ne hj]
        refine ⟨Function.update k l x, fun i hi => ?_⟩
        rcases Nat.lt_succ_iff_lt_or_eq.1 hi with hi' | hi'
        · have hne : i ≠ l := by rintro rfl; simp [hl] at hi'
          rw [Function.update_of_ne hne, hα i hi'.le]
          have hg : ∑ j, M.gam i j • Function.update k l x j = ∑ j, M.gam i j • k j := by
            refine Finset.sum_congr rfl fun j _ => ?_
            by_cases hj : j = l
            · have : i < j := by rw [hj]; exact hi'
              rw [hM.gam i j this, zero_smul, zero_smul]
            · rw [Function.update_of_ne hj]
          rw [hg]
          exact hk i hi'
        · have hil : i = l := Fin.ext hi'
          rw [hil, Function.update_self, hα l le_rfl]
          have hg : ∑ j, M.gam l j • Function.update k l x j
              = (∑ j, if j = l then 0 else M.gam l j • k j) + γ • x := by
            have : γ • x = ∑ j, if j = l then γ • x else 0 := by simp
            rw [this, ← Finset.sum_add_distrib]
            refine Finset.sum_congr rfl fun j _ => ?_
            by_cases hj : j = l
            · rw [if_pos hj, if_pos hj, hj, Function.update_self, hM.diag, zero_add]
            · rw [if_neg hj, if_neg hj, Function.update_of_ne hj, add_zero]
          rw [hg, Matrix.mulVec_add, Matrix.mulVec_smul]
          rw [Matrix.sub_mulVec, Matrix.one_mulVec, Matrix.smul_mulVec, sub_eq_iff_eq_add] at hx
          conv_lhs => rw [hx]
          module
      · exact ⟨k, fun i hi => hk i (by have := i.2; omega)⟩
  obtain ⟨k, hk⟩ := key s
  exact ⟨k, fun i => hk i i.2⟩

end

end Odes
