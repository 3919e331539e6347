import Verif.Lemmas.Order4
import Verif.Spec.Rodas

/-!
# Weights of the elementary differentials in a Rosenbrock step

Autonomous problem, exact Jacobian.  In a commutative real algebra with `ε^5 = 0`.
-/

namespace Odes.Spec

noncomputable section

variable {n s : ℕ} {J : Type} [CommRing J] [Algebra ℝ J]

/-- `Σ a_j w_j`. -/
def wsum {α : Type} [Mul α] [AddCommMonoid α] (a : Fin s → α) (w : Fin s → W8 α) : W8 α :=
  ⟨∑ j, a j * (w j).t1, ∑ j, a j * (w j).t2, ∑ j, a j * (w j).t3, ∑ j, a j * (w j).t4,
    ∑ j, a j * (w j).t5, ∑ j, a j * (w j).t6, ∑ j, a j * (w j).t7, ∑ j, a j * (w j).t8⟩

/-- the weights of `ε f'(v)` when `v` has the weights `w`. -/
def W8.shift {α : Type} [OfNat α 0] (w : W8 α) : W8 α := ⟨0, w.t1, 0, w.t2, 0, 0, w.t3, w.t4⟩

/-- the weights of the stages, with `β = α + γ`. -/
def Classic.weights (M : Classic ℝ s) (i : Fin s) : W8 ℝ where
  t1 := 1
  t2 := ∑ j, M.beta i j
  t3 := (∑ j, M.alpha i j) ^ 2
  t4 := ∑ j, M.beta i j * ∑ k, M.beta j k
  t5 := (∑ j, M.alpha i j) ^ 3
  t6 := (∑ j, M.alpha i j) * ∑ j, M.alpha i j * ∑ k, M.beta j k
  t7 := ∑ j, M.beta i j * (∑ k, M.alpha j k) ^ 2
  t8 := ∑ j, M.beta i j * ∑ k, M.beta j k * ∑ l, M.beta k l

theorem Classic.weights_eq (M : Classic ℝ s) (i : Fin s) :
    M.weights i = (wsum (M.alpha i) M.weights).app.add (wsum (M.gam i) M.weights).shift := by
  simp only [Classic.weights, wsum, W8.app, W8.add, W8.shift, Classic.beta, mul_one, add_zero,
    add_mul, Finset.sum_add_distrib, W8.mk.injEq, true_and, and_true]
  refine ⟨?_, ?_⟩ <;> ring

theorem wsum_map (a : Fin s → ℝ) (w : Fin s → W8 ℝ) :
    (wsum a w).map (cst (J := J)) = wsum (fun j => cst (a j)) (fun j => (w j).map cst) := by
  simp only [wsum, W8.map, cst, map_sum, map_mul]

theorem shift_map (w : W8 ℝ) : w.shift.map (cst (J := J)) = (w.map cst).shift := by
  simp only [W8.shift, W8.map, cst, map_zero]

namespace Taylor

variable {ε : J} {F : (Fin n → J) → Fin n → J} {y : Fin n → J} (D : Taylor ε F y)

theorem ser_wsum (a : Fin s → J) (w : Fin s → W8 J) :
    D.ser (wsum a w) = ∑ j, a j • D.ser (w j) := by
  simp only [ser, wsum, smul_add, Finset.sum_add_distrib, smul_smul, Finset.mul_sum, Finset.sum_mul,
    Finset.sum_smul, Finset.smul_sum]
  refine congrArg₂ _ (congrArg₂ _ (congrArg₂ _ rfl ?_) (congrArg₂ _ ?_ ?_))
    (congrArg₂ _ (congrArg₂ _ (congrArg₂ _ ?_ ?_) ?_) ?_) <;>
      exact Finset.sum_congr rfl fun j _ => by congr 1; ring

theorem zero1 : D.f1 0 = 0 := by
  have := D.smul1 0 0
  simpa using this

theorem sum1 (u : Fin s → Fin n → J) : D.f1 (∑ j, u j) = ∑ j, D.f1 (u j) := by
  classical
  refine Finset.induction_on (Finset.univ : Finset (Fin s)) (by simpa using D.zero1) ?_
  intro a t ha ih
  rw [Finset.sum_insert ha, Finset.sum_insert ha, D.add1, ih]

theorem shift_ser (hε : ε ^ 5 = 0) (w : W8 J) :
    ε ^ 2 • D.f1 (D.ser w) = ε • D.ser w.shift := by
  simp only [ser, W8.shift, D.add1, D.smul1, smul_add]
  match_scalars <;> first
    | ring1
    | linear_combination (w.t5 * cst (1 / 6)) * hε
    | linear_combination w.t6 * hε
    | linear_combination (w.t7 * cst (1 / 2)) * hε
    | linear_combination w.t8 * hε

/-- `z = c ε f'(z)` has only the solution zero. -/
theorem nilp1 (hε : ε ^ 5 = 0) {c : J} {z : Fin n → J} (hz : z = (c * ε) • D.f1 z) : z = 0 := by
  have key : ∀ m : ℕ, ∃ u, z = (c * ε) ^ m • u := by
    intro m
    induction m with
    | zero => exact ⟨z, by simp⟩
    | succ m ih =>
      obtain ⟨u, hu⟩ := ih
      refine ⟨D.f1 u, ?_⟩
      have : D.f1 z = (c * ε) ^ m • D.f1 u := by rw [← D.smul1, ← hu]
      rw [hz, this, smul_smul, pow_succ']
  obtain ⟨u, hu⟩ := key 5
  rw [hu, mul_pow, hε, mul_zero, zero_smul]

/-- the stages of a Rosenbrock step have the weights `weights`. -/
theorem ros_ser (hε : ε ^ 5 = 0) (M : Classic ℝ s) (ha : ∀ i j, ¬ j < i → M.alpha i j = 0)
    (hg : ∀ i j, i < j → M.gam i j = 0) (k : Fin s → Fin n → J)
    (hk : ∀ i, ε • k i = ε • F (y + ε • ∑ j, cst (J := J) (M.alpha i j) • k j)
      + ε ^ 2 • D.f1 (∑ j, cst (J := J) (M.gam i j) • k j)) (i : Fin s) :
    ε • k i = ε • D.ser ((M.weights i).map cst) := by
  have main : ∀ (m : ℕ) (i : Fin s), i.val < m → ε • k i = ε • D.ser ((M.weights i).map cst) := by
    intro m
    induction m with
    | zero => intro i hi; omega
    | succ m ih =>
      intro i hi
      have IH : ∀ j, j < i → ε • k j = ε • D.ser ((M.weights j).map cst) := fun j hj =>
        ih j (by have : j.val < i.val := hj; omega)
      have hA : ε • ∑ j, cst (J := J) (M.alpha i j) • k j
          = ε • D.ser ((wsum (M.alpha i) M.weights).map cst) := by
        rw [wsum_map, D.ser_wsum, Finset.smul_sum, Finset.smul_sum]
        refine Finset.sum_congr rfl fun j _ => ?_
        by_cases hj : j < i
        · rw [smul_comm, IH j hj, smul_comm]
        · rw [ha i j hj]; simp
      obtain ⟨z, hz⟩ : ∃ z, z = ε • k i - ε • D.ser ((M.weights i).map cst) := ⟨_, rfl⟩
      have hG : ε • ∑ j, cst (J := J) (M.gam i j) • k j
          = ε • D.ser ((wsum (M.gam i) M.weights).map cst) + cst (J := J) (M.gam i i) • z := by
        rw [wsum_map, D.ser_wsum, Finset.smul_sum, Finset.smul_sum]
        have e : cst (J := J) (M.gam i i) • z
            = ∑ j, cst (J := J) (M.gam i j) • (ε • k j - ε • D.ser ((M.weights j).map cst)) := by
          rw [Finset.sum_eq_single i]
          · rw [hz]
          · intro j _ hj
            rcases lt_or_gt_of_ne hj with h | h
            · rw [IH j h, sub_self, smul_zero]
            · rw [hg i j h]; simp
          · intro h; exact absurd (Finset.mem_univ i) h
        rw [e, ← Finset.sum_add_distrib]
        refine Finset.sum_congr rfl fun j _ => ?_
        module
      have hF : ε ^ 2 • D.f1 (∑ j, cst (J := J) (M.gam i j) • k j)
          = ε • D.ser ((wsum (M.gam i) M.weights).shift.map cst)
            + (cst (J := J) (M.gam i i) * ε) • D.f1 z := by
        rw [pow_two, mul_smul, ← D.smul1 ε, hG, D.add1, D.smul1, D.smul1, smul_add, smul_smul,
          ← pow_two, D.shift_ser hε, shift_map, smul_smul, mul_comm ε]
      have e := hk i
      rw [hA, D.app_ser hε, hF] at e
      have hw : D.ser ((M.weights i).map cst)
          = D.ser (((wsum (M.alpha i) M.weights).map cst).app)
            + D.ser ((wsum (M.gam i) M.weights).shift.map (cst (J := J))) := by
        rw [M.weights_eq i, ← W8.map_add, D.ser_add, ← W8.map_app]
      have hz0 : z = 0 := by
        refine D.nilp1 hε (c := cst (M.gam i i)) ?_
        conv_lhs => rw [hz, e, hw]
        rw [smul_add]
        abel
      rw [hz0] at hz
      exact (sub_eq_zero.1 hz.symm)
  exact main (i.val + 1) i (Nat.lt_succ_self _)

/-- the weights of the result. -/
def _root_.Odes.Spec.Classic.result (M : Classic ℝ s) : W8 ℝ := wsum M.b M.weights

/-- **the result of a Rosenbrock step.** -/
theorem ros_step (hε : ε ^ 5 = 0) (M : Classic ℝ s) (ha : ∀ i j, ¬ j < i → M.alpha i j = 0)
    (hg : ∀ i j, i < j → M.gam i j = 0) (k : Fin s → Fin n → J)
    (hk : ∀ i, ε • k i = ε • F (y + ε • ∑ j, cst (J := J) (M.alpha i j) • k j)
      + ε ^ 2 • D.f1 (∑ j, cst (J := J) (M.gam i j) • k j)) :
    y + ε • ∑ j, cst (J := J) (M.b j) • k j
      = D.flow + ε • D.ser ((M.result.add (exact8.smul (-1))).map cst) := by
  rw [← D.defect, Classic.result, wsum_map, D.ser_wsum, Finset.smul_sum, Finset.smul_sum]
  congr 1
  refine Finset.sum_congr rfl fun j _ => ?_
  rw [smul_comm, D.ros_ser hε M ha hg k hk j, smul_comm]

end Taylor

end

end Odes.Spec
