import Verif.Lemmas.SympMap
import Verif.Lemmas.GaussSound
import Mathlib.Analysis.Normed.Group.Constructions

/-!
# A step forward and a step backward with a symmetric method
-/

namespace Odes.Spec

variable {n s : ℕ}

/-- distance of the starting point after a step `h` and a step `-h`, each with stage equations solved
up to `T`. -/
theorem there_and_back {A : Fin s → Fin s → ℝ} {b : Fin s → ℝ} {h : ℝ} {f : (Fin n → ℝ) → Fin n → ℝ}
    {σ : Fin s → Fin s} (hσ : Function.Bijective σ) {α β δ η L F T : ℝ} (hα : ∀ i, ∑ j, |A i j| ≤ α)
    (hβ : ∑ i, |b i| ≤ β) (hδ : ∀ i j, |symDefect σ A b i j| ≤ δ) (hη : ∀ j, |b (σ j) - b j| ≤ η)
    (hδ0 : 0 ≤ δ) (hη0 : 0 ≤ η) (hL0 : 0 ≤ L) (hL : ∀ x y, ‖f x - f y‖ ≤ L * ‖x - y‖)
    (hF0 : 0 ≤ F) (hT0 : 0 ≤ T)
    (hθ : |h| * α * L < 1) {u u' u'' : Fin n → ℝ} {Y Z W V : Fin s → Fin n → ℝ}
    (h1 : RkSweep A b h f u Y Z u') (h2 : RkSweep A b (-h) f u' W V u'')
    (hF : ∀ i, ‖f (Y i)‖ ≤ F) (hZ : ∀ i, ‖Z i - Y i‖ ≤ T) (hV : ∀ i, ‖V i - W i‖ ≤ T) :
    ‖u'' - u‖ ≤ |h| * β * L * ((2 * T + |h| * s * (δ + η) * F) / (1 - |h| * α * L)) +
      |h| * s * η * F := by
  have hsum : ∀ g : Fin s → Fin n → ℝ, ∑ j, g j = ∑ j, g (σ j) := fun g =>
    (hσ.sum_comp (fun j => g j)).symm
  have hu' : u' = u + h • ∑ j, b (σ j) • f (Y (σ j)) := by
    rw [h1.result, hsum]
  have hYs : ∀ i, Z (σ i) = u + h • ∑ j, A (σ i) (σ j) • f (Y (σ j)) := by
    intro i
    rw [h1.stage, hsum]
  set g := fun i => W i - Y (σ i) with hg
  have hc : ∀ (c : Fin s → ℝ) (κ : ℝ), (∀ j, |c j| ≤ κ) → ∑ j, |c j| ≤ s * κ := by
    intro c κ hcκ
    exact (Finset.sum_le_card_nsmul _ _ κ fun j _ => hcκ j).trans_eq (by simp)
  have hgi : ∀ i, ‖g i‖ ≤ |h| * α * (L * ‖g‖) + (|h| * (s * (δ + η)) * F + (T + T)) := by
    intro i
    have e : g i = (-h) • ∑ j, A i j • (f (W j) - f (Y (σ j))) +
        ((-h) • ∑ j, (symDefect σ A b i j - (b (σ j) - b j)) • f (Y (σ j)) +
          ((Z (σ i) - Y (σ i)) - (V i - W i))) := by
      rw [hg]
      have e1 : W i - Y (σ i) = V i - Z (σ i) + ((Z (σ i) - Y (σ i)) - (V i - W i)) := by abel
      have e2 : V i - Z (σ i) = (-h) • ∑ j, A i j • (f (W j) - f (Y (σ j))) +
        (-h) • ∑ j, (symDefect σ A b i j - (b (σ j) - b j)) • f (Y (σ j)) := by
        rw [h2.stage, hYs, hu']
        simp only [symDefect, sub_smul, add_smul, smul_sub, Finset.sum_add_distrib,
          Finset.sum_sub_distrib, neg_smul, smul_add]
        abel
      show W i - Y (σ i) = _
      rw [e1, e2]
      abel
    rw [e]
    refine (norm_add_le _ _).trans (add_le_add ?_ ((norm_add_le _ _).trans (add_le_add ?_ ?_)))
    · refine (norm_comb_le (hα i) (V := L * ‖g‖) (by positivity) fun j => (hL _ _).trans
        (mul_le_mul_of_nonneg_left (norm_le_pi_norm g j) hL0)).trans_eq (by rw [abs_neg])
    · refine (norm_comb_le (hc _ (δ + η) fun j => (abs_sub _ _).trans (add_le_add (hδ i j) (hη j))) hF0
        fun j => hF _).trans_eq (by rw [abs_neg])
    · exact (norm_sub_le _ _).trans (add_le_add (hZ _) (hV i))
  have hpos : 0 < 1 - |h| * α * L := by linarith
  have hG : ‖g‖ ≤ (2 * T + |h| * s * (δ + η) * F) / (1 - |h| * α * L) := by
    rw [le_div_iff₀ hpos]
    rcases isEmpty_or_nonempty (Fin s) with he | he
    · have : g = 0 := Subsingleton.elim _ _
      rw [this, norm_zero, zero_mul]
      positivity
    · have : ‖g‖ ≤ |h| * α * (L * ‖g‖) + (|h| * (s * (δ + η)) * F + (T + T)) :=
        (pi_norm_le_iff_of_nonempty g).2 hgi
      nlinarith
  have e : u'' - u = (-h) • ∑ j, b j • (f (W j) - f (Y (σ j))) +
      h • ∑ j, (b (σ j) - b j) • f (Y (σ j)) := by
    rw [h2.result, hu']
    simp only [sub_smul, smul_sub, Finset.sum_sub_distrib, neg_smul]
    abel
  rw [e]
  refine (norm_add_le _ _).trans (add_le_add ?_ ?_)
  · refine (norm_comb_le hβ (V := L * ‖g‖) (by positivity) fun j => (hL _ _).trans
        (mul_le_mul_of_nonneg_left (norm_le_pi_norm g j) hL0)).trans ?_
    rw [abs_neg, mul_assoc, mul_assoc, mul_assoc]
    have hβ0 : 0 ≤ β := (Finset.sum_nonneg fun i _ => abs_nonneg (b i)).trans hβ
    exact mul_le_mul_of_nonneg_left (mul_le_mul_of_nonneg_left (mul_le_mul_of_nonneg_left hG hL0) hβ0)
      (abs_nonneg h)
  · refine (norm_comb_le (hc _ η fun j => hη j) hF0 fun j => hF _).trans_eq (by ring)

/-- bound of the slopes of a sweep. -/
theorem slopes_le {A : Fin s → Fin s → ℝ} {b : Fin s → ℝ} {h : ℝ} {f : (Fin n → ℝ) → Fin n → ℝ}
    {α L T : ℝ} (hα : ∀ i, ∑ j, |A i j| ≤ α) (hL0 : 0 ≤ L) (hL : ∀ x y, ‖f x - f y‖ ≤ L * ‖x - y‖)
    (hθ : |h| * α * L < 1) {u u' : Fin n → ℝ} {Y Z : Fin s → Fin n → ℝ}
    (h1 : RkSweep A b h f u Y Z u') (hZ : ∀ i, ‖Z i - Y i‖ ≤ T) (i : Fin s) :
    ‖f (Y i)‖ ≤ (‖f u‖ + L * T) / (1 - |h| * α * L) := by
  have hpos : 0 < 1 - |h| * α * L := by linarith
  set k := fun i => f (Y i) with hk
  have hki : ∀ i, ‖k i‖ ≤ ‖f u‖ + L * (|h| * α * ‖k‖ + T) := by
    intro i
    have e1 : ‖k i‖ ≤ ‖f u‖ + ‖f (Y i) - f u‖ := by
      have : k i = f u + (f (Y i) - f u) := by rw [hk]; abel
      conv_lhs => rw [this]
      exact norm_add_le _ _
    refine e1.trans (add_le_add_right ((hL _ _).trans (mul_le_mul_of_nonneg_left ?_ hL0)) _)
    have e2 : Y i - u = h • ∑ j, A i j • k j - (Z i - Y i) := by rw [h1.stage i]; abel
    rw [e2]
    exact (norm_sub_le _ _).trans (add_le_add
      (norm_comb_le (hα i) (norm_nonneg _) fun j => norm_le_pi_norm k j) (hZ i))
  have : Nonempty (Fin s) := ⟨i⟩
  have hK : ‖k‖ ≤ ‖f u‖ + L * (|h| * α * ‖k‖ + T) := (pi_norm_le_iff_of_nonempty k).2 hki
  refine (norm_le_pi_norm k i).trans ?_
  rw [le_div_iff₀ hpos]
  nlinarith

end Odes.Spec

namespace Odes.Symp

open Spec

/-- position of the node `1-c_i`: first `j` with `|c_i + c_j - 1| ≤ 10^-6`. -/
def GTab.sig (t : GTab) (i : ℕ) : ℕ :=
  ((List.range t.s).find? fun j =>
    ((t.ic i + t.ic j : ℕ) - (10 ^ t.da : ℕ) : ℤ).natAbs * 10 ^ 6 ≤ 10 ^ t.da).getD 0

/-- symmetry to `1/E`. -/
def okSym (t : GTab) (E : ℕ) : Bool :=
  allLt t.s fun i => t.sig i < t.s && t.sig (t.sig i) == i &&
    ((t.ib (t.sig i) : ℤ) - t.ib i).natAbs * E ≤ 10 ^ t.db &&
    allLt t.s fun j =>
      ((t.iA (t.sig i) (t.sig j) + t.iA i j) * 10 ^ t.db - t.ib j * 10 ^ t.da : ℤ).natAbs * E ≤
        10 ^ t.da * 10 ^ t.db

theorem gaussD_sym : gaussD.all (fun t => okSym t (10 ^ 12)) = true := by decide +kernel

theorem gaussL_sym : gaussL.all (fun t => okSym t (10 ^ 33)) = true := by decide +kernel

theorem sym_spec {t : GTab} {E : ℕ} (hE : 0 < E) (h : okSym t E = true) :
    ∃ σ : Fin t.s → Fin t.s, Function.Involutive σ ∧ (∀ i j, |symDefect σ t.A t.w i j| ≤ 1 / E) ∧
      ∀ j, |t.w (σ j) - t.w j| ≤ 1 / E := by
  have h1 : ∀ i : Fin t.s, t.sig i < t.s ∧ t.sig (t.sig i) = i ∧
      ((t.ib (t.sig i) : ℤ) - t.ib i).natAbs * E ≤ 10 ^ t.db ∧ ∀ j : Fin t.s,
      ((t.iA (t.sig i) (t.sig j) + t.iA i j) * 10 ^ t.db - t.ib j * 10 ^ t.da : ℤ).natAbs * E ≤
        10 ^ t.da * 10 ^ t.db := by
    intro i
    have := allLt_spec h i i.2
    simp only [Bool.and_eq_true, decide_eq_true_eq, beq_iff_eq] at this
    obtain ⟨⟨⟨a, b⟩, c⟩, d⟩ := this
    exact ⟨a, b, c, fun j => of_decide_eq_true (allLt_spec d j j.2)⟩
  refine ⟨fun i => ⟨t.sig i, (h1 i).1⟩, fun i => Fin.ext (h1 i).2.1, fun i j => ?_, fun j => ?_⟩
  · have h2 := le_of_nat hE (by positivity) ((h1 i).2.2.2 j)
    refine le_of_eq_of_le ?_ h2
    congr 1
    unfold symDefect GTab.A GTab.w
    push_cast
    field_simp
  · have h2 := le_of_nat hE (by positivity) ((h1 j).2.2.1)
    refine le_of_eq_of_le ?_ h2
    congr 1
    unfold GTab.w
    push_cast
    field_simp

end Odes.Symp
