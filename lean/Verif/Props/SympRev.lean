import Verif.Props.SympMap
import Verif.Lemmas.SympRev

/-!
# Symplectic methods: symmetry (C87)
-/

namespace Odes.Symp

open Odes.Mem Spec

variable {n : ℕ}

/-- sup norm of the residual of a stage from the value of the test. -/
theorem resid_norm {s : ℕ} {r : Fin s → Fin n → ℝ} {v T : ℝ} (h : ∑ i, ∑ l, r i l ^ 2 = v)
    (hv : v ≤ T ^ 2) (hT : 0 ≤ T) (i : Fin s) : ‖r i‖ ≤ T := by
  rw [pi_norm_le_iff_of_nonneg hT]
  intro l
  rw [Real.norm_eq_abs]
  refine abs_le_of_sq_le_sq ?_ hT
  refine le_trans ?_ hv
  rw [← h]
  refine le_trans ?_ (Finset.single_le_sum (f := fun i => ∑ l, r i l ^ 2)
    (fun i _ => Finset.sum_nonneg fun l _ => sq_nonneg (r i l)) (Finset.mem_univ i))
  exact Finset.single_le_sum (f := fun l => r i l ^ 2) (fun l _ => sq_nonneg (r i l)) (Finset.mem_univ l)

/-- C87: a successful step `h` followed by a successful step `-h` (the same object or another one, any
history) comes back to the initial value, up to the threshold `T` of the iterations and the defects
`δ, η` of the symmetry of the tables.  `f` is Lipschitz with constant `L`, `|h| α L < 1`. -/
theorem symp_reversible {c : Cfg ℝ n} (hT : Tab c) (hS : Scal c) (hnar : ∀ x, c.narrow x = x)
    {σ : Fin c.s → Fin c.s} (hσ : Function.Bijective σ) {α β δ η L T h : ℝ}
    (hα : ∀ i, ∑ j, |tabA c i j| ≤ α) (hβ : ∑ i, |tabB c i| ≤ β)
    (hδ : ∀ i j, |symDefect σ (tabA c) (tabB c) i j| ≤ δ)
    (hη : ∀ j, |tabB c (σ j) - tabB c j| ≤ η)
    (hL0 : 0 ≤ L) (hL : ∀ x y, ‖c.f x - c.f y‖ ≤ L * ‖x - y‖)
    (hT0 : 0 ≤ T) (hsmall : ∀ v, c.small v → v ≤ T ^ 2) (hθ : |h| * α * L < 1)
    {st1 st1' st2 st2' : St ℝ n} (hist1 : Hist c st1) (hist2 : Hist c st2)
    {u u' u'' : Fin n → ℝ} {first1 first2 : Bool}
    (hs1 : step c h u first1 st1 = some (true, u', st1'))
    (hs2 : step c (-h) u' first2 st2 = some (true, u'', st2')) :
    let F := (‖c.f u‖ + L * T) / (1 - |h| * α * L)
    ‖u'' - u‖ ≤ |h| * β * L * ((2 * T + |h| * c.s * (δ + η) * F) / (1 - |h| * α * L)) +
      |h| * c.s * η * F := by
  intro F
  obtain ⟨Y, Z, hr, h1, h2⟩ := symp_sweep hT hS hnar hist1 hs1
  obtain ⟨W, V, hr', h1', h2'⟩ := symp_sweep hT hS hnar hist2 hs2
  have hs0 : 0 < c.s := by have := hT.two; omega
  have hF : ∀ i, ‖c.f (Y i)‖ ≤ F := fun i => slopes_le hα hL0 hL hθ hr
    (fun i => resid_norm h1 (hsmall _ h2) hT0 i) i
  exact there_and_back hσ hα hβ hδ hη ((abs_nonneg _).trans (hδ ⟨0, hs0⟩ ⟨0, hs0⟩))
    ((abs_nonneg _).trans (hη ⟨0, hs0⟩)) hL0 hL ((norm_nonneg _).trans (hF ⟨0, hs0⟩)) hT0 hθ hr hr'
    hF (fun i => resid_norm h1 (hsmall _ h2) hT0 i)
    (fun i => resid_norm h1' (hsmall _ h2') hT0 i)

/-- C87: symmetric tableau and iterations which end with a zero residual: a step back undoes a step
exactly (here the derivative of `f` is only needed through a Lipschitz constant). -/
theorem symp_reversible_exact {c : Cfg ℝ n} (hT : Tab c) (hS : Scal c) (hnar : ∀ x, c.narrow x = x)
    {σ : Fin c.s → Fin c.s} (hσ : Function.Bijective σ) {α L h : ℝ}
    (hα : ∀ i, ∑ j, |tabA c i j| ≤ α)
    (hδ : ∀ i j, symDefect σ (tabA c) (tabB c) i j = 0) (hη : ∀ j, tabB c (σ j) = tabB c j)
    (hL0 : 0 ≤ L) (hL : ∀ x y, ‖c.f x - c.f y‖ ≤ L * ‖x - y‖) (hθ : |h| * α * L < 1)
    {st1 st1' st2 st2' : St ℝ n} (hist1 : Hist c st1) (hist2 : Hist c st2)
    {u u' u'' : Fin n → ℝ} {first1 first2 : Bool}
    (hs1 : step c h u first1 st1 = some (true, u', st1')) (hz1 : st1'.tv = 0)
    (hs2 : step c (-h) u' first2 st2 = some (true, u'', st2')) (hz2 : st2'.tv = 0) : u'' = u := by
  obtain ⟨Y, Z, hr, h1, h2⟩ := symp_sweep hT hS hnar hist1 hs1
  obtain ⟨W, V, hr', h1', h2'⟩ := symp_sweep hT hS hnar hist2 hs2
  have := there_and_back hσ hα (le_refl (∑ i, |tabB c i|)) (δ := 0) (η := 0) (T := 0)
    (F := ∑ i, ‖c.f (Y i)‖)
    (fun i j => by rw [hδ, abs_zero]) (fun j => by rw [hη, sub_self, abs_zero]) le_rfl le_rfl hL0 hL
    (Finset.sum_nonneg fun i _ => norm_nonneg _) le_rfl hθ hr hr'
    (fun i => Finset.single_le_sum (f := fun i => ‖c.f (Y i)‖) (fun i _ => norm_nonneg _)
      (Finset.mem_univ i))
    (fun i => resid_norm h1 (by rw [hz1]; norm_num) le_rfl i)
    (fun i => resid_norm h1' (by rw [hz2]; norm_num) le_rfl i)
  simp only [mul_zero, add_zero, zero_mul, zero_div] at this
  exact sub_eq_zero.1 (norm_le_zero_iff.1 this)

/-- C87: the shipped tables are symmetric to the printed precision, all numbers of stages.  The
permutation is not the reversal of the order: the rows of 5, 9, 12, 15 and 16 stages are not sorted. -/
theorem symp_table_symmetric :
    (∀ t ∈ gaussD, ∃ σ : Fin t.s → Fin t.s, Function.Involutive σ ∧
      (∀ i j, |symDefect σ t.A t.w i j| ≤ 1 / 10 ^ 12) ∧ ∀ j, |t.w (σ j) - t.w j| ≤ 1 / 10 ^ 12) ∧
    (∀ t ∈ gaussL, ∃ σ : Fin t.s → Fin t.s, Function.Involutive σ ∧
      (∀ i j, |symDefect σ t.A t.w i j| ≤ 1 / 10 ^ 33) ∧ ∀ j, |t.w (σ j) - t.w j| ≤ 1 / 10 ^ 33) := by
  constructor
  · intro t ht
    have := sym_spec (by norm_num) (List.all_eq_true.1 gaussD_sym t ht)
    exact_mod_cast this
  · intro t ht
    have := sym_spec (by norm_num) (List.all_eq_true.1 gaussL_sym t ht)
    exact_mod_cast this

/-- C87 for the shipped tables of `double`: there and back, `|h| L < 1`. -/
theorem symp_gauss_reversible {t : GTab} (ht : t ∈ gaussD) (itermax : ℤ)
    {f : (Fin n → ℝ) → Fin n → ℝ} {L h : ℝ} (hL0 : 0 ≤ L)
    (hL : ∀ x y, ‖f x - f y‖ ≤ L * ‖x - y‖) (hθ : |h| * L < 1)
    {st1 st1' st2 st2' : St ℝ n} (hist1 : Hist (cfgR t itermax f) st1)
    (hist2 : Hist (cfgR t itermax f) st2) {u u' u'' : Fin n → ℝ} {first1 first2 : Bool}
    (hs1 : step (cfgR t itermax f) h u first1 st1 = some (true, u', st1'))
    (hs2 : step (cfgR t itermax f) (-h) u' first2 st2 = some (true, u'', st2')) :
    let F := (‖f u‖ + L / 10 ^ 153) / (1 - |h| * L)
    ‖u'' - u‖ ≤ 2 * (|h| * L) * ((2 / 10 ^ 153 + |h| * t.s * (2 / 10 ^ 12) * F) / (1 - |h| * L)) +
      |h| * t.s * (1 / 10 ^ 12) * F := by
  intro F
  have htt : t ∈ gaussD ++ gaussL := List.mem_append_left _ ht
  have hA := tabA_cfgR htt itermax f
  have hb := tabB_cfgR (t := t) itermax f
  obtain ⟨σ, h1, h2, h3⟩ := symp_table_symmetric.1 t ht
  have hsm : ∀ v, (cfgR t itermax f).small v → v ≤ (1 / 10 ^ 153) ^ 2 := by
    intro v hv
    refine le_trans hv ?_
    have key : ∀ x : ℝ, 0 < x → 5 * x ≤ 1 * (x * 10 ^ 2) := fun x hx => by nlinarith
    rw [div_pow, ← pow_mul, one_pow, div_le_div_iff₀ (by positivity) (by positivity),
      show (308 : ℕ) = 153 * 2 + 2 from rfl, pow_add _ (153 * 2) 2]
    exact key _ (by positivity)
  have := symp_reversible (cfgR_tab htt _ _) (cfgR_scal _ _ _) (fun _ => rfl) h1.bijective (α := 1)
    (β := 2) (δ := 1 / 10 ^ 12) (η := 1 / 10 ^ 12) (T := 1 / 10 ^ 153)
    (by rw [hA]; exact symp_table_sums.1 t htt)
    (by rw [hb]; exact (symp_table_sums.2 t htt).trans (by norm_num))
    (by rw [hA, hb]; exact h2) (by rw [hb]; exact h3) hL0 hL (by positivity) hsm
    (by rwa [mul_one]) hist1 hist2 hs1 hs2
  refine this.trans_eq ?_
  rw [show ((cfgR t itermax f).s : ℝ) = t.s from rfl, mul_one,
    show (‖(cfgR t itermax f).f u‖ + L * (1 / 10 ^ 153)) / (1 - |h| * L) = F by
      simp only [F]; rw [mul_one_div]; rfl]
  ring

/-- the hypotheses are met: forward and back on the free particle with two objects. -/
example (junk : St ℝ 2) {h : ℝ} (hh : |h| < 1) (u : Fin 2 → ℝ) : ∃ st1 u' st1' u'' st2',
    Hist (cfgR gaussD2 10 free) st1 ∧ (∀ x y, ‖free x - free y‖ ≤ 1 * ‖x - y‖) ∧ |h| * 1 < 1 ∧
    step (cfgR gaussD2 10 free) h u true st1 = some (true, u', st1') ∧
    step (cfgR gaussD2 10 free) (-h) u' true st1 = some (true, u'', st2') := by
  obtain ⟨st, h1, u', st', h2⟩ := free_step junk h u
  obtain ⟨st2, h3, u'', st2', h4⟩ := free_step junk (-h) u'
  rw [h1] at h3
  injection h3 with h3
  injection h3 with h3
  subst h3
  refine ⟨st, u', st', u'', st2', Hist.new h1, fun x y => ?_, by rwa [mul_one], h2, h4⟩
  rw [← freeD_eq, ← map_sub]
  exact (freeD.le_opNorm _).trans (mul_le_mul_of_nonneg_right freeD_norm (norm_nonneg _))

end Odes.Symp
