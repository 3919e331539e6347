import Verif.Lemmas.SmoothTaylor
import Verif.Spec.SmoothOde
import Mathlib.Topology.MetricSpace.Contracting
import Mathlib.Analysis.Calculus.MeanValue

/-!
# Collocation methods on smooth problems: local error

Taylor polynomials of solutions, existence of the stages, and the local error of a collocation method.
-/

namespace Odes.Colloc

open Polynomial Odes.Spec Odes.Germ

noncomputable section

variable {n s N : ℕ} {P : Fin n → MvPolynomial (Fin n) ℝ} {t0 te : ℝ}

/-! ### Taylor polynomials -/

theorem hasDeriv_aeval {Y : ℝ → Fin n → ℝ} {Y' : Fin n → ℝ} {S : Set ℝ} {t : ℝ} (h : HasDerivWithinAt Y Y' S t)
    (g : MvPolynomial (Fin n) ℝ) :
    HasDerivWithinAt (fun t => MvPolynomial.aeval (Y t) g)
      (∑ j, MvPolynomial.aeval (Y t) (MvPolynomial.pderiv j g) * Y' j) S t := by
  induction g using MvPolynomial.induction_on with
  | C r =>
    have e1 : (fun t => MvPolynomial.aeval (Y t) (MvPolynomial.C r : MvPolynomial (Fin n) ℝ)) = fun _ => r := by
      funext t; simp
    rw [e1]
    simpa using hasDerivWithinAt_const t S r
  | add p q hp hq =>
    have := hp.add hq
    simp only [map_add, add_mul, Finset.sum_add_distrib]
    exact this
  | mul_X p i hp =>
    have hi : HasDerivWithinAt (fun t => Y t i) (Y' i) S t := hasDerivWithinAt_pi.1 h i
    have e : ∀ j, MvPolynomial.aeval (Y t) (MvPolynomial.pderiv j (p * MvPolynomial.X i)) * Y' j
        = MvPolynomial.aeval (Y t) (MvPolynomial.pderiv j p) * Y' j * Y t i
          + (if i = j then MvPolynomial.aeval (Y t) p * Y' j else 0) := by
      intro j
      rw [MvPolynomial.pderiv_mul, map_add, map_mul, map_mul, MvPolynomial.aeval_X]
      by_cases h : i = j
      · subst h
        rw [MvPolynomial.pderiv_X_self, map_one, if_pos rfl]
        ring
      · rw [MvPolynomial.pderiv_X_of_ne h, map_zero, if_neg h]
        ring
    rw [Finset.sum_congr rfl fun j _ => e j, Finset.sum_add_distrib, Finset.sum_ite_eq, if_pos (Finset.mem_univ _),
      ← Finset.sum_mul]
    have := hp.mul hi
    simp only [map_mul, MvPolynomial.aeval_X]
    exact this

theorem hasDeriv_taylor (v : Fin n → ℝ) (N : ℕ) (g : MvPolynomial (Fin n) ℝ) (h : ℝ) :
    HasDerivAt (fun h => taylor P h v (N + 1) g) (taylor P h v N (D P g)) h := by
  have e : (fun h => taylor P h v (N + 1) g) = fun h => ∑ m ∈ Finset.range N,
      (1 / ((m + 1).factorial : ℝ) * MvPolynomial.aeval v ((D P)^[m] (D P g))) * h ^ (m + 1)
        + MvPolynomial.aeval v g := by
    funext h
    rw [taylor, Finset.sum_range_succ']
    congr 1
    · refine Finset.sum_congr rfl fun m _ => ?_
      rw [Function.iterate_succ_apply, smul_eq_mul]
      ring
    · simp
  rw [e]
  refine HasDerivAt.add_const _ ?_
  unfold taylor
  refine HasDerivAt.fun_sum fun m _ => ?_
  have d := ((hasDerivAt_pow (m + 1) h).const_mul
    (1 / ((m + 1).factorial : ℝ) * MvPolynomial.aeval v ((D P)^[m] (D P g))))
  refine d.congr_deriv ?_
  rw [Nat.factorial_succ, smul_eq_mul]
  push_cast
  have : (m.factorial : ℝ) ≠ 0 := by positivity
  field_simp

/-- a step of a given bounded length inside the interval. -/
def Short (t0 te h0 : ℝ) : Type := {θ : Steps t0 te // θ.h ≤ h0}

/-- **the Taylor polynomial of order `m` differs from the solution by at most `C h^m`**, when the polynomials `Q` are as near
to the right hand side as needed. -/
theorem taylor_near {h0 : ℝ} {f : (Fin n → ℝ) → Fin n → ℝ} {y : ℝ → Fin n → ℝ} (hy : SolOn f y t0 te)
    {Q : Fin n → MvPolynomial (Fin n) (bdd (Short t0 te h0))} {M : ℝ}
    (hM : ∀ (θ : Short t0 te h0) (z : ℝ), 0 ≤ z → z ≤ θ.1.h → ‖y (θ.1.t + z) - y θ.1.t‖ ≤ M)
    (hQ : ∀ j, ∃ C : ℝ, 0 ≤ C ∧ ∀ (θ : Short t0 te h0) (z : ℝ), 0 ≤ z → z ≤ θ.1.h →
      |f (y (θ.1.t + z)) j - MvPolynomial.aeval (y (θ.1.t + z) - y θ.1.t) (at_ θ (Q j))| ≤ C * z ^ N)
    (m : ℕ) (hm : m ≤ N + 1) (g : MvPolynomial (Fin n) (bdd (Short t0 te h0))) :
    ∃ C : ℝ, 0 ≤ C ∧ ∀ (θ : Short t0 te h0) (z : ℝ), 0 ≤ z → z ≤ θ.1.h →
      |MvPolynomial.aeval (y (θ.1.t + z) - y θ.1.t) (at_ θ g) - taylor (fun j => at_ θ (Q j)) z 0 m (at_ θ g)|
        ≤ C * z ^ m := by
  induction m generalizing g with
  | zero =>
    obtain ⟨C, c0, hC⟩ := at_bound g M
    refine ⟨C, c0, fun θ z z0 z1 => ?_⟩
    simpa [taylor] using hC θ _ (hM θ z z0 z1)
  | succ m ih =>
    obtain ⟨C, c0, hC⟩ := ih (by omega) (D Q g)
    choose CQ cq0 hCQ using hQ
    have hB := fun j => at_bound (MvPolynomial.pderiv j g) M
    choose B b0 hB using hB
    have sum0 : 0 ≤ ∑ j, B j * CQ j := Finset.sum_nonneg fun j _ => mul_nonneg (b0 j) (cq0 j)
    refine ⟨C + ∑ j, B j * CQ j, by positivity, fun θ h h0' h1 => ?_⟩
    have hθ := θ.1.fits
    have hθ1 := θ.1.le
    have hθ2 := θ.1.ge
    obtain ⟨e, he⟩ : ∃ e : ℝ → ℝ, ∀ z, e z = ∑ j, MvPolynomial.aeval (y (θ.1.t + z) - y θ.1.t)
        (MvPolynomial.pderiv j (at_ θ g)) * (f (y (θ.1.t + z)) j
          - MvPolynomial.aeval (y (θ.1.t + z) - y θ.1.t) (at_ θ (Q j))) := ⟨_, fun _ => rfl⟩
    have hd : ∀ z ∈ Set.Icc (0 : ℝ) h, HasDerivWithinAt
        (fun z => MvPolynomial.aeval (y (θ.1.t + z) - y θ.1.t) (at_ θ g)
          - taylor (fun j => at_ θ (Q j)) z 0 (m + 1) (at_ θ g))
        (MvPolynomial.aeval (y (θ.1.t + z) - y θ.1.t) (at_ θ (D Q g)) + e z
          - taylor (fun j => at_ θ (Q j)) z 0 m (at_ θ (D Q g))) (Set.Icc 0 h) z := by
      intro z hz
      have hm : Set.MapsTo (fun z => θ.1.t + z) (Set.Icc (0 : ℝ) h) (Set.Icc t0 te) := fun w hw =>
        ⟨by linarith [hw.1], by linarith [hw.2]⟩
      have a0 := ((hy (θ.1.t + z) (hm hz)).scomp z
        ((hasDerivWithinAt_id z (Set.Icc (0 : ℝ) h)).const_add θ.1.t) hm).sub_const (y θ.1.t)
      rw [one_smul] at a0
      have a := hasDeriv_aeval a0 (at_ θ g)
      have e1 : (∑ j, MvPolynomial.aeval (y (θ.1.t + z) - y θ.1.t) (MvPolynomial.pderiv j (at_ θ g))
          * f (y (θ.1.t + z)) j) = MvPolynomial.aeval (y (θ.1.t + z) - y θ.1.t) (at_ θ (D Q g)) + e z := by
        rw [he, at_D, D, map_sum, ← Finset.sum_add_distrib]
        exact Finset.sum_congr rfl fun j _ => by rw [map_mul]; ring
      have a' := a.congr_deriv e1
      rw [at_D] at a' ⊢
      exact a'.sub (hasDeriv_taylor 0 m (at_ θ g) z).hasDerivWithinAt
    have hez : ∀ z, 0 ≤ z → z ≤ h → |e z| ≤ (∑ j, B j * CQ j) * h ^ m := by
      intro z z0 z1
      rw [he]
      refine (Finset.abs_sum_le_sum_abs _ _).trans ?_
      rw [Finset.sum_mul]
      refine Finset.sum_le_sum fun j _ => ?_
      rw [abs_mul, mul_assoc, ← at_pderiv]
      refine mul_le_mul (hB j θ _ (hM θ z z0 (z1.trans h1))) ((hCQ j θ z z0 (z1.trans h1)).trans ?_) (abs_nonneg _) (b0 j)
      refine mul_le_mul_of_nonneg_left ?_ (cq0 j)
      refine (pow_le_pow_of_le_one z0 (z1.trans (h1.trans hθ1)) (show m ≤ N by omega)).trans ?_
      exact pow_le_pow_left₀ z0 z1 m
    have hb : ∀ z ∈ Set.Ico (0 : ℝ) h, ‖MvPolynomial.aeval (y (θ.1.t + z) - y θ.1.t) (at_ θ (D Q g)) + e z
          - taylor (fun j => at_ θ (Q j)) z 0 m (at_ θ (D Q g))‖ ≤ (C + ∑ j, B j * CQ j) * h ^ m := by
      intro z hz
      rw [Real.norm_eq_abs, add_sub_right_comm, add_mul]
      refine (abs_add_le _ _).trans (add_le_add ?_ (hez z hz.1 hz.2.le))
      refine (hC θ z hz.1 (hz.2.le.trans h1)).trans ?_
      exact mul_le_mul_of_nonneg_left (pow_le_pow_left₀ hz.1 hz.2.le m) c0
    have := norm_image_sub_le_of_norm_deriv_le_segment' hd hb h ⟨h0', le_rfl⟩
    have z0 : MvPolynomial.aeval (y (θ.1.t + 0) - y θ.1.t) (at_ θ g)
        - taylor (fun j => at_ θ (Q j)) 0 0 (m + 1) (at_ θ g) = 0 := by
      rw [taylor, Finset.sum_eq_single 0]
      · simp
      · intro m _ hm; simp [hm]
      · simp
    rw [z0, sub_zero, sub_zero, Real.norm_eq_abs] at this
    rw [pow_succ, ← mul_assoc]
    exact this

/-! ### existence of the stages -/

/-- sum of the absolute values of the coefficients. -/
def size (a : Fin s → Fin s → ℝ) : ℝ := ∑ i, ∑ j, |a i j|

theorem size_nonneg (a : Fin s → Fin s → ℝ) : 0 ≤ size a :=
  Finset.sum_nonneg fun _ _ => Finset.sum_nonneg fun _ _ => abs_nonneg _

theorem comb_le (a : Fin s → Fin s → ℝ) (k : Fin s → Fin n → ℝ) (i : Fin s) :
    ‖∑ j, a i j • k j‖ ≤ size a * ‖k‖ := by
  refine (norm_sum_le _ _).trans ?_
  have h1 : ∑ j, |a i j| ≤ size a :=
    Finset.single_le_sum (f := fun i => ∑ j, |a i j|) (fun i _ => Finset.sum_nonneg fun _ _ => abs_nonneg _)
      (Finset.mem_univ i)
  refine le_trans ?_ (mul_le_mul_of_nonneg_right h1 (norm_nonneg k))
  rw [Finset.sum_mul]
  refine Finset.sum_le_sum fun j _ => ?_
  rw [norm_smul, Real.norm_eq_abs]
  exact mul_le_mul_of_nonneg_left (norm_le_pi_norm k j) (abs_nonneg _)

/-- stages exist for short steps. -/
theorem stages_exist {f : (Fin n → ℝ) → Fin n → ℝ} (a : Fin s → Fin s → ℝ) {v : Fin n → ℝ} {ρ M Λ h : ℝ} (hM0 : 0 ≤ M)
    (hM : ∀ x, ‖x - v‖ ≤ ρ → ‖f x‖ ≤ M) (hΛ0 : 0 ≤ Λ)
    (hΛ : ∀ x z, ‖x - v‖ ≤ ρ → ‖z - v‖ ≤ ρ → ‖f x - f z‖ ≤ Λ * ‖x - z‖) (h0 : 0 ≤ h) (hρ : h * (size a * M) ≤ ρ)
    (hq : 2 * (h * (size a * Λ)) ≤ 1) : ∃ k : Fin s → Fin n → ℝ,
      (∀ i, k i = f (v + h • ∑ j, a i j • k j)) ∧ ‖k‖ ≤ M ∧ ∀ i, ‖h • ∑ j, a i j • k j‖ ≤ h * (size a * M) := by
  have s0 := size_nonneg a
  obtain ⟨F, hF⟩ : ∃ F : (Fin s → Fin n → ℝ) → Fin s → Fin n → ℝ,
      F = fun k i => f (v + h • ∑ j, a i j • k j) := ⟨_, rfl⟩
  have inc : ∀ k : Fin s → Fin n → ℝ, ‖k‖ ≤ M → ∀ i, ‖h • ∑ j, a i j • k j‖ ≤ h * (size a * M) := by
    intro k hk i
    rw [norm_smul, Real.norm_eq_abs, abs_of_nonneg h0]
    exact mul_le_mul_of_nonneg_left ((comb_le a k i).trans (mul_le_mul_of_nonneg_left hk s0)) h0
  have arg : ∀ k : Fin s → Fin n → ℝ, ‖k‖ ≤ M → ∀ i, ‖v + h • ∑ j, a i j • k j - v‖ ≤ ρ := fun k hk i => by
    rw [add_sub_cancel_left]; exact (inc k hk i).trans hρ
  have maps : Set.MapsTo F (Metric.closedBall 0 M) (Metric.closedBall 0 M) := by
    intro k hk
    rw [mem_closedBall_zero_iff] at hk ⊢
    rw [pi_norm_le_iff_of_nonneg hM0]
    intro i
    rw [hF]
    exact hM _ (arg k hk i)
  have lip : ∀ k k' : Fin s → Fin n → ℝ, ‖k‖ ≤ M → ‖k'‖ ≤ M → dist (F k) (F k') ≤ (1 / 2 : NNReal) * dist k k' := by
    intro k k' hk hk'
    rw [dist_eq_norm, dist_eq_norm, pi_norm_le_iff_of_nonneg (by positivity)]
    intro i
    have e : F k i - F k' i = f (v + h • ∑ j, a i j • k j) - f (v + h • ∑ j, a i j • k' j) := by
      rw [hF]
    rw [Pi.sub_apply, e]
    refine (hΛ _ _ (arg k hk i) (arg k' hk' i)).trans ?_
    have e2 : v + h • ∑ j, a i j • k j - (v + h • ∑ j, a i j • k' j) = h • ∑ j, a i j • (k - k') j := by
      simp only [Pi.sub_apply, smul_sub, Finset.sum_sub_distrib]
      abel
    rw [e2, norm_smul, Real.norm_eq_abs, abs_of_nonneg h0]
    have c := mul_le_mul_of_nonneg_left (mul_le_mul_of_nonneg_left (comb_le a (k - k') i) h0) hΛ0
    refine c.trans ?_
    have n0 := norm_nonneg (k - k')
    have := mul_le_mul_of_nonneg_right hq n0
    push_cast
    nlinarith
  have hc : ContractingWith (1 / 2) (maps.restrict F _ _) := by
    refine ⟨by rw [← NNReal.coe_lt_coe]; norm_num, LipschitzWith.of_dist_le_mul ?_⟩
    rintro ⟨k, hk⟩ ⟨k', hk'⟩
    rw [mem_closedBall_zero_iff] at hk hk'
    exact lip k k' hk hk'
  obtain ⟨k, hk, hfix, -⟩ := hc.exists_fixedPoint' (Metric.isClosed_closedBall.isComplete) maps
    (x := 0) (Metric.mem_closedBall_self hM0) (edist_ne_top _ _)
  rw [mem_closedBall_zero_iff] at hk
  refine ⟨k, fun i => ?_, hk, inc k hk⟩
  have e := congrFun hfix.symm i
  rw [hF] at e
  exact e

/-! ### the local error -/

theorem poly_eval {A : Type} [CommRing A] [Algebra ℝ A] (ε : A) (y : Fin n → A) (L : Fin s → ℝ[X])
    (k : Fin s → Fin n → A) (j : Fin n) (x : ℝ) :
    (poly ε y L k j).eval (algebraMap ℝ A x) = y j + ε * ∑ i, k i j * algebraMap ℝ A ((L i).eval x) := by
  rw [poly, eval_add, eval_C, eval_mul, eval_C, eval_finsetSum]
  congr 2
  refine Finset.sum_congr rfl fun i _ => ?_
  rw [eval_mul, eval_C, eval_map, eval₂_at_apply]

/-- the points at distance at most `ρ` of the solution. -/
def tube (y : ℝ → Fin n → ℝ) (t0 te ρ : ℝ) : Set (Fin n → ℝ) := {x | ∃ t ∈ Set.Icc t0 te, ‖x - y t‖ ≤ ρ}

theorem tube_compact {f : (Fin n → ℝ) → Fin n → ℝ} {y : ℝ → Fin n → ℝ} (hy : SolOn f y t0 te) (ρ : ℝ) :
    IsCompact (tube y t0 te ρ) := by
  have hc : ContinuousOn y (Set.Icc t0 te) := fun t ht => (hy t ht).continuousWithinAt
  have := (isCompact_Icc.image_of_continuousOn hc).add (isCompact_closedBall (0 : Fin n → ℝ) ρ)
  convert this using 1
  ext x
  constructor
  · rintro ⟨t, ht, hx⟩
    exact Set.mem_add.2 ⟨y t, ⟨t, ht, rfl⟩, x - y t, by rwa [mem_closedBall_zero_iff], by abel⟩
  · intro hx
    obtain ⟨_, ⟨t, ht, rfl⟩, d, hd, rfl⟩ := Set.mem_add.1 hx
    rw [mem_closedBall_zero_iff] at hd
    exact ⟨t, ht, by rwa [add_sub_cancel_left]⟩

theorem tube_lip {f : (Fin n → ℝ) → Fin n → ℝ} {y : ℝ → Fin n → ℝ} (hy : SolOn f y t0 te) {ρ : ℝ}
    (hf : ∀ x ∈ tube y t0 te ρ, ContDiffAt ℝ 1 f x) : ∃ Λ : ℝ, 0 ≤ Λ ∧
    ∀ t ∈ Set.Icc t0 te, ∀ u v, ‖u - y t‖ ≤ ρ → ‖v - y t‖ ≤ ρ → ‖f u - f v‖ ≤ Λ * ‖u - v‖ := by
  obtain ⟨C, hC⟩ := (tube_compact hy ρ).exists_bound_of_continuousOn (f := fderiv ℝ f) fun x hx =>
    ((hf x hx).fderiv_right (m := 0) (by norm_num)).continuousAt.continuousWithinAt
  refine ⟨|C|, abs_nonneg C, fun t ht u v hu hv => ?_⟩
  have hin : ∀ x ∈ Metric.closedBall (y t) ρ, x ∈ tube y t0 te ρ := fun x hx =>
    ⟨t, ht, by rwa [mem_closedBall_iff_norm] at hx⟩
  exact (convex_closedBall (y t) ρ).norm_image_sub_le_of_norm_fderiv_le
    (fun x hx => (hf x (hin x hx)).differentiableAt (by norm_num))
    (fun x hx => (hC x (hin x hx)).trans (le_abs_self C)) (by rwa [mem_closedBall_iff_norm]) (by rwa [mem_closedBall_iff_norm])

theorem sol_slow {f : (Fin n → ℝ) → Fin n → ℝ} {y : ℝ → Fin n → ℝ} (hy : SolOn f y t0 te) {M : ℝ}
    (hM : ∀ t ∈ Set.Icc t0 te, ‖f (y t)‖ ≤ M) {t z : ℝ} (ht : t0 ≤ t) (hz : 0 ≤ z) (hz' : t + z ≤ te) :
    ‖y (t + z) - y t‖ ≤ M * z := by
  have := (convex_Icc t0 te).norm_image_sub_le_of_norm_hasDerivWithin_le (f := y) (f' := fun t => f (y t)) (C := M)
    (fun x hx => hy x hx) hM (x := t) (y := t + z) ⟨ht, by linarith⟩ ⟨by linarith, hz'⟩
  rwa [add_sub_cancel_left, Real.norm_eq_abs, abs_of_nonneg hz] at this

theorem bdd_dvd {h0 : ℝ} {ε r : bdd (Short t0 te h0)} (hε : ∀ θ, ε.1 θ = θ.1.h) {C : ℝ}
    (hr : ∀ θ, |r.1 θ| ≤ C * θ.1.h ^ N) : ε ^ N ∣ r := by
  refine ⟨⟨fun θ => r.1 θ / θ.1.h ^ N, |C|, fun θ => ?_⟩, Subtype.ext (funext fun θ => ?_)⟩
  · have hp := pow_nonneg θ.1.pos N
    rw [abs_div, abs_of_nonneg hp]
    exact div_le_of_le_mul₀ hp (abs_nonneg C) ((hr θ).trans (mul_le_mul_of_nonneg_right (le_abs_self C) hp))
  · show r.1 θ = (ε.1 θ) ^ N * (r.1 θ / θ.1.h ^ N)
    rw [hε]
    by_cases h : θ.1.h ^ N = 0
    · have := hr θ
      rw [h, mul_zero] at this
      rw [h, zero_mul]
      exact abs_eq_zero.1 (le_antisymm this (abs_nonneg _))
    · rw [mul_div_cancel₀ _ h]

/-- **local error of a collocation method** on a problem whose right hand side is `N` times continuously differentiable. -/
theorem colloc_local {c : Fin s → ℝ} {l L : Fin s → ℝ[X]} (H : Data c l L N) {f : (Fin n → ℝ) → Fin n → ℝ}
    {y : ℝ → Fin n → ℝ} (hy : SolOn f y t0 te) {ρ : ℝ} (hρ : 0 < ρ) (hf : ∀ x ∈ tube y t0 te ρ, ContDiffAt ℝ N f x)
    (hN : 1 ≤ N) {a : Fin s → Fin s → ℝ} {b : Fin s → ℝ} (ha : ∀ i j, a i j = (L j).eval (c i)) (hb : ∀ j, b j = (L j).eval 1) :
    ∃ h0 C : ℝ, 0 < h0 ∧ 0 ≤ C ∧ ∀ t h : ℝ, t0 ≤ t → 0 ≤ h → h ≤ h0 → t + h ≤ te → ∃ k : Fin s → Fin n → ℝ,
      (∀ i, k i = f (y t + h • ∑ j, a i j • k j)) ∧ (∀ i, ‖h • ∑ j, a i j • k j‖ ≤ ρ) ∧
      ‖y t + h • ∑ j, b j • k j - y (t + h)‖ ≤ C * h ^ (N + 1) := by
  have hK := tube_compact hy ρ
  have s0 := size_nonneg a
  have hmem : ∀ t ∈ Set.Icc t0 te, y t ∈ tube y t0 te ρ := fun t ht => ⟨t, ht, by rw [sub_self, norm_zero]; exact hρ.le⟩
  obtain ⟨M, m0, hM⟩ : ∃ M : ℝ, 0 ≤ M ∧ ∀ x ∈ tube y t0 te ρ, ‖f x‖ ≤ M := by
    obtain ⟨C, hC⟩ := hK.exists_bound_of_continuousOn (f := f) fun x hx => (hf x hx).continuousAt.continuousWithinAt
    exact ⟨|C|, abs_nonneg C, fun x hx => (hC x hx).trans (le_abs_self C)⟩
  obtain ⟨Λ, hΛ0, hΛ⟩ := tube_lip hy fun x hx => (hf x hx).of_le (by exact_mod_cast hN)
  have hsm : ∀ j, Sm (tube y t0 te ρ) N (fun x => f x j) := fun j x hx => contDiffAt_pi.1 (hf x hx) j
  obtain ⟨q, hq⟩ : ∃ q, q = 2 * size a * Λ + (size a * M + M) / ρ + 1 := ⟨_, rfl⟩
  have q0 : 1 ≤ q := by
    rw [hq]
    have : 0 ≤ (size a * M + M) / ρ := by positivity
    have : 0 ≤ 2 * size a * Λ := by positivity
    linarith
  obtain ⟨h0, hh0⟩ : ∃ h0, h0 = 1 / q := ⟨_, rfl⟩
  have h0p : 0 < h0 := by rw [hh0]; positivity
  have h01 : h0 ≤ 1 := by rw [hh0, div_le_one (by linarith)]; exact q0
  have hqh : ∀ h, 0 ≤ h → h ≤ h0 → h * q ≤ 1 := fun h _ hh => by
    rw [hh0, le_div_iff₀ (by linarith)] at hh; exact hh
  have hsmall : ∀ h, 0 ≤ h → h ≤ h0 → 2 * (h * (size a * Λ)) ≤ 1 ∧ h * (size a * M) ≤ ρ ∧ M * h ≤ ρ := by
    intro h h1 h2
    have := hqh h h1 h2
    rw [hq] at this
    have p1 : 0 ≤ h * (2 * size a * Λ) := by positivity
    have p2 : 0 ≤ h * ((size a * M + M) / ρ) := by positivity
    have p3 : h * ((size a * M + M) / ρ) ≤ 1 := by linarith
    have p4 : h * (size a * M + M) ≤ ρ := by
      have e : h * ((size a * M + M) / ρ) = h * (size a * M + M) / ρ := by ring
      rw [e, div_le_one hρ] at p3
      exact p3
    have p5 : 0 ≤ h * (size a * M) := by positivity
    have p6 : 0 ≤ h * M := by positivity
    exact ⟨by linarith, by linarith, by linarith⟩
  have hin : ∀ θ : Short t0 te h0, θ.1.t ∈ Set.Icc t0 te := fun θ => ⟨θ.1.ge, by linarith [θ.1.pos, θ.1.fits]⟩
  have hex : ∀ θ : Short t0 te h0, ∃ k : Fin s → Fin n → ℝ,
      (∀ i, k i = f (y θ.1.t + θ.1.h • ∑ j, a i j • k j)) ∧ ‖k‖ ≤ M ∧
        ∀ i, ‖θ.1.h • ∑ j, a i j • k j‖ ≤ θ.1.h * (size a * M) := fun θ =>
    stages_exist a m0 (fun x hx => hM x ⟨_, hin θ, hx⟩) hΛ0 (hΛ _ (hin θ)) θ.1.pos (hsmall _ θ.1.pos θ.2).2.1
      (hsmall _ θ.1.pos θ.2).1
  choose κ hκ using hex
  obtain ⟨ε, hε⟩ : ∃ ε : bdd (Short t0 te h0), ∀ θ, ε.1 θ = θ.1.h :=
    ⟨⟨fun θ => θ.1.h, 1, fun θ => by rw [abs_of_nonneg θ.1.pos]; exact θ.1.le⟩, fun _ => rfl⟩
  obtain ⟨k, hK'⟩ : ∃ k : Fin s → Fin n → bdd (Short t0 te h0), ∀ i j θ, (k i j).1 θ = κ θ i j :=
    ⟨fun i j => ⟨fun θ => κ θ i j, M, fun θ => ((norm_le_pi_norm (κ θ i) j).trans
      (norm_le_pi_norm (κ θ) i)).trans (hκ θ).2.1⟩, fun _ _ _ => rfl⟩
  obtain ⟨Q, hQ⟩ : ∃ Q : Fin n → MvPolynomial (Fin n) (bdd (Short t0 te h0)),
      ∀ j, Q j = tay (fun θ => y θ.1.t) N (fun x => f x j) := ⟨_, fun _ => rfl⟩
  have hnear : ∀ j, ∃ C : ℝ, 0 ≤ C ∧ ∀ (θ : Short t0 te h0) (d : Fin n → ℝ), ‖d‖ ≤ ρ →
      |f (y θ.1.t + d) j - MvPolynomial.aeval d (at_ θ (Q j))| ≤ C * ‖d‖ ^ N := by
    intro j
    obtain ⟨C, c0, hC⟩ := tay_near hK (x := fun θ : Short t0 te h0 => y θ.1.t) N _ (hsm j) fun θ => hmem _ (hin θ)
    refine ⟨C, c0, fun θ d hd => ?_⟩
    rw [hQ]
    refine hC θ d fun z hz => ⟨_, hin θ, ?_⟩
    rw [add_sub_cancel_left, norm_smul, Real.norm_eq_abs, abs_of_nonneg hz.1]
    nlinarith [hz.1, hz.2, norm_nonneg d]
  choose CQ cq0 hCQ using hnear
  have hev : ∀ θ x j, ev θ ((poly ε 0 L k j).eval (algebraMap ℝ _ x))
      = (θ.1.h • ∑ i, (L i).eval x • κ θ i) j := by
    intro θ x j
    rw [poly_eval, map_add, map_mul, map_sum, ev_apply, ev_apply, hε]
    simp only [map_mul, AlgHom.commutes, ev_apply, hK', Pi.smul_apply, Finset.sum_apply, smul_eq_mul,
      Algebra.algebraMap_self, RingHom.id_apply]
    have z : ((0 : Fin n → bdd (Short t0 te h0)) j).1 θ = 0 := rfl
    rw [z, zero_add]
    congr 1
    exact Finset.sum_congr rfl fun i _ => mul_comm _ _
  obtain ⟨r, hr⟩ : ∃ r : Fin s → Fin n → bdd (Short t0 te h0), ∀ i j, r i j = k i j
      - MvPolynomial.aeval (fun j => (poly ε 0 L k j).eval (algebraMap ℝ _ (c i))) (Q j) := ⟨_, fun _ _ => rfl⟩
  have hk : ∀ i j, k i j = MvPolynomial.aeval (fun j => (poly ε 0 L k j).eval (algebraMap ℝ _ (c i))) (Q j) + r i j :=
    fun i j => by rw [hr, add_sub_cancel]
  have hrd : ∀ i j, ε ^ N ∣ r i j := by
    intro i j
    refine bdd_dvd hε (C := CQ j * (size a * M) ^ N) fun θ => ?_
    have e1 : (r i j).1 θ = κ θ i j - MvPolynomial.aeval (θ.1.h • ∑ j, a i j • κ θ j) (at_ θ (Q j)) := by
      have e2 : (r i j).1 θ = ev θ (r i j) := rfl
      rw [e2, hr, map_sub, ev_aeval, ev_apply, hK']
      congr 3
      funext m
      rw [hev]
      simp only [ha]
    rw [e1, congrFun ((hκ θ).1 i) j, mul_assoc, ← mul_pow, mul_comm (size a * M)]
    have hi := (hκ θ).2.2 i
    refine (hCQ j θ _ (hi.trans (hsmall _ θ.1.pos θ.2).2.1)).trans ?_
    exact mul_le_mul_of_nonneg_left (pow_le_pow_left₀ (norm_nonneg _) hi N) (cq0 j)
  have key := fun j => superconvergence H hrd hk j
  choose w hw using key
  have hw' : ∀ j, ∃ B, 0 ≤ B ∧ ∀ θ, |(w j).1 θ| ≤ B := by
    intro j
    obtain ⟨B, hB⟩ := (w j).2
    exact ⟨|B|, abs_nonneg B, fun θ => (hB θ).trans (le_abs_self B)⟩
  choose B b0 hB using hw'
  have hsl : ∀ (θ : Short t0 te h0) (z : ℝ), 0 ≤ z → z ≤ θ.1.h → ‖y (θ.1.t + z) - y θ.1.t‖ ≤ M * z := fun θ z z0 z1 =>
    sol_slow hy (fun t ht => hM _ (hmem t ht)) θ.1.ge z0 (by linarith [θ.1.fits])
  have hsl' : ∀ (θ : Short t0 te h0) (z : ℝ), 0 ≤ z → z ≤ θ.1.h → ‖y (θ.1.t + z) - y θ.1.t‖ ≤ ρ := fun θ z z0 z1 =>
    (hsl θ z z0 z1).trans (hsmall z z0 (z1.trans θ.2)).2.2
  have ht := fun j => taylor_near hy (N := N) hsl' (fun j => ⟨CQ j * M ^ N, by have := cq0 j; positivity,
    fun θ z z0 z1 => by
      have e := hCQ j θ _ (hsl' θ z z0 z1)
      rw [add_sub_cancel] at e
      refine e.trans ?_
      rw [mul_assoc, ← mul_pow]
      exact mul_le_mul_of_nonneg_left (pow_le_pow_left₀ (norm_nonneg _) (hsl θ z z0 z1) N) (cq0 j)⟩)
    (N + 1) le_rfl (MvPolynomial.X j)
  choose C c0 hC using ht
  refine ⟨h0, ∑ j, (B j + C j), h0p, Finset.sum_nonneg fun j _ => add_nonneg (b0 j) (c0 j), ?_⟩
  intro t h q1 q2 q3 q4
  obtain ⟨θ, hθt, hθh⟩ : ∃ θ : Short t0 te h0, θ.1.t = t ∧ θ.1.h = h :=
    ⟨⟨⟨t, h, q1, q2, q3.trans h01, q4⟩, q3⟩, rfl, rfl⟩
  have hθ := hκ θ
  rw [hθt, hθh] at hθ
  refine ⟨κ θ, hθ.1, fun i => (hθ.2.2 i).trans (hsmall h q2 q3).2.1, ?_⟩
  have hs0 : 0 ≤ ∑ j, (B j + C j) := Finset.sum_nonneg fun j _ => add_nonneg (b0 j) (c0 j)
  rw [pi_norm_le_iff_of_nonneg (by positivity)]
  intro j
  have e1 := congrArg (ev θ) (hw j)
  rw [← map_one (algebraMap ℝ (bdd (Short t0 te h0))), map_sub, hev, map_mul, map_pow, hθh, ev_taylor] at e1
  have e4 : ev θ ε = h := by rw [ev_apply, hε, hθh]
  have e3 : (fun i => ev θ ((0 : Fin n → bdd (Short t0 te h0)) i)) = 0 := rfl
  rw [e3, e4, ev_apply] at e1
  have e5 := hC j θ h q2 hθh.ge
  rw [at_X, MvPolynomial.aeval_X, hθt, Pi.sub_apply] at e5
  rw [at_X] at e1
  have e6 : (y t + h • ∑ j, b j • κ θ j - y (t + h)) j
      = h ^ (N + 1) * (w j).1 θ - (y (t + h) j - y t j
        - taylor (fun j => at_ θ (Q j)) h 0 (N + 1) (MvPolynomial.X j)) := by
    rw [← e1]
    simp only [hb, Pi.sub_apply, Pi.add_apply]
    ring
  rw [e6, Real.norm_eq_abs]
  have p0 : 0 ≤ h ^ (N + 1) := by positivity
  refine (abs_sub _ _).trans ?_
  rw [abs_mul, abs_of_nonneg p0]
  have l1 := mul_le_mul_of_nonneg_left (hB j θ) p0
  have l2 : B j + C j ≤ ∑ j, (B j + C j) :=
    Finset.single_le_sum (f := fun j => B j + C j) (fun j _ => add_nonneg (b0 j) (c0 j)) (Finset.mem_univ j)
  have l3 := mul_le_mul_of_nonneg_right l2 p0
  linarith

/-! ### problems which depend on the time -/

theorem norm_cons {z : ℝ} {x : Fin n → ℝ} {ρ : ℝ} (w : Fin (n + 1) → ℝ) (h : ‖w - (Fin.cons z x : Fin (n + 1) → ℝ)‖ ≤ ρ) :
    |w 0 - z| ≤ ρ ∧ ‖Fin.tail w - x‖ ≤ ρ := by
  refine ⟨(norm_le_pi_norm _ 0).trans h, ?_⟩
  rw [pi_norm_le_iff_of_nonneg ((norm_nonneg _).trans h)]
  intro i
  exact (norm_le_pi_norm (w - (Fin.cons z x : Fin (n + 1) → ℝ)) i.succ).trans h

theorem tail_le (w : Fin (n + 1) → ℝ) : ‖Fin.tail w‖ ≤ ‖w‖ := by
  rw [pi_norm_le_iff_of_nonneg (norm_nonneg _)]
  exact fun i => norm_le_pi_norm w i.succ

/-- **local error of a collocation method** on `y' = F(t, y)`, `F` being `N` times continuously differentiable. -/
theorem colloc_local_t {c : Fin s → ℝ} {l L : Fin s → ℝ[X]} (H : Data c l L N) (hN : 1 ≤ N)
    {F : ℝ → (Fin n → ℝ) → Fin n → ℝ} {y : ℝ → Fin n → ℝ} (hy : SolT F y t0 te) {ρ : ℝ} (hρ : 0 < ρ)
    (hF : SmoothT F y t0 te ρ N) {a : Fin s → Fin s → ℝ} {b : Fin s → ℝ} (ha : ∀ i j, a i j = (L j).eval (c i))
    (hb : ∀ j, b j = (L j).eval 1) (hc : ∀ i, ∑ j, a i j = c i) :
    ∃ h0 C : ℝ, 0 < h0 ∧ 0 ≤ C ∧ ∀ t h : ℝ, t0 ≤ t → 0 ≤ h → h ≤ h0 → t + h ≤ te → ∃ k : Fin s → Fin n → ℝ,
      (∀ i, k i = F (t + c i * h) (y t + h • ∑ j, a i j • k j)) ∧ (∀ i, ‖h • ∑ j, a i j • k j‖ ≤ ρ) ∧
      ‖y t + h • ∑ j, b j • k j - y (t + h)‖ ≤ C * h ^ (N + 1) := by
  obtain ⟨f, hf⟩ : ∃ f : (Fin (n + 1) → ℝ) → Fin (n + 1) → ℝ, ∀ w, f w = Fin.cons 1 (F (w 0) (Fin.tail w)) :=
    ⟨_, fun _ => rfl⟩
  obtain ⟨Y, hY⟩ : ∃ Y : ℝ → Fin (n + 1) → ℝ, ∀ t, Y t = Fin.cons t (y t) := ⟨_, fun _ => rfl⟩
  have hsol : SolOn f Y t0 te := by
    intro t ht
    rw [hasDerivWithinAt_pi]
    intro i
    refine Fin.cases ?_ (fun i => ?_) i
    · have e : (fun t => Y t 0) = fun t => t := by funext t; rw [hY]; rfl
      rw [e, hf]
      exact hasDerivWithinAt_id t _
    · have e : (fun t => Y t i.succ) = fun t => y t i := by funext t; rw [hY]; rfl
      rw [e, hf, hY]
      exact hasDerivWithinAt_pi.1 (hy t ht) i
  have hsm : ∀ x ∈ tube Y t0 te ρ, ContDiffAt ℝ N f x := by
    rintro x ⟨t, ht, hx⟩
    rw [hY] at hx
    obtain ⟨x1, x2⟩ := norm_cons x hx
    have h1 := hF t ht _ _ x1 x2
    have h2 : ContDiffAt ℝ N (fun w : Fin (n + 1) → ℝ => (w 0, Fin.tail w)) x := by
      refine ContDiffAt.prodMk (contDiffAt_pi.1 contDiffAt_id 0) (contDiffAt_pi.2 fun i => ?_)
      exact contDiffAt_pi.1 contDiffAt_id i.succ
    have h3 : ContDiffAt ℝ N (fun w : Fin (n + 1) → ℝ => F (w 0) (Fin.tail w)) x :=
      ContDiffAt.comp (g := fun q : ℝ × (Fin n → ℝ) => F q.1 q.2) x h1 h2
    rw [contDiffAt_pi]
    intro i
    refine Fin.cases ?_ (fun i => ?_) i
    · have e : (fun w => f w 0) = fun _ => 1 := by funext w; rw [hf]; rfl
      rw [e]
      exact contDiffAt_const
    · have e : (fun w => f w i.succ) = fun w => F (w 0) (Fin.tail w) i := by funext w; rw [hf]; rfl
      rw [e]
      exact contDiffAt_pi.1 h3 i
  obtain ⟨h0, C, h0p, c0, hloc⟩ := colloc_local H hsol hρ hsm hN ha hb
  refine ⟨h0, C, h0p, c0, fun t h q1 q2 q3 q4 => ?_⟩
  obtain ⟨k, e1, e2, e3⟩ := hloc t h q1 q2 q3 q4
  have hk0 : ∀ i, k i 0 = 1 := fun i => by rw [e1, hf]; rfl
  have htail : ∀ a : Fin s → ℝ, Fin.tail (h • ∑ j, a j • k j) = h • ∑ j, a j • Fin.tail (k j) := by
    intro a
    funext m
    simp only [Fin.tail, Pi.smul_apply, Finset.sum_apply, smul_eq_mul]
  refine ⟨fun i => Fin.tail (k i), fun i => ?_, fun i => ?_, ?_⟩
  · have g1 : (Y t + h • ∑ j, a i j • k j) 0 = t + c i * h := by
      simp only [hY, Pi.add_apply, Fin.cons_zero, Pi.smul_apply, Finset.sum_apply, smul_eq_mul, hk0, mul_one, hc]
      ring
    have g2 : Fin.tail (Y t + h • ∑ j, a i j • k j) = y t + h • ∑ j, a i j • Fin.tail (k j) := by
      rw [← htail, hY]
      rfl
    have g3 : Fin.tail (k i) = F ((Y t + h • ∑ j, a i j • k j) 0) (Fin.tail (Y t + h • ∑ j, a i j • k j)) := by
      conv_lhs => rw [e1 i, hf, Fin.tail_cons]
    rw [g1, g2] at g3
    exact g3
  · rw [← htail]
    exact (tail_le _).trans (e2 i)
  · refine le_trans ?_ e3
    rw [← htail]
    refine le_trans (le_of_eq ?_) (tail_le _)
    rw [hY, hY]
    rfl

end

end Odes.Colloc
