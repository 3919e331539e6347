import Verif.Props.Rock4Smooth
import Verif.Props.SympKepler

/-!
# C125: the problem shipped with Rock4, existence and range of the solutions
-/

namespace Odes

open Rock4 (Sel)
open Spec Stiff Spec.Heat

noncomputable section

variable {n : ℕ} {t0 te : ℝ}

/-- a field with a Lipschitz constant has solutions on every interval. -/
theorem lip_exists {f : (Fin n → ℝ) → Fin n → ℝ} {K : ℝ} (hK : 0 ≤ K) (hf : ∀ u v, ‖f u - f v‖ ≤ K * ‖u - v‖) (w : Fin n → ℝ)
    (t0 te : ℝ) : ∃ y : ℝ → Fin n → ℝ, y t0 = w ∧ SolOn f y t0 te := by
  obtain ⟨ε, eε⟩ : ∃ ε : ℝ, ε = 1 / (1 + K) := ⟨_, rfl⟩
  have hε : 0 < ε := by rw [eε]; positivity
  have key : ∀ k : ℕ, ∃ y : ℝ → Fin n → ℝ, y t0 = w ∧ SolOn f y t0 (t0 + k * ε) := by
    intro k
    induction k with
    | zero =>
      refine ⟨fun t => w + (t - t0) • f w, by simp, fun t ht => ?_⟩
      have e : t = t0 := by
        have h1 := ht.1
        have h2 := ht.2
        simp only [Nat.cast_zero, zero_mul, add_zero] at h2
        exact le_antisymm h2 h1
      subst e
      have h1 : HasDerivAt (fun s : ℝ => w + (s - t) • f w) ((1 : ℝ) • f w) t :=
        (((hasDerivAt_id t).sub_const t).smul_const (f w)).const_add w
      rw [one_smul] at h1
      simpa using h1.hasDerivWithinAt
    | succ k ih =>
      obtain ⟨y, y0, hy⟩ := ih
      obtain ⟨b, eb⟩ : ∃ b : ℝ, b = t0 + k * ε := ⟨_, rfl⟩
      rw [← eb] at hy
      have hb : t0 ≤ b := by rw [eb]; have : 0 ≤ (k : ℝ) * ε := by positivity
                             linarith
      obtain ⟨a, ea⟩ : ∃ a : ℝ, a = ‖f (y b)‖ + 1 := ⟨_, rfl⟩
      have ha : 0 < a := by rw [ea]; positivity
      have hpl : IsPicardLindelof (fun _ => f) (tmin := b) (tmax := b + ε) ⟨b, le_rfl, by linarith⟩ (y b)
          ⟨a, ha.le⟩ 0 ⟨a + K * a, by positivity⟩ ⟨K, hK⟩ := by
        refine IsPicardLindelof.of_time_independent (fun x hx => ?_) (LipschitzOnWith.of_dist_le_mul fun x _ z _ => ?_) ?_
        · rw [mem_closedBall_iff_norm] at hx
          show ‖f x‖ ≤ a + K * a
          have e : f x = f (y b) + (f x - f (y b)) := by abel
          rw [e]
          refine (norm_add_le _ _).trans (add_le_add ?_ ((hf _ _).trans (mul_le_mul_of_nonneg_left hx hK)))
          rw [ea]; linarith
        · rw [dist_eq_norm, dist_eq_norm]
          exact hf x z
        · show (a + K * a) * max (b + ε - b) (b - b) ≤ a - 0
          rw [add_sub_cancel_left, sub_self, max_eq_left hε.le, sub_zero, eε]
          exact le_of_eq (by field_simp)
      obtain ⟨z, z0, hz⟩ := hpl.exists_eq_forall_mem_Icc_hasDerivWithinAt₀
      have hg := Symp.Test.sol_glue hb (by linarith : b ≤ b + ε) hy (fun t ht => hz t ht) z0
      refine ⟨_, ?_, (by rw [show t0 + ((k + 1 : ℕ) : ℝ) * ε = b + ε by rw [eb]; push_cast; ring]; exact hg)⟩
      simp only [if_pos hb, y0]
  obtain ⟨k, hk⟩ := exists_nat_ge ((te - t0) / ε)
  obtain ⟨y, y0, hy⟩ := key k
  rw [div_le_iff₀ hε] at hk
  have hsub : Set.Icc t0 te ⊆ Set.Icc t0 (t0 + k * ε) := Set.Icc_subset_Icc le_rfl (by linarith)
  exact ⟨y, y0, fun t ht => (hy t (hsub ht)).mono hsub⟩

/-- functions which decrease at most exponentially while all are positive remain positive. -/
theorem stays_pos {w w' : ℝ → Fin n → ℝ} {c : ℝ} (hd : ∀ t ∈ Set.Icc t0 te, HasDerivWithinAt w (w' t) (Set.Icc t0 te) t)
    (hw : ∀ t ∈ Set.Icc t0 te, (∀ j, 0 ≤ w t j) → ∀ i, -c * w t i ≤ w' t i) (h0 : ∀ i, 0 < w t0 i) :
    ∀ t ∈ Set.Icc t0 te, ∀ i, 0 < w t i := by
  by_contra hcon
  push Not at hcon
  obtain ⟨t1, ht1, i1, hi1⟩ := hcon
  have hc : ∀ i, ContinuousOn (fun t => w t i) (Set.Icc t0 te) := fun i t ht =>
    (continuous_apply i).continuousAt.comp_continuousWithinAt (hd t ht).continuousWithinAt
  obtain ⟨A, hA⟩ : ∃ A : Set ℝ, A = ⋃ i, (Set.Icc t0 te ∩ (fun t => w t i) ⁻¹' Set.Iic 0) := ⟨_, rfl⟩
  have hcl : IsClosed A := by
    rw [hA]
    exact isClosed_iUnion_of_finite fun i => (hc i).preimage_isClosed_of_isClosed isClosed_Icc isClosed_Iic
  have hsub : A ⊆ Set.Icc t0 te := by
    rw [hA]
    exact Set.iUnion_subset fun i => Set.inter_subset_left
  have hcomp : IsCompact A := isCompact_Icc.of_isClosed_subset hcl hsub
  obtain ⟨s, hs, hmin⟩ := hcomp.exists_isLeast ⟨t1, by rw [hA]; exact Set.mem_iUnion.2 ⟨i1, ht1, hi1⟩⟩
  have hsI := hsub hs
  rw [hA] at hs
  obtain ⟨i, -, hi⟩ := Set.mem_iUnion.1 hs
  have hi' : w s i ≤ 0 := hi
  have hlt : t0 < s := by
    refine lt_of_le_of_ne hsI.1 fun e => ?_
    rw [← e] at hi'
    linarith [h0 i]
  have hbefore : ∀ t, t0 ≤ t → t < s → ∀ j, 0 < w t j := by
    intro t h1 h2 j
    by_contra h3
    have : t ∈ A := by rw [hA]; exact Set.mem_iUnion.2 ⟨j, ⟨h1, h2.le.trans hsI.2⟩, not_lt.1 h3⟩
    linarith [hmin this]
  have hsubs : Set.Icc t0 s ⊆ Set.Icc t0 te := Set.Icc_subset_Icc le_rfl hsI.2
  have hder : ∀ t ∈ Set.Icc t0 s, HasDerivWithinAt (fun t => Real.exp (c * t) * w t i)
      (Real.exp (c * t) * c * w t i + Real.exp (c * t) * w' t i) (Set.Icc t0 s) t := by
    intro t ht
    have h1 : HasDerivAt (fun t : ℝ => Real.exp (c * t)) (Real.exp (c * t) * c) t := by
      have := ((hasDerivAt_id t).const_mul c).exp
      simpa using this
    have h2 := (hasDerivWithinAt_pi.1 ((hd t (hsubs ht)).mono hsubs)) i
    exact h1.hasDerivWithinAt.mul h2
  have hmono := (convex_Icc t0 s).image_sub_le_mul_sub_of_deriv_le (f := fun t => -(Real.exp (c * t) * w t i)) (C := 0)
    (fun t ht => (hder t ht).continuousWithinAt.neg) (fun t ht => by
      rw [interior_Icc] at ht
      exact ((hder t ⟨ht.1.le, ht.2.le⟩).hasDerivAt (Icc_mem_nhds ht.1 ht.2)).neg.differentiableAt.differentiableWithinAt)
    (fun t ht => by
      rw [interior_Icc] at ht
      have h3 : deriv (fun t => -(Real.exp (c * t) * w t i)) t = _ :=
        ((hder t ⟨ht.1.le, ht.2.le⟩).hasDerivAt (Icc_mem_nhds ht.1 ht.2)).neg.deriv
      rw [h3]
      have h1 := hw t (hsubs ⟨ht.1.le, ht.2.le⟩) (fun j => (hbefore t ht.1.le ht.2 j).le) i
      have h2 := mul_le_mul_of_nonneg_left h1 (Real.exp_pos (c * t)).le
      linarith) t0 ⟨le_rfl, hlt.le⟩ s ⟨hlt.le, le_rfl⟩ hlt.le
  have p1 := mul_pos (Real.exp_pos (c * t0)) (h0 i)
  have p2 := mul_nonneg (Real.exp_pos (c * s)).le (neg_nonneg.2 hi')
  linarith

theorem fisher_lipschitz (hn : 2 ≤ n) (u v : Fin n → ℝ) : ‖fisherField n u - fisherField n v‖ ≤ fisherRho n * ‖u - v‖ :=
  fisher_lip (t0 := 0) (te := 0) hn (fun _ => v) ‖u - v‖ 0 ⟨le_rfl, le_rfl⟩ u le_rfl

theorem fisherRho_nonneg (hn : 2 ≤ n) : 0 ≤ fisherRho n := by
  have := uh2_pos (n := n) (by exact_mod_cast hn)
  unfold fisherRho
  linarith

/-- the range of the solutions of the shipped problem. -/
theorem fisher_range (hn : 2 ≤ n) {y : ℝ → Fin n → ℝ} (hy : SolOn (fisherField n) y t0 te)
    (h0 : ∀ i, 0 < y t0 i ∧ y t0 i < 1) : ∀ t ∈ Set.Icc t0 te, ∀ i, 0 < y t i ∧ y t i < 1 := by
  have hD := uh2_pos (n := n) (by exact_mod_cast hn)
  have hm := fun i : Fin n => cellMirror_mem (n := n) (i := i) (by omega) (by omega)
  have ex : ∀ (v : Fin n → ℝ) (k : ℤ) (a : 0 ≤ k) (b : k < n), ext v k = v ⟨k.toNat, by omega⟩ := fun v k a b => dif_pos ⟨a, b⟩
  have low := stays_pos (c := 2 * fisherUh2 n) hy (fun t ht hp i => by
    rw [fisherField_eq hn, ex _ _ (hm i).1.1 (hm i).1.2, ex _ _ (hm i).2.1 (hm i).2.2]
    have f0 : 0 ≤ fisherF (y t i) := le_min (by norm_num) (le_max_left _ _)
    have q1 := mul_nonneg hD.le (hp ⟨(cellMirror n (i - 1)).toNat, by have := hm i; omega⟩)
    have q2 := mul_nonneg hD.le (hp ⟨(cellMirror n (i + 1)).toNat, by have := hm i; omega⟩)
    linarith) fun i => (h0 i).1
  have high := stays_pos (w := fun t i => 1 - y t i) (w' := fun t i => -fisherField n (y t) i) (c := 2 * fisherUh2 n + 1 / 2)
    (fun t ht => hasDerivWithinAt_pi.2 fun i => ((hasDerivWithinAt_pi.1 (hy t ht)) i).const_sub 1) (fun t ht hp i => by
      rw [fisherField_eq hn, ex _ _ (hm i).1.1 (hm i).1.2, ex _ _ (hm i).2.1 (hm i).2.2]
      have hi := hp i
      have f0 : fisherF (y t i) ≤ 1 / 2 * (1 - y t i) := by
        rw [fisherF_eq]
        split_ifs with h
        · nlinarith [h.1, h.2]
        · linarith
      have q1 := mul_nonneg hD.le (hp ⟨(cellMirror n (i - 1)).toNat, by have := hm i; omega⟩)
      have q2 := mul_nonneg hD.le (hp ⟨(cellMirror n (i + 1)).toNat, by have := hm i; omega⟩)
      linarith) (fun i => by linarith [(h0 i).2])
  exact fun t ht i => ⟨low t ht i, by linarith [high t ht i]⟩

/-- C125: **the problem shipped with Rock4, from every state strictly between 0 and 1**: the solution exists on every
interval, remains strictly between 0 and 1, and Rock4 computes it with order four. -/
theorem rock4_fisher (hn : 2 ≤ n) (hle : t0 ≤ te) {w : Fin n → ℝ} (hw : ∀ i, 0 < w i ∧ w i < 1) :
    ∃ y : ℝ → Fin n → ℝ, y t0 = w ∧ SolOn (fisherField n) y t0 te ∧ (∀ t ∈ Set.Icc t0 te, ∀ i, 0 < y t i ∧ y t i < 1) ∧
    ∃ ρ C D : ℝ, 0 < ρ ∧ 0 ≤ C ∧ 0 ≤ D ∧ ElemFLe (fisherField n) y t0 te D ∧ ∀ (Pr : Rock4.Problem n)
      (_ : ∀ v, Pr.F (Rock4L.up v) = Rock4L.up (fisherField n v))
      (o : Rock4.St n) (p : ℕ) (h0 : X) (_ : Rock4.Valid o p) (_ : o.heap p = Rock4L.up w)
      (s : Rock4.St n)
      (_ : Returns (Rock4.step Pr Rock4.shipped (X.fin te)) (Rock4.start Pr o p (X.fin t0) h0) s),
      ∃ (l : List ℝ) (v : Fin n → ℝ), (l.length : ℤ) = s.nacc ∧ (∀ h ∈ l, 0 < h) ∧ l.sum = te - t0 ∧
        s.heap s.y = Rock4L.up v ∧
        ∀ H E, C * H ≤ 1 → (∀ h ∈ l, h ≤ H) →
          E = Real.exp (((1 + 1e-14) * fisherRho n + C * H) * (te - t0)) * ((te - t0) * (C * H ^ 4 + 8e-14 * D)) →
          E ≤ ρ / 2 → ‖v - y te‖ ≤ E := by
  obtain ⟨y, y0, hy⟩ := lip_exists (fisherRho_nonneg hn) (fisher_lipschitz hn) w t0 te
  have h01 := fisher_range hn hy (by rw [y0]; exact hw)
  obtain ⟨ρ, C, D, a1, a2, a3, a4, H⟩ := rock4_fisher_call hn hle hy h01
  rw [y0] at H
  exact ⟨y, y0, hy, h01, ρ, C, D, a1, a2, a3, a4, H⟩

/-- the range of the solutions, with the ends. -/
theorem fisher_range_closed (hn : 2 ≤ n) {y : ℝ → Fin n → ℝ} (hy : SolOn (fisherField n) y t0 te)
    (h0 : ∀ i, 0 ≤ y t0 i ∧ y t0 i ≤ 1) : ∀ t ∈ Set.Icc t0 te, ∀ i, 0 ≤ y t i ∧ y t i ≤ 1 := by
  intro t ht i
  have key : ∀ ε : ℝ, 0 < ε → ε < 1 / 2 → |y t i - 1 / 2| ≤ 1 / 2 + Real.exp (fisherRho n * (t - t0)) * ε := by
    intro ε e0 e1
    obtain ⟨z, z0, hz⟩ := lip_exists (fisherRho_nonneg hn) (fisher_lipschitz hn) (fun j => ε + (1 - 2 * ε) * y t0 j) t0 te
    have h01 := fisher_range hn hz (by
      intro j
      rw [z0]
      have a := mul_nonneg (by linarith : (0 : ℝ) ≤ 1 - 2 * ε) (h0 j).1
      have b := mul_nonneg (by linarith : (0 : ℝ) ≤ 1 - 2 * ε) (sub_nonneg.2 (h0 j).2)
      constructor <;> nlinarith) t ht i
    have right : ∀ {x : ℝ → Fin n → ℝ}, SolOn (fisherField n) x t0 te → ∀ s ∈ Set.Ico t0 te,
        HasDerivWithinAt x (fisherField n (x s)) (Set.Ici s) s := fun hx s hs =>
      ((hx s ⟨hs.1, hs.2.le⟩).mono (Set.Icc_subset_Icc hs.1 le_rfl)).mono_of_mem_nhdsWithin (Icc_mem_nhdsGE hs.2)
    have d := dist_le_of_trajectories_ODE (v := fun _ => fisherField n) (K := ⟨fisherRho n, fisherRho_nonneg hn⟩) (δ := ε)
      (fun _ => LipschitzWith.of_dist_le_mul fun a b => by rw [dist_eq_norm, dist_eq_norm]; exact fisher_lipschitz hn a b)
      (fun s hs => (hy s hs).continuousWithinAt) (right hy) (fun s hs => (hz s hs).continuousWithinAt) (right hz)
      (by
        rw [z0, dist_eq_norm, pi_norm_le_iff_of_nonneg e0.le]
        intro j
        rw [Pi.sub_apply, Real.norm_eq_abs, abs_le]
        have a := mul_nonneg e0.le (h0 j).1
        have b := mul_nonneg e0.le (sub_nonneg.2 (h0 j).2)
        constructor <;> nlinarith) t ht
    have d1 : |y t i - z t i| ≤ ε * Real.exp (fisherRho n * (t - t0)) := by
      have := (dist_le_pi_dist (y t) (z t) i).trans d
      rwa [Real.dist_eq] at this
    rw [abs_le] at d1 ⊢
    constructor <;> linarith
  have lim : |y t i - 1 / 2| ≤ 1 / 2 := by
    refine le_of_forall_pos_lt_add fun η hη => ?_
    obtain ⟨E, hE⟩ : ∃ E, E = Real.exp (fisherRho n * (t - t0)) := ⟨_, rfl⟩
    have Ep : 0 < E := by rw [hE]; exact Real.exp_pos _
    have k := key (min (1 / 4) (η / (2 * E))) (lt_min (by norm_num) (by positivity))
      (lt_of_le_of_lt (min_le_left _ _) (by norm_num))
    rw [← hE] at k
    have := mul_le_mul_of_nonneg_left (min_le_right (1 / 4) (η / (2 * E))) Ep.le
    rw [show E * (η / (2 * E)) = η / 2 by field_simp] at this
    linarith
  rw [abs_le] at lim
  constructor <;> linarith

/-- C125: **the shipped problem from the shipped initial data** (ones, then zeros; `init`, see C118): the solution exists on
every interval and remains between 0 and 1. -/
theorem fisher_shipped (hn : 2 ≤ n) : ∃ y : ℝ → Fin n → ℝ, (∀ i : Fin n, y t0 i = if (i : ℤ) < n / 2 then 1 else 0) ∧
    SolOn (fisherField n) y t0 te ∧ ∀ t ∈ Set.Icc t0 te, ∀ i, 0 ≤ y t i ∧ y t i ≤ 1 := by
  obtain ⟨y, y0, hy⟩ := lip_exists (fisherRho_nonneg hn) (fisher_lipschitz hn) (fun i : Fin n => if (i : ℤ) < n / 2 then 1 else 0) t0 te
  refine ⟨y, fun i => by rw [y0], hy, fisher_range_closed hn hy fun i => ?_⟩
  rw [y0]
  show 0 ≤ (if (i : ℤ) < n / 2 then (1 : ℝ) else 0) ∧ (if (i : ℤ) < n / 2 then (1 : ℝ) else 0) ≤ 1
  split_ifs <;> norm_num

/-- a solution to which `rock4_fisher` applies which is not uniform. -/
example : ∃ y : ℝ → Fin 100 → ℝ, y 0 = (fun i : Fin 100 => if (i : ℤ) < 50 then 3 / 4 else 1 / 4) ∧ SolOn (fisherField 100) y 0 50 := by
  obtain ⟨y, a, b, -⟩ := rock4_fisher (n := 100) (t0 := 0) (te := 50) (by norm_num) (by norm_num)
    (w := fun i : Fin 100 => if (i : ℤ) < 50 then 3 / 4 else 1 / 4) (fun i => by split_ifs <;> norm_num)
  exact ⟨y, a, b⟩

end

end Odes
