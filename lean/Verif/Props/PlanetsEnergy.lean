import Verif.Props.MainsFlat
import Mathlib.Analysis.Calculus.MeanValue

/-!
# C126: energy of the computed trajectories of the planetary problems

The energy is the one of Spec/NBody (not `H` of the classes, which misses the pairs of neighbours: C89).
-/

namespace Odes.Symp.Test

open Odes.Symp Odes.Mains Spec.NBody

variable {P : Planets}

/-- the energy of a state -/
noncomputable def energyOf (P : Planets) (x : Fin (6 * P.nb) → ℝ) : ℝ := energy P.G (mass P) (posOf x) (momOf x)

/-- Lipschitz constant of the energy -/
theorem energy_lip {μ K a M : ℝ} (hS : Sizes P μ K) {x z : Fin (6 * P.nb) → ℝ} (ha : 0 < a) (hx : Far P (a / 2) x)
    (hz : Far P (a / 2) z) (mx : ‖x‖ ≤ M) (mz : ‖z‖ ≤ M) :
    |energyOf P x - energyOf P z| ≤ 4 * P.nb * (M / μ + 4 * K / a ^ 2) * ‖x - z‖ := by
  have hμ := hS.pos
  have hK := hS.one
  have hM : 0 ≤ M := (norm_nonneg _).trans mx
  have hδ := norm_nonneg (x - z)
  set δ := ‖x - z‖ with eδ
  have kin : ∀ i : Fin P.nb, |(∑ s, momOf x i s ^ 2) / (2 * mass P i) - (∑ s, momOf z i s ^ 2) / (2 * mass P i)| ≤ 3 * (M / μ * δ) := by
    intro i
    have e : (∑ s, momOf x i s ^ 2) / (2 * mass P i) - (∑ s, momOf z i s ^ 2) / (2 * mass P i) =
        ∑ s : Fin 3, (momOf x i s - momOf z i s) * (momOf x i s + momOf z i s) / (2 * mass P i) := by
      rw [← sub_div, ← Finset.sum_sub_distrib, Finset.sum_div]
      exact Finset.sum_congr rfl fun s _ => by ring
    rw [e]
    refine (Finset.abs_sum_le_sum_abs _ _).trans ((Finset.sum_le_card_nsmul _ _ (M / μ * δ) fun s _ => ?_).trans_eq (by simp))
    have b1 : |momOf x i s - momOf z i s| ≤ δ := mom_le (x - z) i s
    have b2 : |momOf x i s + momOf z i s| ≤ 2 * M :=
      (abs_add_le _ _).trans (by linarith [mom_le x i s, mom_le z i s])
    have b3 := hS.mass i
    rw [abs_div, abs_mul, abs_mul, abs_two, div_mul_eq_mul_div]
    calc |momOf x i s - momOf z i s| * |momOf x i s + momOf z i s| / (2 * |mass P i|) ≤ δ * (2 * M) / (2 * μ) := by gcongr
      _ = M * δ / μ := by field_simp
  have pot : ∀ i j : Fin P.nb, |(if j < i then P.G * (mass P i * mass P j / sep x i j) else 0) -
      (if j < i then P.G * (mass P i * mass P j / sep z i j) else 0)| ≤ |P.G * mass P i * mass P j| * (16 / a ^ 2 * δ) := by
    intro i j
    split_ifs with hij
    · have hne : i ≠ j := fun e => by subst e; exact lt_irrefl _ hij
      have r1 := hx i j hne
      have r2 := hz i j hne
      have p1 : 0 < sep x i j := by linarith
      have p2 : 0 < sep z i j := by linarith
      have d := sep_near x z i j
      have e : P.G * (mass P i * mass P j / sep x i j) - P.G * (mass P i * mass P j / sep z i j) =
          P.G * mass P i * mass P j * ((sep z i j - sep x i j) / (sep x i j * sep z i j)) := by
        field_simp
      rw [e, abs_mul]
      refine mul_le_mul_of_nonneg_left ?_ (abs_nonneg _)
      rw [abs_div, abs_of_pos (mul_pos p1 p2), abs_sub_comm]
      calc |sep x i j - sep z i j| / (sep x i j * sep z i j) ≤ 2 * (2 * δ) / (a / 2 * (a / 2)) := by gcongr
        _ = 16 / a ^ 2 * δ := by field_simp; ring
    · simp only [sub_self, abs_zero]; positivity
  have eE : ∀ x : Fin (6 * P.nb) → ℝ, energyOf P x = ∑ i, (∑ s, momOf x i s ^ 2) / (2 * mass P i) -
      ∑ i, ∑ j, if j < i then P.G * (mass P i * mass P j / sep x i j) else 0 := by
    intro x
    unfold energyOf energy
    rw [Finset.mul_sum]
    congr 1
    refine Finset.sum_congr rfl fun i _ => ?_
    rw [Finset.mul_sum]
    refine Finset.sum_congr rfl fun j _ => ?_
    rw [mul_ite, mul_zero]
    rfl
  have e : energyOf P x - energyOf P z = ∑ i, ((∑ s, momOf x i s ^ 2) / (2 * mass P i) - (∑ s, momOf z i s ^ 2) / (2 * mass P i)) -
      ∑ i, ∑ j, ((if j < i then P.G * (mass P i * mass P j / sep x i j) else 0) -
        (if j < i then P.G * (mass P i * mass P j / sep z i j) else 0)) := by
    rw [eE, eE]
    simp only [Finset.sum_sub_distrib]
    ring
  have s1 : |∑ i, ((∑ s, momOf x i s ^ 2) / (2 * mass P i) - (∑ s, momOf z i s ^ 2) / (2 * mass P i))| ≤ P.nb * (3 * (M / μ * δ)) :=
    (Finset.abs_sum_le_sum_abs _ _).trans ((Finset.sum_le_card_nsmul _ _ _ fun i _ => kin i).trans_eq (by simp))
  have s2 : |∑ i, ∑ j, ((if j < i then P.G * (mass P i * mass P j / sep x i j) else 0) -
        (if j < i then P.G * (mass P i * mass P j / sep z i j) else 0))| ≤ P.nb * (K * (16 / a ^ 2 * δ)) := by
    refine (Finset.abs_sum_le_sum_abs _ _).trans ((Finset.sum_le_card_nsmul _ _ (K * (16 / a ^ 2 * δ)) fun i _ => ?_).trans_eq (by simp))
    refine (Finset.abs_sum_le_sum_abs _ _).trans ((Finset.sum_le_sum fun j _ => pot i j).trans ?_)
    rw [← Finset.sum_mul]
    exact mul_le_mul_of_nonneg_right (hS.force i) (by positivity)
  rw [e]
  refine (abs_sub _ _).trans ((add_le_add s1 s2).trans ?_)
  have q : 0 ≤ P.nb * (M / μ * δ) := by positivity
  have q2 : 4 * P.nb * (M / μ + 4 * K / a ^ 2) * δ = 4 * (P.nb * (M / μ * δ)) + P.nb * (K * (16 / a ^ 2 * δ)) := by ring
  rw [q2]
  linarith

/-- the energy is constant along the solutions -/
theorem energy_sol {μ K a M T : ℝ} (hS : Sizes P μ K) {y : ℝ → Fin (6 * P.nb) → ℝ} (hy : SolOn (field P) y 0 T) (ha : 0 < a)
    (hr : ∀ t ∈ Set.Icc 0 T, Far P a (y t)) (hM : ∀ t ∈ Set.Icc 0 T, ‖y t‖ ≤ M) {t : ℝ} (ht : t ∈ Set.Icc 0 T) :
    energyOf P (y t) = energyOf P (y 0) := by
  rcases eq_or_lt_of_le ht.1 with h0 | h0
  · rw [← h0]
  have hsub : Set.Icc 0 t ⊆ Set.Icc 0 T := Set.Icc_subset_Icc_right ht.2
  have hfar : ∀ s ∈ Set.Icc 0 T, Far P (a / 2) (y s) := fun s hs i j hij => (by linarith : a / 2 ≤ a).trans (hr s hs i j hij)
  have hc : ContinuousOn (fun s => energyOf P (y s)) (Set.Icc 0 t) := by
    intro s hs
    have hys : ContinuousWithinAt y (Set.Icc 0 t) s := ((hy s (hsub hs)).continuousWithinAt).mono hsub
    rw [ContinuousWithinAt, tendsto_iff_norm_sub_tendsto_zero] at hys ⊢
    refine squeeze_zero' (Filter.Eventually.of_forall fun _ => norm_nonneg _) ?_
      (by simpa using hys.const_mul (4 * P.nb * (M / μ + 4 * K / a ^ 2)))
    filter_upwards [self_mem_nhdsWithin] with r hr'
    exact energy_lip hS ha (hfar r (hsub hr')) (hfar s (hsub hs)) (hM r (hsub hr')) (hM s (hsub hs))
  obtain ⟨c, hc1, hc2⟩ := exists_hasDerivAt_eq_slope (fun s => energyOf P (y s)) (fun _ => 0) h0 hc fun s hs => by
    have hs' : s ∈ Set.Icc 0 T := hsub ⟨hs.1.le, hs.2.le⟩
    refine outer_energy P ((hy s hs').hasDerivAt (Icc_mem_nhds hs.1 (hs.2.trans_le ht.2))) fun i j hij e => ?_
    have := hr s hs' i j hij
    rw [sep, e, dist2] at this
    simp at this
    linarith
  have := (div_eq_zero_iff.1 hc2.symm).resolve_right (by linarith)
  linarith

/-- C126: **the energy of every line of the file** is near the energy at the beginning of the solution, as long as it has no collision;
the bodies of the computed states stay apart too. -/
theorem planets_main_energy_partial {t : GTab} (ht : t ∈ gaussD) {y : ℝ → Fin (6 * P.nb) → ℝ} {T a M μ K ρ L V : ℝ} (hS : Sizes P μ K)
    (hT : 0 ≤ T) (hy : SolOn (field P) y 0 T) (ha : 0 < a) (hr : ∀ t ∈ Set.Icc 0 T, Far P a (y t)) (hM : ∀ t ∈ Set.Icc 0 T, ‖y t‖ ≤ M)
    (eρ : ρ = a / 8) (eL : L = 1 / μ + 112 * K / a ^ 3) (eV : V = (M + a / 8) / μ + 4 * K / a ^ 2) :
    ∃ h0 C : ℝ, 0 < h0 ∧ 0 ≤ C ∧
      ∀ (F : FP) (_ : 10 ≤ F.p) (_ : (35 + P.nb : ℕ) * F.eps ≤ 1 / 2) (itermax : ℤ) (c : PlanetsFl F P.nb) (_ : Computes c) (η : ℝ)
        (_ : η = F.eps * ((M + ρ) / μ + 8 * (35 + P.nb) * K / a ^ 2))
        (h : F.T) (_ : 0 < h.1) (_ : h.1 ≤ h0) (_ : h.1 * L ≤ 1 / 3)
        (junk st0 : St F.T (6 * P.nb)) (_ : construct (cfgFt F t itermax (planetsFl c)) junk = some (.ok st0))
        (u0 : Fin (6 * P.nb) → F.T) (e0 : ℝ) (_ : ‖val u0 - y 0‖ ≤ e0) (G κ r : ℝ) (_ : G = (ocst F 12 t.s η L ρ h.1 M V C).G)
        (_ : κ = (ocst F 12 t.s η L ρ h.1 M V C).κ) (_ : r = (ocst F 12 t.s η L ρ h.1 M V C).r)
        (_ : Real.exp (2 * (1 + 1 / 10 ^ 11) * L * T) * (e0 + T * (G + κ / h.1)) + κ + h.1 * (1 + 1 / 10 ^ 10) * (V + η) + r ≤ ρ)
        (years : ℝ) (it : ℕ) (u : Fin (6 * P.nb) → F.T) (st : St F.T (6 * P.nb)) (w : List (Fin (6 * P.nb) → F.T))
        (_ : SympLoopZ (cfgFt F t itermax (planetsFl c)) (halfA P.nb) h (moreSteps years h.1) u0 st0 it u st w),
        ∀ j (hj : j < w.length), (it - j : ℕ) * h.1 ≤ T →
          |energy P.G (mass P) (posOf (val w[j])) (momOf (val w[j])) - energy P.G (mass P) (posOf (y 0)) (momOf (y 0))| ≤
          4 * P.nb * V *
            (Real.exp (2 * (1 + 1 / 10 ^ 11) * L * ((it - j : ℕ) * h.1)) * (e0 + (it - j : ℕ) * h.1 * (G + κ / h.1))) ∧
          Far P (a / 2) (val w[j]) ∧ ‖val w[j]‖ ≤ M + a / 8 := by
  obtain ⟨h0, C, p1, p2, p3⟩ := planets_main_partial ht hS hT hy ha hr hM eρ eL eV
  refine ⟨h0, C, p1, p2, ?_⟩
  intro F hp hN itermax c hc η eη h hh hh0 hhL junk st0 hst u0 e0 he0 G κ r eG eκ er hρ years it u st w hl j hj hT'
  have key := p3 F hp hN itermax c hc η eη h hh hh0 hhL junk st0 hst u0 e0 he0 G κ r eG eκ er hρ years it u st w hl j hj hT'
  have hμ := hS.pos
  have hK := hS.one
  have hM0 : 0 ≤ M := (norm_nonneg _).trans (hM 0 ⟨le_rfl, hT⟩)
  have hL0 : 0 ≤ L := by rw [eL]; positivity
  have hV0 : 0 ≤ V := by rw [eV]; positivity
  have hη : 0 ≤ η := by
    have := F.eps_pos
    have : 0 < ρ := by rw [eρ]; positivity
    rw [eη]; positivity
  have hok := ocst_ok (d := 12) (s := t.s) hp hη hL0 (by rw [eρ]; positivity : 0 < ρ) hh hM0 hV0 p2 hhL
  have hG0 : 0 ≤ G := by rw [eG]; exact hok.G0
  have hκ0 : 0 ≤ κ := by rw [eκ]; exact hok.κ0
  have hr0 : 0 ≤ r := by rw [er]; exact hok.r0
  have e00 : 0 ≤ e0 := (norm_nonneg _).trans he0
  have hG' : 0 ≤ G + κ / h.1 := add_nonneg hG0 (div_nonneg hκ0 hh.le)
  set τ := ((it - j : ℕ) : ℝ) * h.1 with eτ
  have hτ : τ ∈ Set.Icc 0 T := ⟨by positivity, hT'⟩
  have hbig : Real.exp (2 * (1 + 1 / 10 ^ 11) * L * τ) * (e0 + τ * (G + κ / h.1)) ≤ ρ := by
    have q1 : Real.exp (2 * (1 + 1 / 10 ^ 11) * L * τ) * (e0 + τ * (G + κ / h.1)) ≤
        Real.exp (2 * (1 + 1 / 10 ^ 11) * L * T) * (e0 + T * (G + κ / h.1)) := by
      refine mul_le_mul (Real.exp_le_exp.2 ?_) ?_ (add_nonneg e00 (mul_nonneg hτ.1 hG')) (Real.exp_pos _).le
      · exact mul_le_mul_of_nonneg_left hT' (by positivity)
      · linarith [mul_le_mul_of_nonneg_right hT' hG']
    have q2 : 0 ≤ h.1 * (1 + 1 / 10 ^ 10) * (V + η) := mul_nonneg (mul_nonneg hh.le (by norm_num)) (by linarith)
    linarith
  have hnear : ‖val w[j] - y τ‖ ≤ a / 8 := key.trans (hbig.trans_eq eρ)
  have hfar : Far P (a / 2) (y τ) := fun i k hik => (by linarith : a / 2 ≤ a).trans (hr τ hτ i k hik)
  have n1 : ‖val w[j]‖ ≤ M + a / 8 := by
    have : val w[j] = (val w[j] - y τ) + y τ := by abel
    rw [this]
    exact (norm_add_le _ _).trans (by linarith [hM τ hτ])
  have l := energy_lip hS ha ((hr τ hτ).near hnear) hfar n1 (by linarith [hM τ hτ])
  rw [energy_sol hS hy ha hr hM hτ, ← eV] at l
  exact ⟨l.trans (mul_le_mul_of_nonneg_left key (by positivity)), (hr τ hτ).near hnear, n1⟩

end Odes.Symp.Test
