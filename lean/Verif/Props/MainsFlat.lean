import Verif.Model.MainsFlat
import Verif.Props.Mains
import Verif.Props.SympPlanetsLoop

/-!
# C118: what the test program of SymplecticRK writes for the planetary problems
-/

namespace Odes.Mains

open Odes.Symp

variable {F : FP} {n : ℕ} {c : Cfg F.T n} {z : St F.T n → Fin n → F.T} {h : F.T} {more : ℕ → Prop} {u0 u : Fin n → F.T}
  {st0 st : St F.T n} {it : ℕ} {w : List (Fin n → F.T)}

/-- C118: line `j` from the end holds the values after `it-j` steps (program of the declared arrays). -/
theorem symp_main_file (hl : SympLoop c h more u0 st0 it u st w) :
    w.length = it ∧ ∀ j (hj : j < w.length), ∃ st', RunF c h (it - j) u0 st0 w[j] st' := by
  induction hl with
  | start => exact ⟨rfl, fun j hj => absurd hj (Nat.not_lt_zero _)⟩
  | @next it u st w u' st' hk hm hs ih =>
    refine ⟨by simp [ih.1], fun j hj => ?_⟩
    cases j with
    | zero => exact ⟨st', .succ (symp_main_run hk) hs⟩
    | succ j =>
      obtain ⟨s, h1⟩ := ih.2 j (by simpa using hj)
      refine ⟨s, ?_⟩
      rw [show it + 1 - (j + 1) = it - j by omega]
      exact h1

/-- C118: the loop is a run of C126 -/
theorem symp_main_runZ (hl : SympLoopZ c z h more u0 st0 it u st w) : RunZ c z h it u0 st0 u st := by
  induction hl with
  | start => exact .zero _ _
  | next hk hm hs ih => exact .succ ih hs

/-- C118: the same with the usual memory layout, and the number of lines. -/
theorem symp_main_fileZ {years hR : ℝ} (hl : SympLoopZ c z h (moreSteps years hR) u0 st0 it u st w) :
    w.length = it ∧ it ≤ ⌈years * 365.25 * hR⌉₊ ∧ (¬ moreSteps years hR it → it = ⌈years * 365.25 * hR⌉₊) ∧
      ∀ j (hj : j < w.length), ∃ st', RunZ c z h (it - j) u0 st0 w[j] st' := by
  have key : w.length = it ∧ it ≤ ⌈years * 365.25 * hR⌉₊ ∧ ∀ j (hj : j < w.length), ∃ st', RunZ c z h (it - j) u0 st0 w[j] st' := by
    induction hl with
    | start => exact ⟨rfl, Nat.zero_le _, fun j hj => absurd hj (Nat.not_lt_zero _)⟩
    | @next it u st w u' st' hk hm hs ih =>
      refine ⟨by simp [ih.1], Nat.lt_ceil.2 hm, fun j hj => ?_⟩
      cases j with
      | zero => exact ⟨st', .succ (symp_main_runZ hk) hs⟩
      | succ j =>
        obtain ⟨s, h1⟩ := ih.2.2 j (by simpa using hj)
        refine ⟨s, ?_⟩
        rw [show it + 1 - (j + 1) = it - j by omega]
        exact h1
  refine ⟨key.1, key.2.1, fun hn => le_antisymm key.2.1 ?_, key.2.2⟩
  by_contra hlt
  exact hn (Nat.lt_ceil.1 (not_le.1 hlt))

end Odes.Mains

namespace Odes.Symp.Test

open Odes.Symp Odes.Mains Spec.NBody

variable {P : Planets}

/-- C118, C126: **every line of the file written by test/main.cc** (usual memory layout, every operation rounded) is near the solution, as
long as it has no collision. -/
theorem planets_main_partial {t : GTab} (ht : t ∈ gaussD) {y : ℝ → Fin (6 * P.nb) → ℝ} {T a M μ K ρ L V : ℝ} (hS : Sizes P μ K)
    (hT : 0 ≤ T) (hy : SolOn (field P) y 0 T) (ha : 0 < a) (hr : ∀ t ∈ Set.Icc 0 T, Far P a (y t)) (hM : ∀ t ∈ Set.Icc 0 T, ‖y t‖ ≤ M)
    (eρ : ρ = a / 8) (eL : L = 1 / μ + 112 * K / a ^ 3) (eV : V = (M + a / 8) / μ + 4 * K / a ^ 2) :
    ∃ h0 C : ℝ, 0 < h0 ∧ 0 ≤ C ∧
      ∀ (F : FP) (_ : 10 ≤ F.p) (_ : (35 + P.nb : ℕ) * F.eps ≤ 1 / 2) (itermax : ℤ) (c : PlanetsFl F P.nb) (_ : Computes c) (η : ℝ)
        (_ : η = F.eps * ((M + ρ) / μ + 8 * (35 + P.nb) * K / a ^ 2))
        (h : F.T) (_ : 0 < h.1) (_ : h.1 ≤ h0) (_ : h.1 * L ≤ 1 / 3)
        (junk st0 : St F.T (6 * P.nb)) (_ : construct (cfgFt F t itermax (planetsFl c)) junk = some (.ok st0))
        (u0 : Fin (6 * P.nb) → F.T) (e0 : ℝ) (_ : ‖val u0 - y 0‖ ≤ e0) (G κ r : ℝ) (_ : G = (ocst F 12 t.s η L ρ h.1 M V C).G)
        (_ : κ = (ocst F 12 t.s η L ρ h.1 M V C).κ) (_ : r = (ocst F 12 t.s η L ρ h.1 M V C).r)
        (_ : Real.exp (2 * (1 + 1 / 10 ^ 11) * L * T) * (e0 + T * (G + κ / h.1)) + κ + h.1 * (1 + 1 / 10 ^ 10) * (V + η) + r ≤ ρ)
        (years : ℝ) (it : ℕ) (u : Fin (6 * P.nb) → F.T) (st : St F.T (6 * P.nb)) (w : List (Fin (6 * P.nb) → F.T))
        (_ : SympLoopZ (cfgFt F t itermax (planetsFl c)) (halfA P.nb) h (moreSteps years h.1) u0 st0 it u st w),
        ∀ j (hj : j < w.length), (it - j : ℕ) * h.1 ≤ T → ‖val w[j] - y ((it - j : ℕ) * h.1)‖ ≤
          Real.exp (2 * (1 + 1 / 10 ^ 11) * L * ((it - j : ℕ) * h.1)) * (e0 + (it - j : ℕ) * h.1 * (G + κ / h.1)) := by
  obtain ⟨h0, C, p1, p2, p3⟩ := planets_flat_partial ht hS hT hy ha hr hM eρ eL eV
  refine ⟨h0, C, p1, p2, ?_⟩
  intro F hp hN itermax c hc η eη h hh hh0 hhL junk st0 hst u0 e0 he0 G κ r eG eκ er hρ years it u st w hl j hj hT'
  obtain ⟨st', hrun⟩ := (symp_main_fileZ hl).2.2.2 j hj
  exact p3 F hp hN itermax c hc η eη h hh hh0 hhL junk st0 hst u0 e0 he0 G κ r eG eκ er hρ (halfA P.nb) (it - j) _ st' hrun hT'

end Odes.Symp.Test

namespace Odes.Mains

open Odes.Symp

/-- the hypotheses can be met: the program ends for the free particle, whatever is left in `a`, with any number of lines. -/
example {F : FP} (z : St F.T 2 → Fin 2 → F.T) (junk : St F.T 2) (h : F.T) (years hR : ℝ) (u0 : Fin 2 → F.T) :
    ∃ st0, construct (cfgFt F gaussD2 100 freeF) junk = some (.ok st0) ∧
      ∃ it u st w, SympLoopZ (cfgFt F gaussD2 100 freeF) z h (moreSteps years hR) u0 st0 it u st w ∧ ¬ moreSteps years hR it := by
  have hT := cfgFt_tab (F := F) gaussD2_mem 100 freeF
  have hS := cfgFt_scal (F := F) gaussD2 100 freeF
  obtain ⟨st0, hst⟩ := (symp_construct (c := cfgFt F gaussD2 100 freeF) hT.la.le hT.lb.le hT.lc.le junk).2 ⟨hT.two, hT.max⟩
  refine ⟨st0, hst, ⌈years * 365.25 * hR⌉₊, ?_⟩
  have key : ∀ it, it ≤ ⌈years * 365.25 * hR⌉₊ → ∃ u st w,
      SympLoopZ (cfgFt F gaussD2 100 freeF) z h (moreSteps years hR) u0 st0 it u st w ∧ Inv (cfgFt F gaussD2 100 freeF) st := by
    intro it
    induction it with
    | zero => exact fun _ => ⟨u0, st0, [], .start, (construct_inv hT hS hst).1⟩
    | succ it ih =>
      intro hi
      obtain ⟨u, st, w, h1, ⟨i1a, i1b⟩⟩ := ih (by omega)
      have inv' : Inv (cfgFt F gaussD2 100 freeF) { st with e := fun _ => 0 } :=
        ⟨⟨i1a.1, i1a.2, i1a.3, i1a.4, i1a.5⟩, ⟨i1b.1, i1b.2, i1b.3⟩⟩
      obtain ⟨u2, st2, h3⟩ := free_stepI inv' h u
      obtain ⟨w1, w2, w3, -⟩ := step_cases hT hS inv' h3
      exact ⟨u2, st2, _, .next h1 (Nat.lt_ceil.1 hi) (stepZ_iff.2 h3), ⟨w1, w3.symm ▸ w2⟩⟩
  obtain ⟨u, st, w, h1, -⟩ := key _ le_rfl
  exact ⟨u, st, w, h1, not_lt.2 (Nat.le_ceil _)⟩

end Odes.Mains
