import Verif.Lemmas.Rock4Kernel
import Verif.Lemmas.XFin
import Mathlib.Tactic.Linarith
import Mathlib.Tactic.FieldSimp
import Mathlib.Algebra.Order.Floor.Ring

/-! Lemmas about the ROCK4 time loop. -/

namespace Odes.Rock4

open Classical

variable {n : ℕ}

open Spec (blockStart)

/-- (`mdeg`, `mp[1]`, `mp[2]`) designate the same formula of the family. -/
def Sel (mdeg mp1 mp2 : ℤ) : Prop :=
  ∃ k : ℕ, k < 50 ∧ MS[k]? = some mdeg ∧ mp1 = k + 1 ∧ mp2 = blockStart MS k

theorem mdegreLoop_indep (m a b : ℤ) : ∀ (l : List ℤ) (i p : ℤ),
    (∃ x ∈ l, x.tdiv m ≥ 1) → mdegreLoop m a l i p = mdegreLoop m b l i p
  | [], i, p, h => by simp at h
  | x :: l, i, p, h => by
    simp only [mdegreLoop]
    split_ifs with hx
    · rfl
    · refine mdegreLoop_indep m a b l _ _ ?_
      obtain ⟨y, hy, hy'⟩ := h
      rcases List.mem_cons.1 hy with rfl | hy
      · exact absurd hy' hx
      · exact ⟨y, hy, hy'⟩

theorem mdegre_table : ∀ m : Fin 148,
    (∃ x ∈ MS, x.tdiv ((m : ℕ) + 1 : ℤ) ≥ 1) ∧
    (∃ k : Fin 50, MS[k.1]? = some (mdegre ((m : ℕ) + 1 : ℤ) 0).1 ∧
      (mdegre ((m : ℕ) + 1 : ℤ) 0).2.1 = ((k : ℕ) : ℤ) + 1 ∧
      (mdegre ((m : ℕ) + 1 : ℤ) 0).2.2 = blockStart MS k) ∧
    ((m : ℕ) + 1 : ℤ) ≤ (mdegre ((m : ℕ) + 1 : ℤ) 0).1 ∧
    ∀ d ∈ MS, ((m : ℕ) + 1 : ℤ) ≤ d → (mdegre ((m : ℕ) + 1 : ℤ) 0).1 ≤ d := by
  decide +kernel

theorem mdegre_spec (m mp1 : ℤ) (h1 : 1 ≤ m) (h2 : m ≤ 148) :
    Sel (mdegre m mp1).1 (mdegre m mp1).2.1 (mdegre m mp1).2.2 ∧ m ≤ (mdegre m mp1).1 ∧
    ∀ d ∈ MS, m ≤ d → (mdegre m mp1).1 ≤ d := by
  obtain ⟨a, ⟨k, b1, b2, b3⟩, c, d⟩ := mdegre_table ⟨(m - 1).toNat, by omega⟩
  have e : (((m - 1).toNat : ℕ) : ℤ) + 1 = m := by omega
  simp only [e] at a b1 b2 b3 c d
  have e2 : mdegre m mp1 = mdegre m 0 := mdegreLoop_indep m mp1 0 MS 1 1 a
  rw [e2]
  exact ⟨⟨k, k.2, b1, b2, b3⟩, c, d⟩

theorem Sel_table : ∀ k : Fin 50, 1 ≤ MS.getD k 0 ∧ MS.getD k 0 ≤ 148 ∧
    1 ≤ blockStart MS k ∧ blockStart MS k + 2 * MS.getD k 0 - 2 ≤ 4382 := by
  decide +kernel

theorem Sel.bounds {mdeg mp1 mp2 : ℤ} (h : Sel mdeg mp1 mp2) :
    1 ≤ mdeg ∧ mdeg ≤ 148 ∧ 1 ≤ mp1 ∧ mp1 ≤ 50 ∧ 1 ≤ mp2 ∧ mp2 + 2 * mdeg - 2 ≤ 4382 := by
  obtain ⟨k, hk, h1, h2, h3⟩ := h
  have := Sel_table ⟨k, hk⟩
  simp only [List.getD, h1, Option.getD_some] at this
  rw [h2, h3]
  refine ⟨this.1, this.2.1, by omega, by omega, this.2.2.1, this.2.2.2⟩

/-- smallest step size that can be tried. -/
noncomputable def hmin : ℝ := 4e-30

/-- step size after the test against the end of the interval, Rock4.hpp 208-213. -/
theorem choose_h (te t : ℝ) (hlt : t < te) (h : X) (u : X) (hu : u = 1.0e-16) :
    let h1 := if X.ABSsub (X.fin te) (X.fin t) ≤ 1.01 * h then X.ABSsub (X.fin te) (X.fin t) else h
    h1 = X.nan ∨ h1 < 10.0 * u ∨
      ∃ r, h1 = X.fin r ∧ r ≤ te - t ∧ 1e-15 ≤ r ∧ ∀ h0, h = X.fin h0 → r ≤ 1.01 * h0 := by
  intro h1
  have e : X.ABSsub (X.fin te) (X.fin t) = X.fin (te - t) := by
    rw [X.ABSsub_fin, if_pos hlt.le]
  have hu' : (10.0 : X) * u = X.fin 1e-15 := by
    rw [hu]; simp; norm_num
  have key : ∀ r, h1 = X.fin r → r ≤ te - t → (1e-15 ≤ r → ∀ h0, h = X.fin h0 → r ≤ 1.01 * h0) →
      h1 = X.nan ∨ h1 < 10.0 * u ∨
      ∃ r, h1 = X.fin r ∧ r ≤ te - t ∧ 1e-15 ≤ r ∧ ∀ h0, h = X.fin h0 → r ≤ 1.01 * h0 := by
    intro r hr hr' hr''
    by_cases hlt : r < 1e-15
    · right; left; rw [hr, hu']; exact hlt
    · right; right; exact ⟨r, hr, hr', not_lt.1 hlt, hr'' (not_lt.1 hlt)⟩
  have hd : h1 = if X.fin (te - t) ≤ 1.01 * h then X.fin (te - t) else h := by
    simp only [h1, e]
  clear_value h1
  cases h with
  | nan =>
    left; rw [hd]; simp
  | pinf =>
    rw [X.ofSci_eq, X.fin_mul_pinf, X.infTimes_pos (by norm_num)] at hd
    simp at hd
    exact key _ hd le_rfl (by simp)
  | ninf =>
    rw [X.ofSci_eq, X.fin_mul_ninf, X.infTimes_neg (by norm_num)] at hd
    simp at hd
    right; left; rw [hd, hu']; simp
  | fin h0 =>
    rw [X.ofSci_eq, X.fin_mul, X.fin_le] at hd
    split_ifs at hd with hc
    · refine key _ hd le_rfl ?_
      intro _ h0' e'
      simp at e'; subst e'; exact hc
    · refine key _ hd ?_ ?_
      · norm_num at hc ⊢
        by_cases h0' : 0 ≤ h0
        · nlinarith
        · nlinarith
      · intro hpos h0' e'
        simp at e'; subst e'
        norm_num at hpos ⊢; linarith

/-- what one successful choice of step size and degree guarantees. -/
structure Chosen (P : Problem n) (te t : ℝ) (s s1 : St n) : Prop where
  frame : s1 = { s with h := s1.h, eigmax := s1.eigmax, rhoCalls := s1.rhoCalls,
                        mdeg := s1.mdeg, mp1 := s1.mp1, mp2 := s1.mp2, mdego := s1.mdego,
                        nstagesmax := s1.nstagesmax }
  sel : Sel s1.mdeg s1.mp1 s1.mp2
  mdego : s1.mdego = s1.mdeg
  num : ∃ hh eig, s1.h = X.fin hh ∧ s1.eigmax = X.fin eig ∧ hmin ≤ hh ∧ hh ≤ te - t ∧
    3 + hh * eig ≤ 0.353 * ((s1.mdeg : ℝ) + 4) ^ 2 ∧
    (∀ h0, s.h = X.fin h0 → hh ≤ 1.01 * h0 ∧ 1e-15 ≤ 1.01 * h0)
  rho0 : s.nrho = 0 → s1.eigmax = P.rho s.rhoCalls ∧ s1.rhoCalls = s.rhoCalls + 1
  rho1 : s.nrho ≠ 0 → s1.eigmax = s.eigmax ∧ s1.rhoCalls = s.rhoCalls

theorem choose_next (P : Problem n) (te t : ℝ) (s s1 : St n) (ht : s.t = X.fin t)
    (hlt : t < te) (hu : s.uround = 1.0e-16)
    (hsel : s.mdego = 0 ∨ Sel s.mdego s.mp1 s.mp2)
    (h : choose P (X.fin te) s = .next s1) : Chosen P te t s s1 := by
  have H := choose_h te t hlt s.h s.uround hu
  rw [← ht] at H
  rw [choose] at h
  simp only at h H
  generalize (if X.ABSsub (X.fin te) s.t ≤ 1.01 * s.h then
    X.ABSsub (X.fin te) s.t else s.h) = h1 at h H
  by_cases hsmall : h1 < 10.0 * s.uround
  · rw [if_pos hsmall] at h; cases h
  rw [if_neg hsmall] at h
  rcases H with H | H | ⟨r, hr, hr1, hr2, hr3⟩
  · subst H
    simp [X.toInt] at h
  · exact absurd H hsmall
  subst hr
  generalize heig : (if s.nrho = 0 then P.rho s.rhoCalls else s.eigmax) = eig at h
  generalize hrc : (if s.nrho = 0 then s.rhoCalls + 1 else s.rhoCalls) = rc at h
  cases hmd : X.toInt (X.sqrt ((3.0 + X.fin r * eig) / 0.353) + 1) with
  | none => rw [hmd] at h; cases h
  | some md =>
  rw [hmd] at h
  simp only at h
  -- the argument of the conversion is finite
  obtain ⟨x, hx, hk, -, hk2⟩ := X.toInt_eq_some hmd
  rw [X.one_eq] at hx
  have hx1 := X.add_fin_inv' hx
  obtain ⟨v, hv, hv0, hv1⟩ := X.sqrt_fin_inv hx1
  rw [X.ofSci_eq] at hv
  have hv2 := X.div_fin_inv (by norm_num) hv
  have hv3 := X.add_fin_inv hv2
  obtain ⟨eg, heg⟩ := X.mul_fin_inv hv3
  subst heg
  simp only [X.fin_mul, X.fin_inj] at hv3
  have hxs : x = Real.sqrt v + 1 := by linarith
  have hx0 : 0 ≤ x := by rw [hxs]; positivity
  rw [if_pos hx0] at hk
  have hmdlt : Real.sqrt v < md := by
    rw [hk, hxs]
    have := Int.lt_floor_add_one (Real.sqrt v + 1); linarith
  have hvmd : v < (md : ℝ) ^ 2 := by
    have h1 := Real.sq_sqrt hv0
    have h2 := Real.sqrt_nonneg v
    nlinarith
  have hmd1 : 1 ≤ md := by
    rw [hk, Int.le_floor, hxs]; push_cast
    have := Real.sqrt_nonneg v; linarith
  have hrpos : (0 : ℝ) < r := lt_of_lt_of_le (by norm_num) hr2
  have hval : 3 + r * eg = 0.353 * v := by norm_num at hv3 ⊢; linarith
  -- step size and raw degree
  have num : ∃ hh md', (if md > 152 then 0.8 * (152.0 * 152.0 * 0.353 - 3.0) / X.fin eg else X.fin r)
      = X.fin hh ∧ (if md > 152 then 152 else md) = md' ∧ 1 ≤ md' ∧ md' ≤ 152 ∧
      hmin ≤ hh ∧ hh ≤ r ∧ 3 + hh * eg ≤ 0.353 * (md' : ℝ) ^ 2 := by
    by_cases hbig : md > 152
    · have hb2 : (152 : ℝ) ≤ Real.sqrt v := by
        have : (153 : ℤ) ≤ ⌊x⌋ := by omega
        rw [Int.le_floor, hxs] at this
        push_cast at this; linarith
      have hb3 : (152 : ℝ) ^ 2 ≤ v := by
        have h1 := Real.sq_sqrt hv0
        nlinarith
      have heg0 : 0 < eg := by
        by_contra hneg
        push Not at hneg
        norm_num at hval
        nlinarith
      have hvhi : v < (2147483647 : ℝ) ^ 2 := by
        have : (md : ℝ) ≤ 2147483647 := by exact_mod_cast hk2
        have : (1 : ℝ) ≤ md := by exact_mod_cast hmd1
        nlinarith
      refine ⟨6522.1696 / eg, 152, ?_, by simp [hbig], by norm_num, by norm_num, ?_, ?_, ?_⟩
      · simp only [hbig, if_true, X.ofSci_eq, X.fin_mul, X.fin_sub, X.fin_div _ _ heg0.ne']
        norm_num
      · rw [le_div_iff₀ heg0]
        have h1 : 1e-15 * eg ≤ r * eg := mul_le_mul_of_nonneg_right hr2 heg0.le
        unfold hmin
        norm_num at hval h1 hvhi ⊢
        linarith
      · rw [div_le_iff₀ heg0]
        norm_num at hval hb3 ⊢
        linarith
      · rw [div_mul_cancel₀ _ heg0.ne']
        norm_num
    · refine ⟨r, md, by simp [hbig], by simp [hbig], hmd1, by omega, ?_, le_rfl, ?_⟩
      · unfold hmin; norm_num at hr2 ⊢; linarith
      · norm_num at hval ⊢; linarith
  obtain ⟨hh, md', n1, n2, n3, n4, n5, n6, n7⟩ := num
  rw [n1, n2] at h
  have hfin : ∀ h0, s.h = X.fin h0 → hh ≤ 1.01 * h0 ∧ 1e-15 ≤ 1.01 * h0 := fun h0 e0 =>
    ⟨le_trans n6 (hr3 h0 e0), le_trans hr2 (hr3 h0 e0)⟩
  have hcov : ∀ d : ℤ, max md' 5 - 4 ≤ d → 3 + hh * eg ≤ 0.353 * ((d : ℝ) + 4) ^ 2 := by
    intro d hd
    have h1 : md' ≤ d + 4 := by omega
    have h1' : (md' : ℝ) ≤ (d : ℝ) + 4 := by exact_mod_cast h1
    have h2 : (1 : ℝ) ≤ md' := by exact_mod_cast n3
    have : (md' : ℝ) ^ 2 ≤ ((d : ℝ) + 4) ^ 2 := by nlinarith
    norm_num at n7 ⊢
    linarith
  by_cases hne : max md' 5 - 4 ≠ s.mdego
  · rw [if_pos hne] at h
    injection h with h
    obtain ⟨m1, m2, m3⟩ := mdegre_spec (max md' 5 - 4) s.mp1 (by omega) (by omega)
    subst h
    exact {
      frame := rfl
      sel := m1
      mdego := rfl
      num := ⟨hh, eg, rfl, rfl, n5, n6.trans hr1, hcov _ m2, hfin⟩
      rho0 := fun h0 => by simp only [h0, if_true] at heig hrc; exact ⟨heig.symm, hrc.symm⟩
      rho1 := fun h0 => by simp only [h0, if_false] at heig hrc; exact ⟨heig.symm, hrc.symm⟩ }
  · rw [if_neg hne] at h
    push Not at hne
    injection h with h
    subst h
    exact {
      frame := rfl
      sel := by
        rcases hsel with h0 | h0
        · omega
        · show Sel (max md' 5 - 4) s.mp1 s.mp2
          rw [hne]; exact h0
      mdego := hne.symm
      num := ⟨hh, eg, rfl, rfl, n5, n6.trans hr1, hcov _ le_rfl, hfin⟩
      rho0 := fun h0 => by simp only [h0, if_true] at heig hrc; exact ⟨heig.symm, hrc.symm⟩
      rho1 := fun h0 => by simp only [h0, if_false] at heig hrc; exact ⟨heig.symm, hrc.symm⟩ }

/-- fourth root of `1/err` for a rejected step. -/
theorem fac0_reject {err : X} (h : ¬ err < 1.0) :
    X.sqrt (X.sqrt (1.0 / err)) = X.nan ∨ ∃ r, X.sqrt (X.sqrt (1.0 / err)) = X.fin r ∧ r ≤ 1 := by
  cases err with
  | nan => left; simp
  | pinf =>
    right
    refine ⟨0, ?_, by norm_num⟩
    simp [X.sqrt_fin]
  | ninf => simp at h
  | fin e =>
    right
    have he : 1 ≤ e := by
      rw [X.ofSci_eq, X.fin_lt] at h; norm_num at h; exact h
    have he0 : 0 < e := by linarith
    refine ⟨Real.sqrt (Real.sqrt (1 / e)), ?_, ?_⟩
    · rw [X.ofSci_eq, X.fin_div _ _ he0.ne']
      have : (1.0 : ℝ) / e = 1 / e := by norm_num
      rw [this, X.sqrt_fin_nonneg (by positivity), X.sqrt_fin_nonneg (by positivity)]
    · rw [Real.sqrt_le_one, Real.sqrt_le_one, div_le_one he0]
      exact he

theorem factor_spec (s : St n) (err : X) (f : ℝ) (hf : s.facmax = X.fin f) (h1 : 1 ≤ f)
    (h5 : f ≤ 5) :
    ∃ r, factor s err = X.fin r ∧ 0.1 ≤ r ∧ r ≤ 5 ∧ (¬ err < 1.0 → r ≤ 0.8) ∧
      (s.reject = true → r ≤ 1) := by
  -- upper limit
  obtain ⟨g, hg, hg1, hg5, hgr⟩ : ∃ g, (if s.reject then (1.0 : X) else s.facmax) = X.fin g ∧
      1 ≤ g ∧ g ≤ 5 ∧ (s.reject = true → g = 1) := by
    by_cases hr : s.reject = true
    · exact ⟨1, by simp [hr]; norm_num, by norm_num, by norm_num, fun _ => rfl⟩
    · exact ⟨f, by simp [hr, hf], h1, h5, fun h => absurd h hr⟩
  unfold factor
  simp only [hg]
  generalize hfac : (if 0.0 < s.errp ∧ s.reject = false then
      X.stdMin (X.sqrt (X.sqrt (1.0 / err)))
        (X.sqrt (X.sqrt s.errp) * X.sqrt (X.sqrt (1.0 / err)) * X.sqrt (X.sqrt (1.0 / err)) *
          (s.h / s.hp))
      else X.sqrt (X.sqrt (1.0 / err))) = fac
  obtain ⟨r, hr, hr1, hr2⟩ := X.stdMin_left (hi := g) (X.stdMax_left 0.1 (0.8 * fac))
  have hr1' : (0.1 : ℝ) ≤ r := le_trans (by rw [min_eq_right]; linarith [show (0.1:ℝ) ≤ 1 by norm_num]) hr1
  refine ⟨r, hr, hr1', hr2.trans hg5, ?_, fun h => by rw [← hgr h]; exact hr2⟩
  intro herr
  -- fac is NaN or at most 1
  have hle : fac = X.nan ∨ fac = X.ninf ∨ ∃ q, fac = X.fin q ∧ q ≤ 1 := by
    rcases fac0_reject herr with h0 | ⟨q, h0, hq⟩
    · rw [h0] at hfac
      left
      rw [← hfac]
      simp [X.stdMin]
    · rw [h0] at hfac
      split_ifs at hfac with hc
      · unfold X.stdMin at hfac
        split_ifs at hfac with hlt
        · rw [hfac] at hlt
          cases fac with
          | nan => left; rfl
          | ninf => right; left; rfl
          | pinf => simp at hlt
          | fin q' => right; right; exact ⟨q', rfl, by simp at hlt; linarith⟩
        · right; right; exact ⟨q, hfac.symm, hq⟩
      · right; right; exact ⟨q, hfac.symm, hq⟩
  have hmax : ∃ m, X.stdMax (X.fin 0.1) (0.8 * fac) = X.fin m ∧ m ≤ 0.8 := by
    rcases hle with h0 | h0 | ⟨q, h0, hq⟩
    · exact ⟨0.1, by rw [h0]; simp [X.stdMax], by norm_num⟩
    · refine ⟨0.1, ?_, by norm_num⟩
      rw [h0, X.ofSci_eq, X.fin_mul_ninf, X.infTimes_neg (by norm_num)]
      simp [X.stdMax]
    · refine ⟨max 0.1 (0.8 * q), ?_, ?_⟩
      · rw [h0, X.ofSci_eq, X.fin_mul, X.stdMax_fin]
      · apply max_le
        · norm_num
        · norm_num; linarith
  obtain ⟨m, hm, hm8⟩ := hmax
  change X.stdMin (X.fin g) (X.stdMax (X.fin 0.1) (0.8 * fac)) = X.fin r at hr
  rw [hm, X.stdMin_fin, X.fin_inj] at hr
  rw [← hr]
  exact le_trans (min_le_right _ _) hm8

/-- an accepted step. -/
theorem control_accept (te : ℝ) (s : St n) (err : X) (t h f : ℝ) (ht : s.t = X.fin t)
    (hh : s.h = X.fin h) (hpos : 0 < h) (hle : h ≤ te - t) (hf : s.facmax = X.fin f)
    (h1 : 1 ≤ f) (h5 : f ≤ 5) (hacc : err < 1.0) :
    ∃ hn, control (X.fin te) s err =
      { s with nsteps := s.nsteps + 1, nacc := s.nacc + 1, facmax := X.fin 2, t := X.fin (t + h),
               hlast := s.h, nrejloc := if s.reject then 0 else s.nrejloc, reject := false,
               hp := s.h, h := X.fin hn, errp := err, temp := s.y, y := s.temp, g0 := s.fn,
               fn := s.g0, nrho := (s.nrho + 1 + 1) % 10 } ∧
      0 ≤ hn ∧ hn ≤ te - (t + h) ∧ hn ≤ 5.5 * h ∧
      (err = X.fin 0 → ¬ 0.0 < s.errp → hn = te - (t + h) ∨ h ≤ hn) := by
  obtain ⟨r, hr, hr1, hr2, -, hr3⟩ := factor_spec s err f hf h1 h5
  have hrz : err = X.fin 0 → ¬ 0.0 < s.errp → 1 ≤ r := by
    intro he hp
    have hz : X.sqrt (X.sqrt (1.0 / err)) = X.pinf := by
      rw [he, X.ofSci_eq, X.fin_div', if_pos rfl, X.infTimes_pos (by norm_num)]
      simp
    unfold factor at hr
    simp only [hp, false_and, if_false, hz] at hr
    rw [X.ofSci_eq 8, X.fin_mul_pinf, X.infTimes_pos (by norm_num)] at hr
    have e1 : X.stdMax (0.1 : X) X.pinf = X.pinf := by simp [X.stdMax]
    rw [e1] at hr
    have e3 : ∀ a, X.stdMin a X.pinf = a := by intro a; simp [X.stdMin]
    rw [e3] at hr
    split_ifs at hr
    · rw [X.ofSci_eq, X.fin_inj] at hr; rw [← hr]; norm_num
    · rw [hf, X.fin_inj] at hr; rw [← hr]; exact h1
  have hsum : s.t + s.h = X.fin (t + h) := by rw [ht, hh]; rfl
  have habs : X.ABSsub (X.fin te) (X.fin (t + h)) = X.fin (te - (t + h)) := by
    rw [X.ABSsub_fin, if_pos (by linarith)]
  have e2 : (2.0 : X) = X.fin 2 := by simp; norm_num
  have hr0 : 0 < r := lt_of_lt_of_le (by norm_num) hr1
  -- the proposal before the cap
  obtain ⟨q, hq, hq0, hq5, hq1⟩ : ∃ q, (if s.reject then
        (if X.fin te < X.fin (t + h) then X.stdMax (X.stdMin (s.h * factor s err) s.h) s.h
         else X.stdMin (s.h * factor s err) s.h)
      else s.h * factor s err) = X.fin q ∧ 0 < q ∧ q ≤ 5 * h ∧ (1 ≤ r → h ≤ q) := by
    rw [hr, hh, X.fin_mul]
    by_cases hrej : s.reject = true
    · have : ¬ te < t + h := by linarith
      refine ⟨min (h * r) h, ?_, ?_, ?_, fun h' => le_min (by nlinarith) le_rfl⟩
      · simp only [hrej, if_true, X.fin_lt, this, if_false, X.stdMin_fin]
      · exact lt_min (by positivity) hpos
      · exact le_trans (min_le_right _ _) (by linarith)
    · exact ⟨h * r, by simp [hrej], by positivity, by nlinarith, fun h' => by nlinarith⟩
  have hcap : ∃ hn, (if X.ABSsub (X.fin te) (X.fin (t + h)) ≤ 1.1 * X.fin q then
      X.ABSsub (X.fin te) (X.fin (t + h)) else X.fin q) = X.fin hn ∧ 0 ≤ hn ∧
      hn ≤ te - (t + h) ∧ hn ≤ 5.5 * h ∧
      (err = X.fin 0 → ¬ 0.0 < s.errp → hn = te - (t + h) ∨ h ≤ hn) := by
    rw [habs, X.ofSci_eq, X.fin_mul, X.fin_le]
    split_ifs with hc
    · refine ⟨_, rfl, by linarith, le_rfl, ?_, fun _ _ => Or.inl rfl⟩
      norm_num at hc ⊢; linarith
    · refine ⟨q, rfl, hq0.le, ?_, ?_, fun a b => Or.inr (hq1 (hrz a b))⟩
      · norm_num at hc; linarith
      · norm_num; linarith
  obtain ⟨hn, hn1, hn2⟩ := hcap
  refine ⟨hn, ?_, hn2⟩
  unfold control
  simp only [hacc, if_true, hsum, hq, hn1, e2]

/-- a rejected step. -/
theorem control_reject (tend : X) (s : St n) (err : X) (t told h f : ℝ) (ht : s.t = X.fin t)
    (htold : s.told = X.fin told) (hh : s.h = X.fin h) (hpos : 0 < h) (hf : s.facmax = X.fin f)
    (h1 : 1 ≤ f) (h5 : f ≤ 5) (hrej : ¬ err < 1.0) (hns : 0 ≤ s.nsteps) :
    ∃ hn fm, control tend s err =
      { s with nsteps := s.nsteps + 1, facmax := X.fin fm, reject := true, h := X.fin hn,
               nrej := s.nrej + 1, nrejloc := if told = t then s.nrejloc + 1 else s.nrejloc,
               told := s.t, nrho := if s.nrho ≠ 0 then 0 else 1 } ∧
      1 ≤ fm ∧ fm ≤ 5 ∧ 0 < hn ∧ (0.08 * h ≤ hn ∨ hn = 1.0e-5) ∧ (¬ (told = t ∧ s.nrejloc + 1 = 10) → hn ≤ 0.64 * h) := by
  obtain ⟨r, hr, hr1, hr2, hr4, hr3⟩ := factor_spec s err f hf h1 h5
  have hr0 : 0 < r := lt_of_lt_of_le (by norm_num) hr1
  obtain ⟨g, hg, hg1, hg5⟩ : ∃ g, (if s.reject then (1.0 : X) else s.facmax) = X.fin g ∧
      1 ≤ g ∧ g ≤ 5 := by
    by_cases hr : s.reject = true
    · exact ⟨1, by simp [hr]; norm_num, by norm_num, by norm_num⟩
    · exact ⟨f, by simp [hr, hf], h1, h5⟩
  have hn0 : ¬ (s.nsteps + 1 = 0) := by omega
  have hfeq : X.Feq s.told s.t ↔ told = t := by rw [ht, htold]; exact X.fin_feq _ _
  by_cases hc : told = t ∧ s.nrejloc + 1 = 10
  · refine ⟨1.0e-5, g, ?_, hg1, hg5, by norm_num, Or.inr rfl, fun h => absurd hc h⟩
    unfold control
    simp only [hrej, if_false, hfeq, hc.1, hc.2, if_true, and_self, hg]
    rfl
  · refine ⟨0.8 * (h * r), g, ?_, hg1, hg5, by positivity, Or.inl (by norm_num at hr1 ⊢; nlinarith), ?_⟩
    · have hc' : ¬ (told = t ∧ (if told = t then s.nrejloc + 1 else s.nrejloc) = 10) := by
        rintro ⟨a, b⟩
        rw [if_pos a] at b
        exact hc ⟨a, b⟩
      unfold control
      simp only [hrej, if_false, hfeq, hc', hg, hr, hh, hn0]
      rfl
    · intro _
      have := hr4 hrej
      norm_num at this ⊢
      nlinarith

end Odes.Rock4
