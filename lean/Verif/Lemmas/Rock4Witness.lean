import Verif.Lemmas.Rock4Progress
import Mathlib.Tactic.Ring

/-! Concrete ROCK4 runs. -/

namespace Odes.Rock4

open Classical

theorem Sel_one {a b : ℤ} (h : Sel 1 a b) : a = 1 ∧ b = 1 := by
  obtain ⟨k, hk, h1, h2, h3⟩ := h
  have : ∀ k : Fin 50, MS[k.1]? = some 1 → k.1 = 0 := by decide +kernel
  have := this ⟨k, hk⟩ h1
  simp only at this
  subst this
  exact ⟨by simpa using h2, by rw [h3]; rfl⟩

/-- one attempt with vanishing spectral radius: the degree is 1 and the step size is kept. -/
theorem step_rho0 (P : Problem 1) (T : Tables) (te t0 : ℝ) (y0 : Vec 1) (s0 s : St 1)
    (I : Inv P T te t0 y0 s0 s) (t h : ℝ) (ht : s.t = X.fin t) (hh : s.h = X.fin h)
    (hlt : t < te) (hpos : 1e-6 ≤ h)
    (he : eigUsed P s = X.fin 0) :
    ∃ s1 s' err hh, step P T (X.fin te) s = .next s' ∧ Iter P T te t s s1 s' err hh ∧
      hh = (if te - t ≤ 1.01 * h then te - t else h) ∧ s1.mdeg = 1 ∧ s1.mp1 = 1 ∧ s1.mp2 = 1 ∧
      s'.eigmax = X.fin 0 ∨ te - t < 1e-15 := by
  by_cases hsm : te - t < 1e-15
  · exact ⟨s, s, X.nan, 0, Or.inr hsm⟩
  push Not at hsm
  have hcap : hCapped (X.fin te) s = X.fin (if te - t ≤ 1.01 * h then te - t else h) := by
    unfold hCapped
    rw [ht, hh, X.ABSsub_fin, if_pos hlt.le, X.ofSci_eq, X.fin_mul, X.fin_le]
    split_ifs <;> rfl
  generalize hr : (if te - t ≤ 1.01 * h then te - t else h) = r at hcap
  have hr15 : 1e-15 ≤ r := by
    rw [← hr]; split_ifs
    · exact hsm
    · exact le_trans (by norm_num) hpos
  have hu : (10.0 : X) * s.uround = X.fin 1e-15 := by rw [I.uround]; simp; norm_num
  have h1 : ¬ hCapped (X.fin te) s < 10.0 * s.uround := by
    rw [hcap, hu, X.fin_lt]; exact not_lt.2 hr15
  obtain ⟨md, hmd, hmd3⟩ := toInt_stage (r := r) (e := 0) (by norm_num) (by norm_num)
  have hmd3 := hmd3 (by ring)
  subst hmd3
  obtain ⟨s1, c1, c2, c3, c4⟩ := choose_of_toInt P (X.fin te) s h1 3 (by rw [hcap, he]; exact hmd)
  obtain ⟨s', hs'⟩ := step_exists P T te t0 y0 s0 s s1 I t ht hlt c1
  obtain ⟨t', s1', hh', err, ht', -, c1', D⟩ := step_next P T te t0 y0 s0 s s' I hs'
  rw [ht, X.fin_inj] at ht'
  subst ht'
  rw [c1] at c1'
  injection c1' with c1'
  subst c1'
  have e1 := c3 (by norm_num)
  rw [D.h, hcap, X.fin_inj] at e1
  have e2 := c4 (by norm_num)
  have hsel := D.chosen.sel
  rw [e2] at hsel
  obtain ⟨e3, e4⟩ := Sel_one hsel
  exact ⟨s1, s', err, hh', Or.inl ⟨hs', D, e1, e2, e3, e4, by rw [D.rho.2, c2, he]⟩⟩

theorem formula_deg1 (T : Tables) (F : Vec 1 → Vec 1) (h : X) (y : Vec 1) :
    Spec.gRec F (formulaOf T 1 1 1).mu (formulaOf T 1 1 1).kap h y (formulaOf T 1 1 1).deg =
      fun i => y i + h * T.recf 1 * F y i := by
  show Spec.gRec F (muOf T 1) (kapOf T 1) h y 1 = _
  simp only [Spec.gRec, muOf, if_true]
  rfl

/-- scalar problem with derivative 1 at 0, NaN at `c` and 0 elsewhere. -/
noncomputable def trapP (c : ℝ) : Problem 1 where
  F := fun z => if z 0 = X.fin 0 then fun _ => X.fin 1 else
    if z 0 = X.fin c then fun _ => X.nan else fun _ => X.fin 0
  rho := fun _ => X.fin 0

/-- object just constructed, all memory zero. -/
noncomputable def zeroObj : St 1 :=
  fresh { heap := fun _ _ => X.fin 0, fn := 0, k1 := 0, k2 := 0, k3 := 0, k4 := 0, temp := 0,
          g0 := 0, atol := 0, rtol := 0, uround := 0, told := 0, hlast := 0, mp1 := 0, mp2 := 0,
          mdeg := 0, funccal := 0, nrej := 0, nsteps := 0, nacc := 0, nstagesmax := 0, y := 0,
          mdego := 0, eigmax := 0, facmax := 0, hp := 0, nrho := 0, nrejloc := 0, t := 0, h := 0,
          errp := 0, reject := false, calls := 0, rhoCalls := 0 } 1

noncomputable def zeroStart (P : Problem 1) (h0 : ℝ) : St 1 := start P zeroObj 0 (X.fin 0) (X.fin h0)

theorem zeroStart_inv (P : Problem 1) (T : Tables) (te h0 : ℝ) (hte : 0 ≤ te) :
    Inv P T te 0 (fun _ => X.fin 0) (zeroStart P h0) (zeroStart P h0) := by
  have := start_inv P T te 0 zeroObj 0 (X.fin h0) hte rfl (by simp [zeroObj, fresh])
  exact this

theorem finite_formula {T : Tables} (hT : T.Finite) (a b c : ℤ) :
    (formulaOf T a b c).a21.IsFin ∧ (formulaOf T a b c).a31.IsFin ∧
    (formulaOf T a b c).a32.IsFin ∧ (formulaOf T a b c).a41.IsFin ∧
    (formulaOf T a b c).a42.IsFin ∧ (formulaOf T a b c).a43.IsFin ∧
    (∀ i, ((formulaOf T a b c).b i).IsFin) ∧ ∀ i, ((formulaOf T a b c).be i).IsFin :=
  ⟨hT.fpa _ _, hT.fpa _ _, hT.fpa _ _, hT.fpa _ _, hT.fpa _ _, hT.fpa _ _,
    fun _ => hT.fpb _ _, fun _ => hT.fpbe _ _⟩

/-- situation after the rejected first attempt and `k` accepted ones. -/
def TrapInv (T : Tables) (c : ℝ) (te : ℝ) (k : ℕ) (s : St 1) : Prop :=
  Inv (trapP c) T te 0 (fun _ => X.fin 0) (zeroStart (trapP c) 1) s ∧
  s.nrho % 2 = 1 ∧ s.rhoCalls = 1 ∧ s.eigmax = X.fin 0 ∧ ¬ (0.0 : X) < s.errp ∧
  s.nsteps = k + 1 ∧ s.nacc = k ∧
  ∃ t h v, s.t = X.fin t ∧ s.h = X.fin h ∧ 0 ≤ t ∧ t ≤ 6 ^ k ∧ 1e-6 ≤ h ∧ h ≤ 6 ^ k ∧
    s.heap s.y = (fun _ => X.fin v) ∧ ((v = 0 ∧ h < 1) ∨ (v ≠ 0 ∧ v ≠ c))

theorem trap_first (T : Tables) (c : ℝ) (hc : T.recf 1 = X.fin c) (hc0 : c ≠ 0)
    (te : ℝ) (hte : 2 ≤ te) :
    ∃ s, step (trapP c) T (X.fin te) (zeroStart (trapP c) 1) = .next s ∧ TrapInv T c te 0 s := by
  have I := zeroStart_inv (trapP c) T te 1 (by linarith)
  obtain ⟨s1, s', err, hh, H⟩ := step_rho0 (trapP c) T te 0 (fun _ => X.fin 0) _ _ I 0 1 rfl rfl
    (by linarith) (by norm_num) rfl
  rcases H with ⟨hs', D, e1, e2, e3, e4, e5⟩ | H
  swap
  · norm_num at H; linarith
  refine ⟨s', hs', step_inv _ T te 0 _ _ _ _ I hs', ?_⟩
  rw [if_neg (by norm_num; linarith)] at e1
  have herr := D.errEq
  have hy : (zeroStart (trapP c) 1).heap (zeroStart (trapP c) 1).y = fun _ => X.fin 0 := by
    simp [zeroStart, start, zeroObj, fresh, upd]
  rw [e2, e3, e4, e1, hy] at herr
  rw [stages_nan _ _ _ _ (X.fin c) _ _ (by
      rw [formula_deg1, hc]; simp [trapP]) (by simp [trapP, hc0])] at herr
  have hrej : ¬ err < 1.0 := by rw [herr]; simp
  obtain ⟨a1, a2, a3, a4, a5, a6, a7, a8, a9, a10, a11, a12, a13, a14, hn, b1, b2, b3, b4⟩ :=
    D.reject hrej
  have hnr : ((zeroStart (trapP c) 1).nrho) = 0 := rfl
  have hep := D.errp
  rw [if_neg hrej] at hep
  refine ⟨by rw [a12, hnr]; norm_num, ?_, e5, ?_, ?_, ?_, 0, hn, 0, by rw [a1]; rfl, b1, le_rfl,
    by norm_num, ?_, ?_, by rw [a4, a6]; exact hy, Or.inl ⟨rfl, ?_⟩⟩
  · rw [D.rho.1, (D.chosen.rho0 rfl).2]; rfl
  · rw [hep]; simp [zeroStart, start]; norm_num
  · rw [D.nsteps]; rfl
  · rw [a2]; rfl
  · rw [e1] at b3
    rcases b3 with b3 | b3
    · norm_num at b3 ⊢; linarith
    · rw [b3]; norm_num
  · have := b4 (by rintro ⟨-, h⟩; norm_num [zeroStart, start] at h)
    rw [e1] at this; norm_num at this ⊢; linarith
  · have := b4 (by rintro ⟨-, h⟩; norm_num [zeroStart, start] at h)
    rw [e1] at this; norm_num at this ⊢; linarith

theorem trap_next (T : Tables) (hT : T.Finite) (c : ℝ) (hc : T.recf 1 = X.fin c) (hc0 : c ≠ 0)
    (N k : ℕ) (hk : k ≤ N) (s : St 1) (J : TrapInv T c (6 ^ (N + 5)) k s) :
    ∃ s', step (trapP c) T (X.fin (6 ^ (N + 5))) s = .next s' ∧
      TrapInv T c (6 ^ (N + 5)) (k + 1) s' := by
  obtain ⟨I, j1, j2, j3, j4, j5, j6, t, h, v, ht, hh, ht0, htk, hh0, hhk, hy, hv⟩ := J
  have hk6 : (6 : ℝ) ^ k ≤ 6 ^ N := pow_le_pow_right₀ (by norm_num) hk
  have hk1 : (1 : ℝ) ≤ 6 ^ k := one_le_pow₀ (by norm_num)
  have hte : (6 : ℝ) ^ (N + 5) = 7776 * 6 ^ N := by rw [pow_add]; norm_num; ring
  have hk2 : (6 : ℝ) ^ (k + 1) = 6 * 6 ^ k := by rw [pow_succ]; ring
  generalize hted : (6 : ℝ) ^ (N + 5) = te at *
  obtain ⟨s1, s', err, h', H⟩ := step_rho0 (trapP c) T te 0 (fun _ => X.fin 0) _ _ I t h ht hh
    (by linarith) hh0 (by unfold eigUsed; rw [if_neg (by omega)]; exact j3)
  rcases H with ⟨hs', D, e1, e2, e3, e4, e5⟩ | H
  swap
  · exfalso; norm_num at H; linarith
  refine ⟨s', hs', step_inv _ T te 0 _ _ _ _ I hs', ?_⟩
  rw [if_neg (by norm_num; linarith)] at e1
  subst e1
  -- the value reached by the recurrence
  obtain ⟨g, hg, hg0, hgc⟩ : ∃ g, (fun i => s.heap s.y i + X.fin h' * T.recf 1 *
      (trapP c).F (s.heap s.y) i) = (fun _ => X.fin g) ∧ g ≠ 0 ∧ g ≠ c := by
    rcases hv with ⟨hv, hlt1⟩ | ⟨hv, hvc⟩
    · subst hv
      refine ⟨h' * c, ?_, ?_, ?_⟩
      · rw [hy, hc]; simp [trapP]
      · have : 0 < h' := lt_of_lt_of_le (by norm_num) hh0
        exact mul_ne_zero this.ne' hc0
      · intro he
        have : (h' - 1) * c = 0 := by linarith
        rcases mul_eq_zero.1 this with h0 | h0
        · linarith
        · exact hc0 h0
    · refine ⟨v, ?_, hv, hvc⟩
      rw [hy, hc]; simp [trapP, hv, hvc]
  have hF : (trapP c).F (fun _ => X.fin g) = fun _ => X.fin 0 := by simp [trapP, hg0, hgc]
  have herr := D.errEq
  have hac := D.accept
  rw [e2, e3, e4] at herr hac
  have hat : s.atol = X.fin 1e-5 := by
    rw [I.tol.1]; simp [zeroStart, start, zeroObj, fresh]; norm_num
  have hrt : s.rtol = X.fin 1e-5 := by
    rw [I.tol.2]; simp [zeroStart, start, zeroObj, fresh]; norm_num
  obtain ⟨q1, q2, q3, q4, q5, q6, q7, q8⟩ := finite_formula hT 1 1 1
  obtain ⟨z1, z2⟩ := stages_zero (trapP c).F (formulaOf T 1 1 1) h' (s.heap s.y) g 1e-5 1e-5
    (by norm_num) (by norm_num) (by rw [formula_deg1]; exact hg) hF q1 q2 q3 q4 q5 q6 q7 q8
  rw [hat, hrt, z2] at herr
  have hacc : err < 1.0 := by rw [herr, X.ofSci_eq, X.fin_lt]; norm_num
  obtain ⟨a1, a2, a3, a4, a5, a6, a7, a8, a9, a10, a11, a12, hn, b1, b2, b3, b4, b5⟩ := hac hacc
  have b6 := b5 herr j4
  have hep := D.errp
  rw [if_pos hacc, herr] at hep
  refine ⟨by rw [a10]; omega, ?_, e5, ?_, ?_, ?_, t + h', hn, g, a1, b1, by linarith, ?_, ?_, ?_, ?_,
    Or.inr ⟨hg0, hgc⟩⟩
  · rw [D.rho.1, (D.chosen.rho1 (by omega)).2, j2]
  · rw [hep]; norm_num
  · rw [D.nsteps, j5]; push_cast; ring
  · rw [a2, j6]; push_cast; ring
  · rw [hk2]; linarith
  · rcases b6 with b6 | b6
    · rw [b6]; norm_num; linarith
    · linarith
  · rw [hk2]; norm_num at b4; linarith
  · rw [a4, z1]

/-- a problem at rest: derivative and spectral radius vanish. -/
noncomputable def restP : Problem 1 where
  F := fun _ _ => X.fin 0
  rho := fun _ => X.fin 0

/-- integrating a problem at rest over `[0,1]` with proposed step 1 takes one step. -/
theorem rest_returns (T : Tables) (hT : T.Finite) :
    ∃ s', step restP T (X.fin 1) (zeroStart restP 1) = .next s' ∧
      step restP T (X.fin 1) s' = .ret s' ∧ s'.nacc = 1 ∧ s'.t = X.fin 1 := by
  have I := zeroStart_inv restP T 1 1 (by linarith)
  obtain ⟨s1, s', err, hh, H⟩ := step_rho0 restP T 1 0 (fun _ => X.fin 0) _ _ I 0 1 rfl rfl
    (by linarith) (by norm_num) rfl
  rcases H with ⟨hs', D, e1, e2, e3, e4, e5⟩ | H
  swap
  · norm_num at H
  have e1 : hh = 1 := by rw [e1]; norm_num
  subst e1
  obtain ⟨g, hg⟩ : ∃ g, (fun i => (zeroStart restP 1).heap (zeroStart restP 1).y i +
      X.fin 1 * T.recf 1 * restP.F ((zeroStart restP 1).heap (zeroStart restP 1).y) i) =
      (fun _ => X.fin g) := by
    obtain ⟨c, hc⟩ := hT.recf 1
    refine ⟨0, ?_⟩
    rw [hc]
    funext i
    simp [zeroStart, start, zeroObj, fresh, upd, restP]
  have herr := D.errEq
  have hac := D.accept
  rw [e2, e3, e4] at herr hac
  have hat : (zeroStart restP 1).atol = X.fin 1e-5 := by
    simp [zeroStart, start, zeroObj, fresh]; norm_num
  have hrt : (zeroStart restP 1).rtol = X.fin 1e-5 := by
    simp [zeroStart, start, zeroObj, fresh]; norm_num
  obtain ⟨q1, q2, q3, q4, q5, q6, q7, q8⟩ := finite_formula hT 1 1 1
  obtain ⟨z1, z2⟩ := stages_zero restP.F (formulaOf T 1 1 1) 1
    ((zeroStart restP 1).heap (zeroStart restP 1).y) g 1e-5 1e-5
    (by norm_num) (by norm_num) (by rw [formula_deg1]; exact hg) rfl q1 q2 q3 q4 q5 q6 q7 q8
  rw [hat, hrt, z2] at herr
  have hacc : err < 1.0 := by rw [herr, X.ofSci_eq, X.fin_lt]; norm_num
  obtain ⟨a1, a2, -⟩ := hac hacc
  have a1' : s'.t = X.fin 1 := by rw [a1]; norm_num
  refine ⟨s', hs', ?_, by rw [a2]; rfl, a1'⟩
  rw [step, a1', if_neg (by simp)]

end Odes.Rock4
