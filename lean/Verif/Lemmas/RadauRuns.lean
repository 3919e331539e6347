import Verif.Lemmas.RadauScalar
import Verif.Lemmas.RadauSizes
import Verif.Lemmas.RadauLoop

/-! Concrete runs of Radau5 on scalar problems. -/

namespace Odes.Radau

open Classical

/-- the default object with another maximal number of Newton iterations, and possibly in one-step
mode; both internal tolerances are 0.1. -/
noncomputable def wcfg (nit : ℤ) (one : Bool) : Cfg 1 :=
  ({ Settings.default 0.1 with nit := nit, onlyOneStep := one }).cfg (fun _ => 0.1) (fun _ => 0.1)

theorem wcfg_par (nit : ℤ) (one : Bool) : Par (wcfg nit one) 1.0e-16 0.03 where
  eqc := rfl
  equ := X.ofSci_eq _ _ _
  upos := by norm_num
  eqf := by
    show fnewtDefault 1.0e-16 0.1 = _
    unfold fnewtDefault
    have e1 : (0.03 : X) = .fin 0.03 := X.ofSci_eq _ _ _
    have e2 : (0.1 : X) = .fin 0.1 := X.ofSci_eq _ _ _
    have e3 : (1.0e-16 : X) = .fin 1.0e-16 := X.ofSci_eq _ _ _
    have e4 : (10 : X) = .fin 10 := X.ofNat_eq 10
    have hs : (0.03 : ℝ) ≤ Real.sqrt 0.1 := Real.le_sqrt_of_sq_le (by norm_num)
    rw [e1, e2, e3, e4, X.fin_mul, X.fin_div _ _ (by norm_num), X.sqrt_fin_nonneg (by norm_num),
      X.MIN_fin, X.MAX_fin, min_eq_left hs, max_eq_right (by norm_num)]
  fpos := by norm_num

theorem wcfg_std (nit : ℤ) (one : Bool) (hn : 1 ≤ nit) : Std (wcfg nit one) 0.9 1.0e-16 where
  safe := X.ofSci_eq _ _ _
  safe_pos := by norm_num
  safe_lt := by norm_num
  nit := hn
  quot1 := (X.ofSci_eq _ _ _).trans (by norm_num)
  uround := X.ofSci_eq _ _ _
  uround_pos := by norm_num

theorem wcfg_scal (nit : ℤ) (one : Bool) {Y : Fin 1 → X} (hY : Y 0 = .fin 0) :
    doScal (wcfg nit one) Y 0 = .fin 0.1 := by
  show (0.1 : X) + 0.1 * X.ABS (Y 0) = _
  have e2 : (0.1 : X) = .fin 0.1 := X.ofSci_eq _ _ _
  rw [hY, e2, X.ABS_fin, X.fin_mul, X.fin_add]
  norm_num

variable {g : Cfg 1} {f : X → X} {u fn : ℝ}

/-- from the entry to the first attempt. -/
theorem start (hg : Par g u fn) (h0 : 0 ≤ g.nmax) {s : St 1 Sc} (hp : s.phase = .init) {h : ℝ}
    (hne : h ≠ 0) (hh : (entered (L := scalar) (ofTime f) g s).h = .fin h) :
    Reach (step scalar (ofTime f) g) s
      { begun scalar (ofTime f) g s (scJ h) with phase := .attempt } := by
  refine Reach.tail (Reach.tail (Reach.refl _ _) (u := begun scalar (ofTime f) g s (scJ h)) ?_) ?_
  · rw [step_init hp]
    unfold init withMatrices
    have e : newtonMatrices scalar g.c (newJac scalar (ofTime f) g (entered (ofTime f) g s)).h
        (newJac scalar (ofTime f) g (entered (ofTime f) g s)).jac = some (scJ h) := by
      have : (newJac scalar (ofTime f) g (entered (L := scalar) (ofTime f) g s)).h = .fin h := hh
      rw [this]
      exact scalar_matrices hg.eqc hne _ X.zero_eq
    rw [e]
    rfl
  · rw [step_check rfl]
    exact if_neg (by show ¬ (0 : ℤ) > g.nmax; omega)

/-- first step size, when the caller's value reaches the end. -/
theorem entered_over (hg : Par g u fn) {P : Prob X 1} {s : St 1 Sc} {x0 xe : ℝ} (hx : x0 < xe)
    (hs : AtInit (L := scalar) x0 xe s) {r : ℝ} (hr : s.h = .fin r) (h1 : 10 * u ≤ |r|)
    (h2 : xe - x0 ≤ |r|) :
    (entered (L := scalar) P g s).h = .fin (xe - x0) ∧ (entered (L := scalar) P g s).last = true ∧
    (entered (L := scalar) P g s).hopt = s.hopt := by
  obtain ⟨ep, em⟩ := entered_dir hx hs
  have e10 : (10.0 : X) = .fin 10 := (X.ofSci_eq _ _ _).trans (by norm_num)
  have e0 : (0.0 : X) = .fin 0 := (X.ofSci_eq _ _ _).trans (by norm_num)
  have e11 : (1.0001 : X) = .fin 1.0001 := X.ofSci_eq _ _ _
  have hc : ¬ X.ABS s.h < 10.0 * g.uround := by
    rw [hr, hg.equ, e10, X.fin_mul, X.ABS_fin, X.fin_lt]; linarith
  have ev : X.MIN (X.ABS (if X.ABS s.h < 10.0 * g.uround then 1.0e-6 else s.h))
      (X.MIN (X.ABS (s.xend - s.x)) (X.ABSsub s.xend s.x)) * X.SIGN (s.xend - s.x)
      = .fin (xe - x0) := by
    rw [if_neg hc, em, ep, hr, X.ABS_fin, X.MIN_fin, X.fin_mul, min_eq_right h2, mul_one]
  have ho : 0.0 < (s.x + X.MIN (X.ABS (if X.ABS s.h < 10.0 * g.uround then 1.0e-6 else s.h))
      (X.MIN (X.ABS (s.xend - s.x)) (X.ABSsub s.xend s.x)) * X.SIGN (s.xend - s.x)
      * 1.0001 - s.xend) * X.SIGN (s.xend - s.x) := by
    rw [ev, ep, hs.x, hs.xend, e0, e11, X.fin_mul, X.fin_add, X.fin_sub, X.fin_mul, X.fin_lt]
    nlinarith
  refine ⟨(if_pos ho).trans ?_, if_pos ho, if_pos ho⟩
  rw [hs.x, hs.xend, X.fin_sub]

/-- first step size, when the caller's value does not reach the end. -/
theorem entered_inside (hg : Par g u fn) {P : Prob X 1} {s : St 1 Sc} {x0 xe : ℝ} (hx : x0 < xe)
    (hs : AtInit (L := scalar) x0 xe s) {r : ℝ} (hr : s.h = .fin r) (h1 : 10 * u ≤ r)
    (h2 : x0 + r * 1.0001 ≤ xe) :
    (entered (L := scalar) P g s).h = .fin r ∧ (entered (L := scalar) P g s).last = false ∧
    (entered (L := scalar) P g s).hopt = .fin r := by
  obtain ⟨ep, em⟩ := entered_dir hx hs
  have e10 : (10.0 : X) = .fin 10 := (X.ofSci_eq _ _ _).trans (by norm_num)
  have e0 : (0.0 : X) = .fin 0 := (X.ofSci_eq _ _ _).trans (by norm_num)
  have e11 : (1.0001 : X) = .fin 1.0001 := X.ofSci_eq _ _ _
  have r0 : 0 ≤ r := by have := hg.upos; linarith
  have hc : ¬ X.ABS s.h < 10.0 * g.uround := by
    rw [hr, hg.equ, e10, X.fin_mul, X.ABS_fin, X.fin_lt, abs_of_nonneg r0]; linarith
  have ev : X.MIN (X.ABS (if X.ABS s.h < 10.0 * g.uround then 1.0e-6 else s.h))
      (X.MIN (X.ABS (s.xend - s.x)) (X.ABSsub s.xend s.x)) * X.SIGN (s.xend - s.x)
      = .fin r := by
    rw [if_neg hc, em, ep, hr, X.ABS_fin, X.MIN_fin, X.fin_mul, abs_of_nonneg r0,
      min_eq_left (by linarith), mul_one]
  have ho : ¬ 0.0 < (s.x + X.MIN (X.ABS (if X.ABS s.h < 10.0 * g.uround then 1.0e-6 else s.h))
      (X.MIN (X.ABS (s.xend - s.x)) (X.ABSsub s.xend s.x)) * X.SIGN (s.xend - s.x)
      * 1.0001 - s.xend) * X.SIGN (s.xend - s.x) := by
    rw [ev, ep, hs.x, hs.xend, e0, e11, X.fin_mul, X.fin_add, X.fin_sub, X.fin_mul, X.fin_lt]
    linarith
  exact ⟨(if_neg ho).trans ev, if_neg ho, (if_neg ho).trans ev⟩

theorem kst_one {u : ℝ} (hu : u ≤ 1) : kst 1 u = 1 := by
  unfold kst
  rw [max_eq_left hu, Real.one_rpow]

theorem back_zero (hg : Par g u fn) : back g.c (tri 0 0 0) = tri 0 0 0 := by
  rw [back_tri hg.eqc]; simp

theorem ddz_zero : ddz 0 0 0 = 0 := by unfold ddz; simp

/-- a step whose stages all vanish reaches the error test with the stage values 0. -/
theorem zero_step (hg : Par g u fn) (hn : g.nit ≠ 1) {s : St 1 Sc} {x h k sc : ℝ}
    (hs : Ready s x h k sc) (hA : Stages f x (x + h) h 0 0 0) :
    Reach (step scalar (ofTime f) g) s
      { it1 g f s with redonewton := false, reason := .converged, phase := .tail } ∧
    (it1 g f s).Z = tri 0 0 0 := by
  obtain ⟨e1, e2, e3⟩ := zero_d h
  constructor
  · refine go1 hg hn hs hA ?_
    rw [e1, e2, e3, nrm_zero, mul_zero]
    exact hg.fpos
  · rw [it1_Z hg hs hA, e1, e2, e3, back_zero hg]

/-- the end of the last step. -/
theorem step_last {n : ℕ} {L : Lin X n} {P : Prob X n} {g : Cfg n} {s : St n L.σ}
    (hp : s.phase = .tail) (he : errNow L P g s < 1.0) (ho : g.onlyOneStep = false)
    (hl : s.last = true) : step L P g s = .ret { acc L P g s with h := s.hopt } := by
  rw [step_tail hp, tail_eq, if_pos he, if_neg (by rw [ho]; simp), if_pos (Or.inl hl)]

/-- a time dependent right hand side which is `d` after the time `c` and 0 before. -/
noncomputable def after (c d : ℝ) : X → X
  | .fin t => if c < t then .fin d else .fin 0
  | _ => .fin 0

theorem after_of_lt {c d t : ℝ} (h : c < t) : after c d (.fin t) = .fin d := if_pos h
theorem after_of_le {c d t : ℝ} (h : t ≤ c) : after c d (.fin t) = .fin 0 := if_neg (not_lt.2 h)

theorem C1_bounds : 0.15 ≤ consts.C1 ∧ consts.C1 ≤ 0.16 := by
  have e : consts.C1 = (4 - Real.sqrt 6) / 10 := rfl
  obtain ⟨a, b⟩ := sqrt6
  rw [e]; constructor <;> linarith
theorem C2_bounds : 0.64 ≤ consts.C2 ∧ consts.C2 ≤ 0.65 := by
  have e : consts.C2 = (4 + Real.sqrt 6) / 10 := rfl
  obtain ⟨a, b⟩ := sqrt6
  rw [e]; constructor <;> linarith

/-- the stages of a step which ends after `c` while the other nodes are before. -/
theorem after_stages {c d x h : ℝ} (h1 : x + 0.65 * h ≤ c) (h2 : c < x + h) :
    Stages (after c d) x (x + h) h 0 0 d := by
  obtain ⟨a1, a2⟩ := C1_bounds
  obtain ⟨b1, b2⟩ := C2_bounds
  exact ⟨after_of_le (by nlinarith), after_of_le (by nlinarith), after_of_lt h2⟩

/-- the stages of a step which ends before `c`. -/
theorem before_stages {c d x h : ℝ} (h2 : x + h ≤ c) (hh : 0 ≤ h) :
    Stages (after c d) x (x + h) h 0 0 0 := by
  obtain ⟨a1, a2⟩ := C1_bounds
  obtain ⟨b1, b2⟩ := C2_bounds
  exact ⟨after_of_le (by nlinarith), after_of_le (by nlinarith), after_of_le h2⟩

/-- call with `y = 0` -/
noncomputable def at0 (o : St 1 Sc) (h x xe : ℝ) : St 1 Sc :=
  call (L := scalar) o (.fin h) (.fin x) (.fin xe) (fun _ => .fin 0)

theorem at0_init (o : St 1 Sc) (h x xe : ℝ) : AtInit (L := scalar) x xe (at0 o h x xe) :=
  ⟨rfl, rfl, rfl⟩

/-- the first attempt of a call from 0 to 1. -/
theorem begin01 (nit : ℤ) (one : Bool) {o : St 1 Sc} {k : ℝ} (hk : o.faccon = .fin k) (f : X → X) :
    ∃ s : St 1 Sc, Reach (step scalar (ofTime f) (wcfg nit one)) (at0 o 1 0 1) s ∧
      Ready s 0 1 k 0.1 ∧ s = { begun scalar (ofTime f) (wcfg nit one) (at0 o 1 0 1) (scJ 1) with
        phase := .attempt } ∧ s.last = true ∧ s.hopt = o.hopt ∧ s.first = true := by
  obtain ⟨e1, e2, e3⟩ := entered_over (P := ofTime f) (wcfg_par nit one) (by norm_num : (0 : ℝ) < 1)
    (at0_init o 1 0 1) (r := 1) rfl (by norm_num) (by norm_num)
  rw [sub_zero] at e1
  refine ⟨_, start (wcfg_par nit one) (by show (0 : ℤ) ≤ 10000; decide) rfl one_ne_zero e1, ?_, rfl,
    e2, e3, rfl⟩
  refine ⟨rfl, rfl, e1, one_ne_zero, rfl, hk, ?_, by norm_num, Or.inl rfl⟩
  exact wcfg_scal nit one rfl

theorem one_lit : (1.0 : X) = .fin 1 := (X.ofSci_eq _ _ _).trans (by norm_num)

/-- `F = 0`: one step of size 1, and the returned step size is what the object contained. -/
theorem zero_run (o : St 1 Sc) {k : ℝ} (hk : o.faccon = .fin k) :
    ∃ t, Returns (step scalar (ofTime fun _ => .fin 0) (wcfg 7 false)) (at0 o 1 0 1) t ∧
      t.h = o.hopt ∧ t.x = .fin 1 ∧ t.naccpt = 1 := by
  obtain ⟨s, r1, hs, es, l1, l2, l3⟩ := begin01 7 false hk (fun _ => .fin 0)
  obtain ⟨r2, eZ⟩ := zero_step (f := fun _ => .fin 0) (wcfg_par 7 false)
    (by show (7 : ℤ) ≠ 1; decide) hs ⟨rfl, rfl, rfl⟩
  obtain ⟨ee, -⟩ := est_eq (f := fun _ => .fin 0) (wcfg_par 7 false)
    (s := { it1 (wcfg 7 false) (fun _ => .fin 0) s with
      redonewton := false, reason := .converged, phase := .tail })
    hs.hne hs.eqh hs.jac eZ (y := 0) (by subst es; rfl) rfl hs.eqs hs.spos
  refine ⟨_, Reach.returns (r1.trans r2) (step_last rfl ?_ rfl l1), ?_, ?_, ?_⟩
  · rw [ee, ddz_zero, one_lit, X.fin_lt]; norm_num
  · exact l2
  · show s.x + s.h = _
    rw [hs.eqx, hs.eqh, X.fin_add, zero_add]
  · subst es; rfl

theorem kst_le_one {u : ℝ} (h0 : 0 < u) (hu : u ≤ 1) : kst 1 u = 1 ∧ kst 0 u ≤ 0.001 ∨ 1.0e-12 < u := by
  by_cases h : 1.0e-12 < u
  · exact Or.inr h
  · refine Or.inl ⟨kst_one hu, ?_⟩
    unfold kst
    rw [max_eq_right h0.le]
    calc u ^ (0.8 : ℝ) ≤ (1.0e-12 : ℝ) ^ (0.8 : ℝ) :=
          Real.rpow_le_rpow h0.le (not_lt.1 h) (by norm_num)
      _ ≤ (1.0e-12 : ℝ) ^ (1 / 2 : ℝ) :=
          Real.rpow_le_rpow_of_exponent_ge (by norm_num) (by norm_num) (by norm_num)
      _ = Real.sqrt 1.0e-12 := (Real.sqrt_eq_rpow _).symm
      _ ≤ 0.001 := Real.sqrt_le_iff.2 ⟨by norm_num, by norm_num⟩

theorem kst_zero : kst 0 1.0e-16 ≤ 0.001 := by
  rcases kst_le_one (u := 1.0e-16) (by norm_num) (by norm_num) with h | h
  · exact h.2
  · norm_num at h

theorem spike_nrm_le {h d sc : ℝ} (hh : 0 ≤ h) (hd : 0 ≤ d) (sc0 : 0 < sc) :
    nrm sc (d1 h 0 0 d) (d2 h 0 0 d) (d3 h 0 0 d) ≤ 0.25 * (h * d) / sc := by
  obtain ⟨a, b, c⟩ := spike_small hh hd
  have hhd : 0 ≤ h * d := mul_nonneg hh hd
  have ha := sq_le_sq' (abs_le.1 a).1 (abs_le.1 a).2
  have hb := sq_le_sq' (abs_le.1 b).1 (abs_le.1 b).2
  have hc := sq_le_sq' (abs_le.1 c).1 (abs_le.1 c).2
  unfold nrm
  rw [Real.sqrt_le_iff]
  refine ⟨by positivity, ?_⟩
  rw [div_pow, div_right_comm]
  refine div_le_div_of_nonneg_right ?_ (by positivity)
  rw [div_le_iff₀ (by norm_num)]
  linarith

/-- the estimate for the stages of a spike is small. -/
theorem spike_err {h d sc w : ℝ} (hh : 0 ≤ h) (hd : 0 ≤ d) (hw : 1.25 * (h * d) < 3 * sc)
    (sc0 : 0 < sc) (a b c : ℝ) (ha : a = d1 h 0 0 d) (hb : b = d2 h 0 0 d) (hc : c = d3 h 0 0 d) :
    max (|(ddz (consts.T11 * a + consts.T12 * b + consts.T13 * c)
      (consts.T21 * a + consts.T22 * b + consts.T23 * c) (consts.T31 * a + b) + w * 0)
        / consts.U1| / sc) 1.0e-10 < 1 := by
  obtain ⟨u1, u2⟩ := U1_bounds
  obtain ⟨s1, s2, s3⟩ := spike_small hh hd
  have hz := spike_ddz hh hd s1 s2 s3
  rw [← ha, ← hb, ← hc] at hz
  refine max_lt ?_ (by norm_num)
  rw [mul_zero, add_zero, abs_div, abs_of_pos (by linarith : 0 < consts.U1), div_lt_one sc0,
    div_lt_iff₀ (by linarith)]
  nlinarith

/-- `nit = 2`, right hand side 0 before 0.9 and 1 after: the Newton loop of the first attempt
(`h = 1`) is exhausted, the step is halved, `last` is still set, and the integration stops at 0.5. -/
theorem early_run (o : St 1 Sc) (hk : o.faccon = .fin 1) :
    ∃ t, Returns (step scalar (ofTime (after 0.9 1)) (wcfg 2 false)) (at0 o 1 0 1) t ∧
      t.x = .fin 0.5 := by
  have hg := wcfg_par 2 false
  obtain ⟨s, r1, hs, es, l1, l2, l3⟩ := begin01 2 false hk (after 0.9 1)
  have hA : Stages (after 0.9 1) 0 (0 + 1) 1 0 0 1 := after_stages (by norm_num) (by norm_num)
  have hd : (0.03 : ℝ) ≤ kst 1 1.0e-16 * nrm 0.1 (d1 1 0 0 1) (d2 1 0 0 1) (d3 1 0 0 1) := by
    rw [kst_one (by norm_num), one_mul]
    refine le_trans ?_ (spike_nrm (by norm_num) (by norm_num) (by norm_num))
    norm_num
  obtain ⟨nj, cj, r2⟩ := go_dnc hg rfl hs hA hd
  set w := it2 (wcfg 2 false) (after 0.9 1) s (it1 (wcfg 2 false) (after 0.9 1) s).faccon
    (it1 (wcfg 2 false) (after 0.9 1) s).theta (it1 (wcfg 2 false) (after 0.9 1) s).thqold with hw
  have hw : Ready { w with
        h := .fin (1 / 2), dnc := true, reason := .didNotConverge, jac := scJ (1 / 2)
        ndec := s.ndec + 1, scal := doScal (wcfg 2 false) s.Y, newt := 0, njac := nj, caljac := cj
        phase := if s.redonewton then .attempt else .tail } 0 (1 / 2) (kst 1 1.0e-16) 0.1 := by
    refine ⟨if_pos (by subst es; rfl), hs.eqx, rfl, by norm_num, rfl, attempt_faccon hg hs.eqk, ?_,
      by norm_num, Or.inl ?_⟩
    · exact wcfg_scal 2 false (by subst es; rfl)
    · subst es; rfl
  obtain ⟨r3, eZ⟩ := zero_step (f := after 0.9 1) hg (by show (2 : ℤ) ≠ 1; decide) hw
    (before_stages (by norm_num) (by norm_num))
  obtain ⟨ee, -⟩ := est_eq (f := after 0.9 1) hg (s := { it1 (wcfg 2 false) (after 0.9 1) { w with
        h := .fin (1 / 2), dnc := true, reason := .didNotConverge, jac := scJ (1 / 2)
        ndec := s.ndec + 1, scal := doScal (wcfg 2 false) s.Y, newt := 0, njac := nj, caljac := cj
        phase := if s.redonewton then .attempt else .tail } with
          redonewton := false, reason := .converged, phase := .tail })
    hw.hne hw.eqh hw.jac eZ (y := 0)
    (by
      have : s.y0 = fun _ => .fin 0 := by
        subst es
        funext i
        exact after_of_le (by norm_num)
      exact this)
    (by
      show after 0.9 1 s.x = _
      rw [hs.eqx]; exact after_of_le (by norm_num)) hw.eqs hw.spos
  refine ⟨_, Reach.returns ((r1.trans r2).trans r3) (step_last rfl ?_ rfl l1), ?_⟩
  · rw [ee, ddz_zero, one_lit, X.fin_lt]; norm_num
  · show s.x + X.fin (1 / 2) = _
    rw [hs.eqx, X.fin_add]; norm_num

/-- right hand side 0 before 0.9 and 0.1 after: with `faccon = 1` the first Newton loop needs two
iterations and leaves `faccon = 0` in the object. -/
theorem first_call (o : St 1 Sc) (hk : o.faccon = .fin 1) :
    ∃ t, Returns (step scalar (ofTime (after 0.9 0.1)) (wcfg 7 false)) (at0 o 1 0 1) t ∧
      t.faccon = .fin 0 ∧ t.nfonccalled = 7 ∧ t.naccpt = 1 := by
  have hg := wcfg_par 7 false
  obtain ⟨s, r1, hs, es, l1, l2, l3⟩ := begin01 7 false hk (after 0.9 0.1)
  have hA : Stages (after 0.9 0.1) 0 (0 + 1) 1 0 0 0.1 := after_stages (by norm_num) (by norm_num)
  have hd : (0.03 : ℝ) ≤ kst 1 1.0e-16 * nrm 0.1 (d1 1 0 0 0.1) (d2 1 0 0 0.1) (d3 1 0 0 0.1) := by
    rw [kst_one (by norm_num), one_mul]
    refine le_trans ?_ (spike_nrm (by norm_num) (by norm_num) (by norm_num))
    norm_num
  have r2 := go2 hg (by show (3 : ℤ) ≤ 7; decide) hs hA hd
  obtain ⟨ee, -⟩ := est_eq (f := after 0.9 0.1) hg
    (s := { it2 (wcfg 7 false) (after 0.9 0.1) s (.fin 0) (.fin 0) (.fin 0) with
      redonewton := false, reason := .converged, phase := .tail })
    hs.hne hs.eqh hs.jac ((it2_Z hg hs hA (.fin 0) (.fin 0) (.fin 0)).trans (back_tri hg.eqc _ _ _)) (y := 0)
    (by
      have : s.y0 = fun _ => .fin 0 := by
        subst es
        funext i
        exact after_of_le (by norm_num)
      exact this)
    (by
      show after 0.9 0.1 s.x = _
      rw [hs.eqx]; exact after_of_le (by norm_num)) hs.eqs hs.spos
  refine ⟨_, Reach.returns (r1.trans r2) (step_last rfl ?_ rfl l1), rfl, ?_, ?_⟩
  · rw [ee, one_lit, X.fin_lt]
    exact spike_err (by norm_num) (by norm_num) (by norm_num) (by norm_num) _ _ _ rfl rfl rfl
  · subst es; rfl
  · subst es; rfl

/-- the same call with `faccon = 0`: one Newton iteration. -/
theorem second_call (o : St 1 Sc) (hk : o.faccon = .fin 0) :
    ∃ t, Returns (step scalar (ofTime (after 0.9 0.1)) (wcfg 7 false)) (at0 o 1 0 1) t ∧
      t.nfonccalled = 4 ∧ t.naccpt = 1 := by
  have hg := wcfg_par 7 false
  obtain ⟨s, r1, hs, es, l1, l2, l3⟩ := begin01 7 false hk (after 0.9 0.1)
  have hA : Stages (after 0.9 0.1) 0 (0 + 1) 1 0 0 0.1 := after_stages (by norm_num) (by norm_num)
  have hd : kst 0 1.0e-16 * nrm 0.1 (d1 1 0 0 0.1) (d2 1 0 0 0.1) (d3 1 0 0 0.1) < 0.03 := by
    have h1 := spike_nrm_le (h := 1) (d := 0.1) (sc := 0.1) (by norm_num) (by norm_num) (by norm_num)
    have h2 := nrm_nonneg 0.1 (d1 1 0 0 0.1) (d2 1 0 0 0.1) (d3 1 0 0 0.1)
    have h3 := kst_zero
    norm_num at h1
    nlinarith
  have r2 := go1 hg (by show (7 : ℤ) ≠ 1; decide) hs hA hd
  obtain ⟨ee, -⟩ := est_eq (f := after 0.9 0.1) hg
    (s := { it1 (wcfg 7 false) (after 0.9 0.1) s with
      redonewton := false, reason := .converged, phase := .tail })
    hs.hne hs.eqh hs.jac ((it1_Z hg hs hA).trans (back_tri hg.eqc _ _ _)) (y := 0)
    (by
      have : s.y0 = fun _ => .fin 0 := by
        subst es
        funext i
        exact after_of_le (by norm_num)
      exact this)
    (by
      show after 0.9 0.1 s.x = _
      rw [hs.eqx]; exact after_of_le (by norm_num)) hs.eqs hs.spos
  refine ⟨_, Reach.returns (r1.trans r2) (step_last rfl ?_ rfl l1), ?_, ?_⟩
  · rw [ee, one_lit, X.fin_lt]
    exact spike_err (by norm_num) (by norm_num) (by norm_num) (by norm_num) _ _ _ rfl rfl rfl
  · subst es; rfl
  · subst es; rfl

/-- a right hand side which is `d` at the time 0 and 0 elsewhere. -/
noncomputable def at0only (d : X) : X → X
  | .fin t => if t = 0 then d else .fin 0
  | _ => .fin 0

theorem at0only_zero (d : X) : at0only d (.fin 0) = d := if_pos rfl
theorem at0only_ne {d : X} {t : ℝ} (h : t ≠ 0) : at0only d (.fin t) = .fin 0 := if_neg h

theorem at0only_stages (d : X) {h : ℝ} (h0 : 0 < h) : Stages (at0only d) 0 (0 + h) h 0 0 0 := by
  obtain ⟨a1, a2⟩ := C1_bounds
  obtain ⟨b1, b2⟩ := C2_bounds
  exact ⟨at0only_ne (by nlinarith), at0only_ne (by nlinarith), at0only_ne (by linarith)⟩

/-- NaN at the initial time: the step is accepted. -/
theorem nan_run (o : St 1 Sc) {k : ℝ} (hk : o.faccon = .fin k) :
    ∃ s, Reach (step scalar (ofTime (at0only .nan)) (wcfg 7 false)) (at0 o 1 0 1) s ∧
      s.phase = .tail ∧
      scalar.solvereal s.jac (fun i => errF2 (wcfg 7 false).c s.h s.Z i + s.y0 i) 0 = .nan ∧
      ∃ t, step scalar (ofTime (at0only .nan)) (wcfg 7 false) s = .ret t ∧ t.x = .fin 1 := by
  have hg := wcfg_par 7 false
  obtain ⟨s, r1, hs, es, l1, l2, l3⟩ := begin01 7 false hk (at0only .nan)
  obtain ⟨r2, eZ⟩ := zero_step (f := at0only .nan) hg (by show (7 : ℤ) ≠ 1; decide) hs
    (at0only_stages _ one_pos)
  have ev : scalar.solvereal s.jac (fun i => errF2 (wcfg 7 false).c s.h
      (it1 (wcfg 7 false) (at0only .nan) s).Z i + s.y0 i) = fun _ => .nan := by
    funext i
    show (errF2 (wcfg 7 false).c s.h (it1 (wcfg 7 false) (at0only .nan) s).Z i + s.y0 i)
      / s.jac.fac = .nan
    have : s.y0 i = .nan := by subst es; exact at0only_zero _
    rw [this, X.add_nan, X.nan_div]
  refine ⟨_, r1.trans r2, rfl, congrFun ev 0, _, step_last rfl ?_ rfl l1, ?_⟩
  · have e10 : (1.0e-10 : X) = .fin 1.0e-10 := X.ofSci_eq _ _ _
    have en : errNorm s.scal (fun _ => .nan) = .fin 1.0e-10 := by
      unfold errNorm
      have hl : List.finRange 1 = [0] := by decide
      rw [hl]
      simp only [List.foldl_cons, List.foldl_nil]
      have : X.pow (.nan / s.scal 0) 2 = .nan := by
        rw [X.nan_div]; unfold X.pow; rw [if_neg (by norm_num)]
      rw [this, X.add_nan, X.nan_mul, X.sqrt_nan, e10]
      unfold X.MAX
      rw [if_neg (X.not_lt_nan _)]
    have ee : errNow scalar (ofTime (at0only .nan)) (wcfg 7 false)
        { it1 (wcfg 7 false) (at0only .nan) s with
          redonewton := false, reason := .converged, phase := .tail } = .fin 1.0e-10 := by
      unfold errNow estrad
      dsimp only
      have ev' : (fun i => (errF2 (wcfg 7 false).c (it1 (wcfg 7 false) (at0only .nan) s).h
        (it1 (wcfg 7 false) (at0only .nan) s).Z i + (it1 (wcfg 7 false) (at0only .nan) s).y0 i)
        / (it1 (wcfg 7 false) (at0only .nan) s).jac.fac) = fun _ => .nan := ev
      have en' : errNorm (it1 (wcfg 7 false) (at0only .nan) s).scal (fun _ => .nan)
        = .fin 1.0e-10 := en
      rw [ev', en', if_neg]
      rintro ⟨h, -⟩
      rw [one_lit, X.fin_le] at h
      norm_num at h
    rw [ee, one_lit, X.fin_lt]; norm_num
  · show s.x + s.h = _
    rw [hs.eqx, hs.eqh, X.fin_add, zero_add]

/-- the right hand side is 10 at the initial time, 0 elsewhere; one-step mode.  The first attempt is
rejected after a second evaluation in `estrad`, which is not counted. -/
theorem uncounted_run (o : St 1 Sc) {k : ℝ} (hk : o.faccon = .fin k) :
    ∃ t, Returns (step scalar (ofTime (at0only (.fin 1))) (wcfg 7 true)) (at0 o 1 0 1) t ∧
      t.nfonccalled = 7 ∧ t.calls = 8 ∧ t.rejs = 1 := by
  have hg := wcfg_par 7 true
  obtain ⟨u1, u2⟩ := U1_bounds
  obtain ⟨s, r1, hs, es, l1, l2, l3⟩ := begin01 7 true hk (at0only (.fin 1))
  obtain ⟨r2, eZ⟩ := zero_step (f := at0only (.fin 1)) hg (by show (7 : ℤ) ≠ 1; decide) hs
    (at0only_stages _ one_pos)
  have hy : s.y0 = fun _ => .fin 1 := by
    subst es
    funext i
    exact at0only_zero _
  have hf : at0only (.fin 1) s.x = .fin 1 := by rw [hs.eqx]; exact at0only_zero _
  generalize hw : ({ it1 (wcfg 7 true) (at0only (.fin 1)) s with
      redonewton := false, reason := .converged, phase := .tail } : St 1 Sc) = w at r2
  have hwZ : w.Z = tri 0 0 0 := by rw [← hw]; exact eZ
  obtain ⟨ee, ec⟩ := est_eq (f := at0only (.fin 1)) hg (s := w)
    hs.hne (by rw [← hw]; exact hs.eqh) (by rw [← hw]; exact hs.jac) hwZ (y := 1)
    (by rw [← hw]; exact hy) (by rw [← hw]; exact hf) (by rw [← hw]; exact hs.eqs) hs.spos
  have hbig : 1 ≤ max (|(ddz 0 0 0 + 1 * 1) / consts.U1| / 0.1) 1.0e-10 := by
    refine le_max_of_le_left ?_
    rw [ddz_zero, zero_add, one_mul, abs_of_pos (by positivity), le_div_iff₀ (by norm_num),
      le_div_iff₀ (by linarith)]
    linarith
  have hfirst : w.first = true := by rw [← hw]; exact l3
  rw [if_pos ⟨hbig, Or.inl hfirst⟩] at ec
  -- rejection
  have hcal : w.caljac = true := by rw [← hw]; subst es; rfl
  have e01 : (0.1 : X) = .fin 0.1 := X.ofSci_eq _ _ _
  have r3 : step scalar (ofTime (at0only (.fin 1))) (wcfg 7 true) w = .next
      { rejectState (wcfg 7 true) (counted scalar (ofTime (at0only (.fin 1))) (wcfg 7 true) w)
        (errNow scalar (ofTime (at0only (.fin 1))) (wcfg 7 true) w) with
        h := .fin 0.1, jac := scJ 0.1, ndec := w.ndec + 1 } := by
    rw [step_tail (by rw [← hw]), tail_eq, if_neg]
    · have e : rejected scalar (ofTime (at0only (.fin 1))) (wcfg 7 true)
          (counted scalar (ofTime (at0only (.fin 1))) (wcfg 7 true) w)
          (errNow scalar (ofTime (at0only (.fin 1))) (wcfg 7 true) w) =
          withMatrices scalar (wcfg 7 true) (refreshJac scalar (ofTime (at0only (.fin 1))) (wcfg 7 true)
            (rejectState (wcfg 7 true) (counted scalar (ofTime (at0only (.fin 1))) (wcfg 7 true) w)
              (errNow scalar (ofTime (at0only (.fin 1))) (wcfg 7 true) w))) .next := rfl
      rw [e]
      unfold refreshJac
      rw [if_pos (by exact hcal)]
      unfold withMatrices
      have eh : (rejectState (L := scalar) (wcfg 7 true)
          (counted scalar (ofTime (at0only (.fin 1))) (wcfg 7 true) w)
          (errNow scalar (ofTime (at0only (.fin 1))) (wcfg 7 true) w)).h = .fin 0.1 := by
        refine (if_pos hfirst).trans ?_
        show w.h * 0.1 = _
        have : w.h = .fin 1 := by rw [← hw]; exact hs.eqh
        rw [this, e01, X.fin_mul, one_mul]
      have ej : newtonMatrices scalar (wcfg 7 true).c (.fin 0.1) w.jac = some (scJ 0.1) :=
        scalar_matrices rfl (by norm_num) _ (by rw [← hw]; show s.jac.J = _; rw [hs.jac]; rfl)
      rw [eh]
      have ej' : newtonMatrices scalar (wcfg 7 true).c (.fin 0.1) (rejectState (L := scalar)
        (wcfg 7 true) (counted scalar (ofTime (at0only (.fin 1))) (wcfg 7 true) w)
          (errNow scalar (ofTime (at0only (.fin 1))) (wcfg 7 true) w)).jac = some (scJ 0.1) := ej
      rw [ej']
      rfl
    · rw [ee, one_lit, X.fin_lt]
      exact not_lt.2 hbig
  generalize hv : ({ rejectState (wcfg 7 true) (counted scalar (ofTime (at0only (.fin 1))) (wcfg 7 true) w)
        (errNow scalar (ofTime (at0only (.fin 1))) (wcfg 7 true) w) with
        h := .fin 0.1, jac := scJ 0.1, ndec := w.ndec + 1 } : St 1 Sc) = v at r3
  have r4 : step scalar (ofTime (at0only (.fin 1))) (wcfg 7 true) v =
      .next { v with phase := .attempt } := by
    rw [step_check (by rw [← hv]; rfl)]
    refine if_neg ?_
    have : v.nstep = 1 := by rw [← hv, ← hw]; subst es; rfl
    rw [this]
    show ¬ (1 : ℤ) > 10000
    decide
  have hv1 : Ready { v with phase := .attempt } 0 0.1 (kst k 1.0e-16) 0.1 := by
    refine ⟨rfl, ?_, ?_, by norm_num, ?_, ?_, ?_, by norm_num, Or.inl ?_⟩
    · rw [← hv, ← hw]; exact hs.eqx
    · rw [← hv]
    · rw [← hv]
    · rw [← hv, ← hw]; exact attempt_faccon hg hs.eqk
    · rw [← hv, ← hw]; exact hs.eqs
    · rw [← hv, ← hw]
      show (s.startn || s.first) = true
      rw [l3]; simp
  obtain ⟨r5, eZ2⟩ := zero_step (f := at0only (.fin 1)) hg (by show (7 : ℤ) ≠ 1; decide) hv1
    (at0only_stages _ (by norm_num))
  generalize hq : ({ it1 (wcfg 7 true) (at0only (.fin 1)) { v with phase := .attempt } with
      redonewton := false, reason := .converged, phase := .tail } : St 1 Sc) = q at r5
  obtain ⟨ee2, ec2⟩ := est_eq (f := at0only (.fin 1)) hg (s := q)
    hv1.hne (by rw [← hq]; exact hv1.eqh) (by rw [← hq]; exact hv1.jac) (by rw [← hq]; exact eZ2)
    (y := 1) (by rw [← hq, ← hv, ← hw]; exact hy) (by rw [← hq, ← hv, ← hw]; exact hf)
    (by rw [← hq]; exact hv1.eqs) hv1.spos
  have hsmall : max (|(ddz 0 0 0 + 0.1 * 1) / consts.U1| / 0.1) 1.0e-10 < 1 := by
    refine max_lt ?_ (by norm_num)
    rw [ddz_zero, zero_add, mul_one, abs_of_pos (by positivity), div_lt_iff₀ (by norm_num),
      div_lt_iff₀ (by linarith)]
    linarith
  rw [if_neg (fun h => absurd h.1 (not_le.2 hsmall))] at ec2
  have r6 : step scalar (ofTime (at0only (.fin 1))) (wcfg 7 true) q = .ret
      { counted scalar (ofTime (at0only (.fin 1))) (wcfg 7 true) q with
        Y := fun i => q.Y i + q.Z.v3 i } := by
    rw [step_tail (by rw [← hq]), tail_eq, if_pos (by rw [ee2, one_lit, X.fin_lt]; exact hsmall)]
    exact if_pos rfl
  refine ⟨_, Reach.returns ((((r1.trans r2).tail r3).tail r4).trans r5) r6, ?_, ?_, ?_⟩
  · show q.nfonccalled = 7
    rw [← hq, ← hv, ← hw]; subst es; rfl
  rotate_left
  · show q.rejs = 1
    rw [← hq, ← hv, ← hw]; subst es; rfl
  · show q.calls + (estrad scalar (ofTime (at0only (.fin 1))) (wcfg 7 true) q).2 = 8
    rw [ec2, ← hq, ← hv]
    show w.calls + (estrad scalar (ofTime (at0only (.fin 1))) (wcfg 7 true) w).2 + 3 + 0 = 8
    rw [ec, ← hw]; subst es; rfl

/-! ### two steps -/

/-- the first attempt of a call from 0 to 9 with `h = 1`. -/
theorem begin09 (nit : ℤ) {o : St 1 Sc} {k : ℝ} (hk : o.faccon = .fin k) (f : X → X) :
    ∃ s : St 1 Sc, Reach (step scalar (ofTime f) (wcfg nit false)) (at0 o 1 0 9) s ∧
      Ready s 0 1 k 0.1 ∧ s = { begun scalar (ofTime f) (wcfg nit false) (at0 o 1 0 9) (scJ 1) with
        phase := .attempt } ∧ s.last = false ∧ s.hopt = .fin 1 ∧ s.first = true := by
  obtain ⟨e1, e2, e3⟩ := entered_inside (P := ofTime f) (wcfg_par nit false)
    (by norm_num : (0 : ℝ) < 9) (at0_init o 1 0 9) (r := 1) rfl (by norm_num) (by norm_num)
  refine ⟨_, start (wcfg_par nit false) (by show (0 : ℤ) ≤ 10000; decide) rfl one_ne_zero e1, ?_, rfl,
    e2, e3, rfl⟩
  refine ⟨rfl, rfl, e1, one_ne_zero, rfl, hk, ?_, by norm_num, Or.inl rfl⟩
  exact wcfg_scal nit false rfl

theorem saves_zero (hg : Par g u fn) : saves g.c (tri 0 0 0) = tri 0 0 0 := by
  obtain ⟨a, b⟩ := sqrt6
  have n1 : consts.C2M1 ≠ 0 := by
    show (4 + Real.sqrt 6) / 10 - 1 ≠ 0
    intro h; linarith
  have n2 : consts.C2 ≠ 0 := by
    show (4 + Real.sqrt 6) / 10 ≠ 0
    intro h; linarith
  have n3 : consts.C1MC2 ≠ 0 := by
    show (4 - Real.sqrt 6) / 10 - (4 + Real.sqrt 6) / 10 ≠ 0
    intro h; linarith
  have n4 : consts.C1M1 ≠ 0 := by
    show (4 - Real.sqrt 6) / 10 - 1 ≠ 0
    intro h; linarith
  rw [hg.eqc]
  unfold saves Consts.map tri
  simp only [X.one_eq, X.fin_div _ _ n1, X.fin_div _ _ n2, X.fin_div _ _ n3, X.fin_div _ _ n4,
    X.fin_sub, X.fin_mul, X.fin_add, sub_zero, zero_mul, mul_zero, add_zero]

theorem wcfg_quot (nit : ℤ) (hn : 1 ≤ nit) {s : St 1 Sc} (h1 : s.facr = .fin (1 / 8))
    (h2 : s.facl = .fin 5) (hc : s.cfac = .fin (0.9 * (1 + 2 * nit))) (h0 : s.newt = 1) :
    quotOf (L := scalar) (wcfg nit false) s (.fin 1.0e-10) = .fin (1 / 8) := by
  have hd : (0 : ℝ) < ((s.newt + 2 * nit : ℤ) : ℝ) := by
    rw [h0]; exact_mod_cast (by omega)
  have e : s.cfac / X.ofInt (s.newt + 2 * (wcfg nit false).nit) = .fin 0.9 := by
    rw [hc]
    show X.fin _ / X.fin ((s.newt + 2 * nit : ℤ) : ℝ) = _
    rw [X.fin_div _ _ hd.ne', X.fin_inj, div_eq_iff hd.ne', h0]
    push_cast; ring
  have es : (wcfg nit false).safe = .fin 0.9 := X.ofSci_eq _ _ _
  unfold quotOf
  rw [e, es, X.MIN_fin, min_self, sqrt_sqrt_fin (by norm_num), X.fin_div _ _ (by norm_num),
    clampFac_fin (L := scalar) h1 h2]
  congr 1
  refine max_eq_left (le_trans (min_le_right _ _) ?_)
  rw [div_le_iff₀ (by norm_num)]
  refine Real.sqrt_le_iff.2 ⟨by norm_num, Real.sqrt_le_iff.2 ⟨by norm_num, by norm_num⟩⟩

/-- a right hand side which vanishes up to the time 8: the first step from 0 to 9 has size 1, the
second one size 8. -/
theorem two_steps (nit : ℤ) (hn : 2 ≤ nit) (d : ℝ) {o : St 1 Sc} (hk : o.faccon = .fin 1) :
    ∃ s : St 1 Sc, Reach (step scalar (ofTime (after 8 d)) (wcfg nit false)) (at0 o 1 0 9)
      { s with phase := .check } ∧ Ready { s with phase := .attempt } 1 8 1 0.1 ∧ s.last = true ∧
      s.nstep = 1 ∧ s.redonewton = false ∧ s.y0 = (fun _ => .fin 0) ∧ s.Y = (fun _ => .fin 0) ∧
      s.taken = [.fin 1] ∧ s.used = [.converged] ∧ s.xend = .fin 9 := by
  have hg := wcfg_par nit false
  obtain ⟨s, r1, hs, es, l1, l2, l3⟩ := begin09 nit hk (after 8 d)
  obtain ⟨r2, eZ⟩ := zero_step (f := after 8 d) hg (by show nit ≠ 1; omega) hs
    (before_stages (by norm_num) (by norm_num))
  have hy : s.y0 = fun _ => .fin 0 := by
    subst es
    funext i
    exact after_of_le (by norm_num)
  have hf : after 8 d s.x = .fin 0 := by rw [hs.eqx]; exact after_of_le (by norm_num)
  have hY : s.Y = fun _ => .fin 0 := by subst es; rfl
  have hxe : s.xend = .fin 9 := by subst es; rfl
  have hpn : s.posneg = .fin 1 ∧ s.hmaxn = .fin 9 := by
    obtain ⟨a, b⟩ := entered_dir (by norm_num : (0 : ℝ) < 9) (at0_init o 1 0 9)
    subst es
    exact ⟨a, b.trans (by norm_num)⟩
  have hrej : s.reject = false := by subst es; rfl
  have hth : (it1 (wcfg nit false) (after 8 d) s).theta = .fin 0.001 := by
    show X.ABS (0.001 : X) = _
    have : (0.001 : X) = .fin 0.001 := X.ofSci_eq _ _ _
    rw [this, X.ABS_fin]; norm_num
  have hcf : s.facr = .fin (1 / 8) ∧ s.facl = .fin 5 ∧ s.cfac = .fin (0.9 * (1 + 2 * nit)) := by
    subst es
    refine ⟨?_, ?_, ?_⟩
    · show (1.0e+0 / 8.0e+0 : X) = _
      have a1 : (1.0e+0 : X) = .fin 1 := (X.ofSci_eq _ _ _).trans (by norm_num)
      have a2 : (8.0e+0 : X) = .fin 8 := (X.ofSci_eq _ _ _).trans (by norm_num)
      rw [a1, a2, X.fin_div _ _ (by norm_num)]
    · show (5.0e+0 : X) = _
      exact (X.ofSci_eq _ _ _).trans (by norm_num)
    · show (0.9 : X) * X.ofInt (1 + 2 * nit) = _
      have : (0.9 : X) = .fin 0.9 := X.ofSci_eq _ _ _
      rw [this]
      show X.fin _ * X.fin _ = _
      rw [X.fin_mul]; push_cast; rfl
  generalize hw : ({ it1 (wcfg nit false) (after 8 d) s with
      redonewton := false, reason := .converged, phase := .tail } : St 1 Sc) = w at r2
  have hwZ : w.Z = tri 0 0 0 := by rw [← hw]; exact eZ
  obtain ⟨ee, ec⟩ := est_eq (f := after 8 d) hg (s := w)
    hs.hne (by rw [← hw]; exact hs.eqh) (by rw [← hw]; exact hs.jac) hwZ (y := 0)
    (by rw [← hw]; exact hy) (by rw [← hw]; exact hf) (by rw [← hw]; exact hs.eqs) hs.spos
  have e10 : max (|(ddz 0 0 0 + 1 * 0) / consts.U1| / 0.1) (1.0e-10 : ℝ) = 1.0e-10 := by
    rw [ddz_zero]; norm_num
  rw [e10] at ee
  have hwx : w.x = .fin 0 := by rw [← hw]; exact hs.eqx
  have hwp : w.xph = .fin 1 := by
    rw [← hw]; exact (attempt_xph (g := wcfg nit false) hs).trans (by norm_num)
  have hwh : w.h = .fin 1 := by rw [← hw]; exact hs.eqh
  have hwl : w.last = false := by rw [← hw]; exact l1
  have hwe : w.xend = .fin 9 := by rw [← hw]; exact hxe
  have hwn : w.naccpt = 0 := by rw [← hw]; subst es; rfl
  have hE : ¬ Ends (L := scalar) (wcfg nit false) w := by
    rintro (h | h)
    · rw [hwl] at h; cases h
    · have e1 : (0.1 : X) = .fin 0.1 := X.ofSci_eq _ _ _
      rw [hwe, hwp, hg.equ, e1, X.ABSsub_fin, X.ABS_fin, X.fin_mul, X.fin_mul, X.fin_le] at h
      norm_num at h
  have hnew : hnewNow scalar (ofTime (after 8 d)) (wcfg nit false) w = .fin 8 := by
    unfold hnewNow hnewAcc
    rw [if_neg (by
      rintro ⟨-, h⟩
      have : (counted scalar (ofTime (after 8 d)) (wcfg nit false) w).naccpt = 0 := hwn
      omega), ee, wcfg_quot nit (by omega) (by rw [← hw]; exact hcf.1) (by rw [← hw]; exact hcf.2.1)
        (by rw [← hw]; exact hcf.2.2) (by rw [← hw]; rfl)]
    show w.h / _ = _
    rw [hwh, X.fin_div _ _ (by norm_num)]
    norm_num
  have hprop : proposed (L := scalar) (acc scalar (ofTime (after 8 d)) (wcfg nit false) w) (.fin 8)
      = .fin 8 := by
    unfold proposed limited
    have a1 : (acc scalar (ofTime (after 8 d)) (wcfg nit false) w).reject = false := by
      rw [← hw]; exact hrej
    have a2 : (acc scalar (ofTime (after 8 d)) (wcfg nit false) w).posneg = .fin 1 := by
      rw [← hw]; exact hpn.1
    have a3 : (acc scalar (ofTime (after 8 d)) (wcfg nit false) w).hmaxn = .fin 9 := by
      rw [← hw]; exact hpn.2
    rw [a1, a2, a3, X.ABS_fin, X.MIN_fin, X.fin_mul]
    norm_num
  have hq1 : (wcfg nit false).quot1 = .fin 1 := (X.ofSci_eq _ _ _).trans (by norm_num)
  have r3 : step scalar (ofTime (after 8 d)) (wcfg nit false) w = .next
      { evaluated (L := scalar) (ofTime (after 8 d)) (acc scalar (ofTime (after 8 d)) (wcfg nit false) w)
        (.fin 8) with h := .fin 8, last := true, jac := scJ 8, ndec := w.ndec + 1 } := by
    rw [step_tail (by rw [← hw]), tail_eq, if_pos (by rw [ee, one_lit, X.fin_lt]; norm_num),
      if_neg (by show ¬ false = true; simp), if_neg hE, hnew]
    have e : nextStep scalar (ofTime (after 8 d)) (wcfg nit false)
        (acc scalar (ofTime (after 8 d)) (wcfg nit false) w) (.fin 8) =
        if 0.0 ≤ ((acc scalar (ofTime (after 8 d)) (wcfg nit false) w).x
            + proposed (L := scalar) (acc scalar (ofTime (after 8 d)) (wcfg nit false) w) (.fin 8)
              / (wcfg nit false).quot1
            - (acc scalar (ofTime (after 8 d)) (wcfg nit false) w).xend)
            * (acc scalar (ofTime (after 8 d)) (wcfg nit false) w).posneg then
          withMatrices scalar (wcfg nit false) (jacIfSlow scalar (ofTime (after 8 d)) (wcfg nit false)
            { evaluated (L := scalar) (ofTime (after 8 d))
                (acc scalar (ofTime (after 8 d)) (wcfg nit false) w) (.fin 8) with
              h := w.xend - w.xph, last := true }) .next
        else _ := rfl
    rw [e, if_pos]
    · unfold jacIfSlow
      rw [if_neg]
      · unfold withMatrices
        have e8 : w.xend - w.xph = .fin 8 := by rw [hwe, hwp, X.fin_sub]; norm_num
        rw [e8]
        have ej : newtonMatrices scalar (wcfg nit false).c (.fin 8) w.jac = some (scJ 8) :=
          scalar_matrices rfl (by norm_num) _ (by rw [← hw]; show s.jac.J = _; rw [hs.jac]; rfl)
        dsimp only
        have ej' : newtonMatrices scalar (wcfg nit false).c (.fin 8) (evaluated (L := scalar)
          (ofTime (after 8 d)) (acc scalar (ofTime (after 8 d)) (wcfg nit false) w) (.fin 8)).jac
            = some (scJ 8) := ej
        rw [ej']
        rfl
      · show ¬ (0.001 : X) < w.theta
        have a : w.theta = .fin 0.001 := by rw [← hw]; exact hth
        have b : (0.001 : X) = .fin 0.001 := X.ofSci_eq _ _ _
        rw [a, b, X.fin_lt]; exact lt_irrefl _
    · rw [hprop, hq1]
      have a2 : (acc scalar (ofTime (after 8 d)) (wcfg nit false) w).posneg = .fin 1 := by
        rw [← hw]; exact hpn.1
      have a3 : (acc scalar (ofTime (after 8 d)) (wcfg nit false) w).x = .fin 1 := hwp
      have a4 : (acc scalar (ofTime (after 8 d)) (wcfg nit false) w).xend = .fin 9 := hwe
      have e0 : (0.0 : X) = .fin 0 := (X.ofSci_eq _ _ _).trans (by norm_num)
      rw [a2, a3, a4, e0, X.fin_div _ _ one_ne_zero, X.fin_add, X.fin_sub, X.fin_mul, X.fin_le]
      norm_num
  have hYn : (fun i => w.Y i + w.Z.v3 i) = fun _ => X.fin 0 := by
    funext i
    have : w.Y = fun _ => .fin 0 := by rw [← hw]; exact hY
    rw [this, hwZ]
    show X.fin 0 + X.fin 0 = _
    rw [X.fin_add, add_zero]
  refine ⟨{ evaluated (L := scalar) (ofTime (after 8 d))
      (acc scalar (ofTime (after 8 d)) (wcfg nit false) w) (.fin 8) with
      h := .fin 8, last := true, jac := scJ 8, ndec := w.ndec + 1 },
    (r1.trans r2).tail r3, ⟨rfl, hwp, rfl, by norm_num, rfl, ?_, ?_, by norm_num,
    Or.inr ⟨?_, 1, one_ne_zero, hwh⟩⟩, rfl, ?_, ?_, ?_, hYn, ?_, ?_, hwe⟩
  · show w.faccon = .fin 1
    rw [← hw]
    refine (attempt_faccon hg hs.eqk).trans ?_
    rw [kst_one (by norm_num)]
  · exact wcfg_scal nit false (Y := fun i => w.Y i + w.Z.v3 i) (congrFun hYn 0)
  · show saves (wcfg nit false).c w.Z = _
    rw [hwZ, saves_zero hg]
  · show w.nstep = 1
    rw [← hw]; subst es; rfl
  · rw [← hw]; rfl
  · funext i
    show after 8 d w.xph = _
    rw [hwp]; exact after_of_le (by norm_num)
  · show (w.xph - w.x) :: w.taken = _
    have : w.taken = [] := by rw [← hw]; subst es; rfl
    rw [hwp, hwx, X.fin_sub, sub_zero, this]
  · show w.reason :: w.used = _
    have h1 : w.used = [] := by rw [← hw]; subst es; rfl
    have h2 : w.reason = .converged := by rw [← hw]
    rw [h1, h2]

/-- the second step of `two_steps` with `nit = 2` uses stage values of a Newton loop which ended with
`didNotConverge`. -/
theorem unconverged_run (o : St 1 Sc) (hk : o.faccon = .fin 1) :
    ∃ t, Returns (step scalar (ofTime (after 8 0.01)) (wcfg 2 false)) (at0 o 1 0 9) t ∧
      t.x = .fin 9 ∧ t.used = [.didNotConverge, .converged] := by
  have hg := wcfg_par 2 false
  obtain ⟨s, r1, hs, b1, b2, b3, b4, b5, b6, b7, b8⟩ := two_steps 2 le_rfl 0.01 hk
  have r2 : step scalar (ofTime (after 8 0.01)) (wcfg 2 false) { s with phase := .check } =
      .next { s with phase := .attempt } := by
    rw [step_check rfl]
    refine if_neg ?_
    show ¬ s.nstep > 10000
    omega
  have hd : (0.03 : ℝ) ≤ kst 1 1.0e-16 * nrm 0.1 (d1 8 0 0 0.01) (d2 8 0 0 0.01) (d3 8 0 0 0.01) := by
    rw [kst_one (by norm_num), one_mul]
    refine le_trans ?_ (spike_nrm (by norm_num) (by norm_num) (by norm_num))
    norm_num
  have hA : Stages (after 8 0.01) 1 (1 + 8) 8 0 0 0.01 := after_stages (by norm_num) (by norm_num)
  obtain ⟨nj, cj, r3⟩ := go_dnc hg rfl hs hA hd
  have eZ := (it2_Z hg hs hA
    (it1 (wcfg 2 false) (after 8 0.01) { s with phase := .attempt }).faccon
    (it1 (wcfg 2 false) (after 8 0.01) { s with phase := .attempt }).theta
    (it1 (wcfg 2 false) (after 8 0.01) { s with phase := .attempt }).thqold).trans
    (back_tri hg.eqc _ _ _)
  generalize hw : ({ it2 (wcfg 2 false) (after 8 0.01) { s with phase := .attempt }
        (it1 (wcfg 2 false) (after 8 0.01) { s with phase := .attempt }).faccon
        (it1 (wcfg 2 false) (after 8 0.01) { s with phase := .attempt }).theta
        (it1 (wcfg 2 false) (after 8 0.01) { s with phase := .attempt }).thqold with
        h := .fin (8 / 2), dnc := true, reason := .didNotConverge, jac := scJ (8 / 2)
        ndec := s.ndec + 1, scal := doScal (wcfg 2 false) s.Y, newt := 0, njac := nj, caljac := cj
        phase := if s.redonewton then .attempt else .tail } : St 1 Sc) = w at r3
  have hwp : w.phase = .tail := by rw [← hw]; exact if_neg (by rw [b3]; simp)
  obtain ⟨ee, -⟩ := est_eq (f := after 8 0.01) hg (s := w) (h := 8 / 2) (sc := 0.1) (y := 0)
    (by norm_num) (by rw [← hw]) (by rw [← hw]) (by rw [← hw]; exact eZ) (by rw [← hw]; exact b4)
    (by
      have : w.x = .fin 1 := by rw [← hw]; exact hs.eqx
      rw [this]; exact after_of_le (by norm_num))
    (by rw [← hw]; exact wcfg_scal 2 false (congrFun b5 0)) (by norm_num)
  refine ⟨_, Reach.returns ((r1.tail r2).trans r3) (step_last hwp ?_ rfl ?_), ?_, ?_⟩
  · rw [ee, one_lit, X.fin_lt]
    exact spike_err (by norm_num) (by norm_num) (by norm_num) (by norm_num) _ _ _ rfl rfl rfl
  · rw [← hw]; exact b1
  · show w.xph = _
    rw [← hw]
    show s.x + s.h = _
    rw [hs.eqx, hs.eqh, X.fin_add]; norm_num
  · show w.reason :: w.used = _
    rw [← hw]
    show Reason.didNotConverge :: s.used = _
    rw [b7]

/-- both steps converge if the right hand side vanishes everywhere. -/
theorem ratio_run (o : St 1 Sc) (hk : o.faccon = .fin 1) :
    ∃ t, Returns (step scalar (ofTime (after 8 0)) (wcfg 7 false)) (at0 o 1 0 9) t ∧
      t.taken = [.fin 8, .fin 1] := by
  have hg := wcfg_par 7 false
  obtain ⟨s, r1, hs, b1, b2, b3, b4, b5, b6, b7, b8⟩ := two_steps 7 (by decide) 0 hk
  have r2 : step scalar (ofTime (after 8 0)) (wcfg 7 false) { s with phase := .check } =
      .next { s with phase := .attempt } := by
    rw [step_check rfl]
    refine if_neg ?_
    show ¬ s.nstep > 10000
    omega
  obtain ⟨r3, eZ⟩ := zero_step (f := after 8 0) hg (by show (7 : ℤ) ≠ 1; decide) hs
    (after_stages (by norm_num) (by norm_num))
  obtain ⟨ee, -⟩ := est_eq (f := after 8 0) hg
    (s := { it1 (wcfg 7 false) (after 8 0) { s with phase := .attempt } with
      redonewton := false, reason := .converged, phase := .tail })
    hs.hne hs.eqh hs.jac eZ (y := 0) b4 (by
      show after 8 0 s.x = _
      have : s.x = .fin 1 := hs.eqx
      rw [this]; exact after_of_le (by norm_num)) hs.eqs hs.spos
  refine ⟨_, Reach.returns ((r1.tail r2).trans r3) (step_last rfl ?_ rfl b1), ?_⟩
  · rw [ee, ddz_zero, one_lit, X.fin_lt]; norm_num
  · show (s.x + s.h - s.x) :: s.taken = _
    have e1 : s.x = .fin 1 := hs.eqx
    have e2 : s.h = .fin 8 := hs.eqh
    rw [e1, e2, X.fin_add, X.fin_sub, b6]
    congr 2
    norm_num

/-- the first attempt with a right hand side which is zero. -/
theorem begin_zero (nit : ℤ) (one : Bool) {o : St 1 Sc} {k : ℝ} (hk : o.faccon = .fin k)
    {h0 x xe h : ℝ} (hn : nit ≠ 1) (hne : h ≠ 0)
    (eh : (entered (L := scalar) (ofTime fun _ => .fin 0) (wcfg nit one) (at0 o h0 x xe)).h = .fin h) :
    ∃ s : St 1 Sc, Reach (step scalar (ofTime fun _ => .fin 0) (wcfg nit one)) (at0 o h0 x xe) s ∧
      s.phase = .tail ∧ s.xph = .fin (x + h) ∧ s.xend = .fin xe ∧
      errNow scalar (ofTime fun _ => .fin 0) (wcfg nit one) s < 1.0 := by
  have hs : Ready { begun scalar (ofTime fun _ => .fin 0) (wcfg nit one) (at0 o h0 x xe) (scJ h) with
      phase := .attempt } x h k 0.1 :=
    ⟨rfl, rfl, eh, hne, rfl, hk, wcfg_scal nit one rfl, by norm_num, Or.inl rfl⟩
  obtain ⟨r2, eZ⟩ := zero_step (f := fun _ => .fin 0) (wcfg_par nit one) hn hs ⟨rfl, rfl, rfl⟩
  refine ⟨_, (start (wcfg_par nit one) (by show (0 : ℤ) ≤ 10000; decide) rfl hne eh).trans r2, rfl,
    ?_, rfl, ?_⟩
  · exact attempt_xph (g := wcfg nit one) hs
  · obtain ⟨ee, -⟩ := est_eq (f := fun _ => .fin 0) (wcfg_par nit one)
      (s := { it1 (wcfg nit one) (fun _ => .fin 0)
        { begun scalar (ofTime fun _ => .fin 0) (wcfg nit one) (at0 o h0 x xe) (scJ h) with
          phase := .attempt } with redonewton := false, reason := .converged, phase := .tail })
      hs.hne hs.eqh hs.jac eZ (y := 0) rfl rfl hs.eqs hs.spos
    rw [ee, ddz_zero, one_lit, X.fin_lt]; norm_num

/-- default settings, times near 1e17, final time 48 units away from the returned one. -/
theorem tolerance_run (o : St 1 Sc) {k : ℝ} (hk : o.faccon = .fin k) :
    ∃ t, Returns (step scalar (ofTime fun _ => .fin 0) (wcfg 7 false))
      (at0 o 16 1.0e17 (1.0e17 + 64)) t ∧ t.x = .fin (1.0e17 + 16) := by
  have hg := wcfg_par 7 false
  obtain ⟨e1, e2, e3⟩ := entered_inside (P := ofTime fun _ => .fin 0) hg
    (by norm_num : (1.0e17 : ℝ) < 1.0e17 + 64) (at0_init o 16 1.0e17 (1.0e17 + 64)) (r := 16) rfl
    (by norm_num) (by norm_num)
  obtain ⟨s, r, hp, hx, hxe, he⟩ := begin_zero 7 false hk (by decide) (by norm_num) e1
  have hE : Ends (L := scalar) (wcfg 7 false) s := by
    right
    have e01 : (0.1 : X) = .fin 0.1 := X.ofSci_eq _ _ _
    rw [hxe, hx, hg.equ, e01, X.ABSsub_fin, X.ABS_fin, X.fin_mul, X.fin_mul, X.fin_le]
    norm_num
  refine ⟨{ acc scalar (ofTime fun _ => .fin 0) (wcfg 7 false) s with h := s.hopt },
    Reach.returns r ?_, hx⟩
  rw [step_tail hp, tail_eq, if_pos he, if_neg (by show ¬ false = true; simp), if_pos hE]

/-- integrating from 1 to 0 ends at 2. -/
theorem wrong_run (o : St 1 Sc) {k : ℝ} (hk : o.faccon = .fin k) :
    ∃ t, Returns (step scalar (ofTime fun _ => .fin 0) (wcfg 7 false)) (at0 o 1 1 0) t ∧
      t.x = .fin 2 := by
  have hg := wcfg_par 7 false
  have e1 : (entered (L := scalar) (ofTime fun _ => .fin 0) (wcfg 7 false) (at0 o 1 1 0)).h = .fin 1 :=
    (entered_wrong (P := ofTime fun _ => .fin 0) (g := wcfg 7 false) (by norm_num : (0 : ℝ) < 1)
      (by norm_num) (at0_init o 1 1 0)).trans (by norm_num)
  obtain ⟨s, r, hp, hx, hxe, he⟩ := begin_zero 7 false hk (by decide) (by norm_num) e1
  have hE : Ends (L := scalar) (wcfg 7 false) s := by
    right
    have e01 : (0.1 : X) = .fin 0.1 := X.ofSci_eq _ _ _
    rw [hxe, hx, hg.equ, e01, X.ABSsub_fin, X.ABS_fin, X.fin_mul, X.fin_mul, X.fin_le]
    norm_num
  refine ⟨{ acc scalar (ofTime fun _ => .fin 0) (wcfg 7 false) s with h := s.hopt },
    Reach.returns r ?_, (hx.trans (by norm_num) : s.xph = .fin 2)⟩
  rw [step_tail hp, tail_eq, if_pos he, if_neg (by show ¬ false = true; simp), if_pos hE]

/-- for the step size 0 the matrices are infinite, hence not singular. -/
theorem scalar_works_zero {g : Cfg 1} {f : X → X} (hc : g.c = consts.map X.fin) :
    Works scalar (ofTime f) g (· = .fin 0) (fun j => j.J = .fin 0) where
  load s := by
    show (0 : X) = _
    exact X.zero_eq
  fac h j hh hj := by
    subst hh
    have h1 := U1_bounds.1
    have h2 := ALPH_bounds.1
    have e1 : g.c.U1 / .fin 0 = .pinf := by
      rw [hc]
      show X.fin consts.U1 / X.fin 0 = _
      rw [X.fin_div', if_pos rfl, X.infTimes_pos (by linarith)]
    have e2 : g.c.ALPH / .fin 0 = .pinf := by
      rw [hc]
      show X.fin consts.ALPH / X.fin 0 = _
      rw [X.fin_div', if_pos rfl, X.infTimes_pos (by linarith)]
    unfold newtonMatrices scalar
    rw [e1, e2]
    dsimp only
    have e3 : (X.pinf - X.fin 0 : X) = .pinf := rfl
    have e4 : ¬ X.Feq X.pinf 0 := by rw [X.zero_eq]; exact fun h => h
    rw [hj, e3, if_neg e4]
    dsimp only [Option.bind_some]
    rw [e3, if_neg (fun h => e4 h.1)]
    exact ⟨_, rfl, rfl⟩

end Odes.Radau
