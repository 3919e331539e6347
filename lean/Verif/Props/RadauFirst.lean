import Verif.Lemmas.RadauFirst
import Verif.Lemmas.RadauRuns
import Verif.Props.Radau

/-! # The first accepted step reported by Radau5: C77 -/

namespace Odes.Radau

open Classical

variable {n : ℕ} {L : Lin X n} {P : Prob X n} {g : Cfg n} {sf u : ℝ}

/-- C77, Radau5: after a return `getfirstAcceptedStep` is the size of the first accepted step if its
Newton loop converged, half of it otherwise (`didNotConverge`).  Forward integration. -/
theorem radau_first_step (hg : Std g sf u) {x0 xe : ℝ} (hx : x0 < xe) (ho : g.onlyOneStep = false)
    {o : St n L.σ} {h : X} {y : Fin n → X} {s : St n L.σ}
    (hr : Returns (step L P g) (call o h (.fin x0) (.fin xe) y) s) :
    ∃ (w : ℝ) (r : Reason), 0 < w ∧ s.taken.getLast? = some (.fin w) ∧ s.used.getLast? = some r ∧
      (r = .converged ∧ s.firstAcceptedStep = .fin w ∨
        r = .didNotConverge ∧ s.firstAcceptedStep = .fin (w / 2)) := by
  obtain ⟨t, h1, h2⟩ := hr.last
  obtain ⟨hp, h2⟩ := step_ret h2
  rcases fst_reach h1 with hF | ⟨hF, -⟩
  swap
  · rw [hF] at hp; cases hp
  rcases fwd_reach hg hx h1 with hI | hI
  · rw [hI.phase] at hp; cases hp
  obtain ⟨l, hh, b1, b2, b3, b4, b5, b6, b7, b8, b9, b10, b11⟩ := hI.pos
  obtain ⟨v, c1, c2, c3, c4, c5, c6, c7⟩ := b11 (Or.inr hp)
  obtain ⟨-, ⟨h3, -⟩ | ⟨-, hE, rfl⟩⟩ := tail_ret h2
  · rw [ho] at h3; cases h3
  obtain ⟨w, r, d1, d2, d3⟩ := hF.acc hp
  have hpos : ∃ q : ℝ, 0 < q ∧ ((t.xph - t.x) :: t.taken).getLast? = some (.fin q) := by
    have e : t.xph - t.x = .fin v := by rw [c2, b4, X.fin_sub]; congr 1; ring
    rw [e, b1, ← List.map_cons, List.getLast?_map, List.getLast?_eq_getLast_of_ne_nil (by simp)]
    refine ⟨_, ?_, rfl⟩
    have hm := List.getLast_mem (l := v :: l) (by simp)
    rcases List.mem_cons.1 hm with h | h
    · rw [h]; linarith
    · exact b2 _ h
  obtain ⟨q, hq, eq⟩ := hpos
  rw [d1, Option.some.injEq] at eq
  have hw : w = .fin q := by
    cases w with
    | nan => rw [X.add_nan, X.nan_sub] at eq; cases eq
    | pinf => cases eq
    | ninf => cases eq
    | fin w =>
      rw [X.fin_add, X.fin_sub, X.fin_inj] at eq
      rw [X.fin_inj]; linarith
  subst hw
  refine ⟨q, r, hq, d1.trans (congrArg some eq), d2, d3.imp id fun h => ⟨h.1, h.2.trans ?_⟩⟩
  have e5 : (0.5 : X) = .fin (1 / 2) := (X.ofSci_eq _ _ _).trans (by norm_num)
  rw [e5, X.fin_mul]; congr 1; ring

/-- C77 (part), Radau5: if the Newton loop of the first accepted step converged,
`getfirstAcceptedStep` is the size of this step. -/
theorem radau_first_step_partial (hg : Std g sf u) {x0 xe : ℝ} (hx : x0 < xe)
    (ho : g.onlyOneStep = false) {o : St n L.σ} {h : X} {y : Fin n → X} {s : St n L.σ}
    (hr : Returns (step L P g) (call o h (.fin x0) (.fin xe) y) s)
    (hc : s.used.getLast? = some .converged) : s.taken.getLast? = some s.firstAcceptedStep := by
  obtain ⟨w, r, -, h1, h2, ⟨-, h3⟩ | ⟨h3, -⟩⟩ := radau_first_step hg hx ho hr
  · rw [h1, h3]
  · rw [h2, h3] at hc; cases hc

/-! ### the negation -/

/-- 1 at the times `T` and `T+0.1`, 0 elsewhere. -/
noncomputable def twoSpikes (T : ℝ) : X → X
  | .fin t => if t = T ∨ t = T + 0.1 then .fin 1 else .fin 0
  | _ => .fin 0

theorem twoSpikes_on {T t : ℝ} (h : t = T ∨ t = T + 0.1) : twoSpikes T (.fin t) = .fin 1 := if_pos h
theorem twoSpikes_off {T t : ℝ} (h1 : t ≠ T) (h2 : t ≠ T + 0.1) : twoSpikes T (.fin t) = .fin 0 :=
  if_neg (by rintro (h | h); exacts [h1 h, h2 h])

/-- `nit = 2`, from `T` to `T+1`: the first attempt (size 1) is rejected; the Newton loop of the second
one (size 0.1) is exhausted, the step is accepted and recorded with the size 0.05. -/
theorem halved_run {T : ℝ} (hT : 1.0e17 ≤ T) (o : St 1 Sc) (hk : o.faccon = .fin 1) :
    ∃ t, Returns (step scalar (ofTime (twoSpikes T)) (wcfg 2 false)) (at0 o 1 T (T + 1)) t ∧
      t.x = .fin (T + 0.1) ∧ t.taken = [.fin 0.1] ∧ t.firstAcceptedStep = .fin 0.05 := by
  have hg := wcfg_par 2 false
  obtain ⟨u1, u2⟩ := U1_bounds
  obtain ⟨k1, k2⟩ := C1_bounds
  obtain ⟨k3, k4⟩ := C2_bounds
  obtain ⟨i1, i2, i3⟩ := entered_over (P := ofTime (twoSpikes T)) (wcfg_par 2 false)
    (by linarith : T < T + 1) (at0_init o 1 T (T + 1)) (r := 1) rfl (by norm_num) (by norm_num)
  rw [add_sub_cancel_left] at i1
  have r1 := start (f := twoSpikes T) hg (by show (0 : ℤ) ≤ 10000; decide)
    (s := at0 o 1 T (T + 1)) rfl one_ne_zero i1
  generalize es : ({ begun scalar (ofTime (twoSpikes T)) (wcfg 2 false) (at0 o 1 T (T + 1)) (scJ 1) with
    phase := .attempt } : St 1 Sc) = s at r1
  have hs : Ready s T 1 1 0.1 := by
    subst es
    exact ⟨rfl, rfl, i1, one_ne_zero, rfl, hk, wcfg_scal 2 false rfl, by norm_num, Or.inl rfl⟩
  have hA : Stages (twoSpikes T) T (T + 1) 1 0 0 0 :=
    ⟨twoSpikes_off (by linarith) (by linarith), twoSpikes_off (by linarith) (by linarith),
      twoSpikes_off (by linarith) (by linarith)⟩
  obtain ⟨r2, eZ⟩ := zero_step (f := twoSpikes T) hg (by show (2 : ℤ) ≠ 1; decide) hs hA
  have hy : s.y0 = fun _ => .fin 1 := by
    subst es
    funext i
    exact twoSpikes_on (Or.inl rfl)
  have hf : twoSpikes T s.x = .fin 1 := by rw [hs.eqx]; exact twoSpikes_on (Or.inl rfl)
  have hfirst : s.first = true := by subst es; rfl
  generalize hw : ({ it1 (wcfg 2 false) (twoSpikes T) s with
      redonewton := false, reason := .converged, phase := .tail } : St 1 Sc) = w at r2
  have hwZ : w.Z = tri 0 0 0 := by rw [← hw]; exact eZ
  obtain ⟨ee, -⟩ := est_eq (f := twoSpikes T) hg (s := w)
    hs.hne (by rw [← hw]; exact hs.eqh) (by rw [← hw]; exact hs.jac) hwZ (y := 1)
    (by rw [← hw]; exact hy) (by rw [← hw]; exact hf) (by rw [← hw]; exact hs.eqs) hs.spos
  have hbig : 1 ≤ max (|(ddz 0 0 0 + 1 * 1) / consts.U1| / 0.1) 1.0e-10 := by
    refine le_max_of_le_left ?_
    rw [ddz_zero, zero_add, one_mul, abs_of_pos (by positivity), le_div_iff₀ (by norm_num),
      le_div_iff₀ (by linarith)]
    linarith
  have hwfirst : w.first = true := by rw [← hw]; exact hfirst
  have hcal : w.caljac = true := by rw [← hw]; subst es; rfl
  have e01 : (0.1 : X) = .fin 0.1 := X.ofSci_eq _ _ _
  have r3 : step scalar (ofTime (twoSpikes T)) (wcfg 2 false) w = .next
      { rejectState (wcfg 2 false) (counted scalar (ofTime (twoSpikes T)) (wcfg 2 false) w)
        (errNow scalar (ofTime (twoSpikes T)) (wcfg 2 false) w) with
        h := .fin 0.1, jac := scJ 0.1, ndec := w.ndec + 1 } := by
    rw [step_tail (by rw [← hw]), tail_eq, if_neg]
    · have e : rejected scalar (ofTime (twoSpikes T)) (wcfg 2 false)
          (counted scalar (ofTime (twoSpikes T)) (wcfg 2 false) w)
          (errNow scalar (ofTime (twoSpikes T)) (wcfg 2 false) w) =
          withMatrices scalar (wcfg 2 false) (refreshJac scalar (ofTime (twoSpikes T)) (wcfg 2 false)
            (rejectState (wcfg 2 false) (counted scalar (ofTime (twoSpikes T)) (wcfg 2 false) w)
              (errNow scalar (ofTime (twoSpikes T)) (wcfg 2 false) w))) .next := rfl
      rw [e]
      unfold refreshJac
      rw [if_pos (by exact hcal)]
      unfold withMatrices
      have eh : (rejectState (L := scalar) (wcfg 2 false)
          (counted scalar (ofTime (twoSpikes T)) (wcfg 2 false) w)
          (errNow scalar (ofTime (twoSpikes T)) (wcfg 2 false) w)).h = .fin 0.1 := by
        refine (if_pos hwfirst).trans ?_
        show w.h * 0.1 = _
        have : w.h = .fin 1 := by rw [← hw]; exact hs.eqh
        rw [this, e01, X.fin_mul, one_mul]
      have ej : newtonMatrices scalar (wcfg 2 false).c (.fin 0.1) w.jac = some (scJ 0.1) :=
        scalar_matrices rfl (by norm_num) _ (by rw [← hw]; show s.jac.J = _; rw [hs.jac]; rfl)
      rw [eh]
      have ej' : newtonMatrices scalar (wcfg 2 false).c (.fin 0.1) (rejectState (L := scalar)
        (wcfg 2 false) (counted scalar (ofTime (twoSpikes T)) (wcfg 2 false) w)
          (errNow scalar (ofTime (twoSpikes T)) (wcfg 2 false) w)).jac = some (scJ 0.1) := ej
      rw [ej']
      rfl
    · rw [ee, one_lit, X.fin_lt]
      exact not_lt.2 hbig
  generalize hv : ({ rejectState (wcfg 2 false) (counted scalar (ofTime (twoSpikes T)) (wcfg 2 false) w)
        (errNow scalar (ofTime (twoSpikes T)) (wcfg 2 false) w) with
        h := .fin 0.1, jac := scJ 0.1, ndec := w.ndec + 1 } : St 1 Sc) = v at r3
  have r4 : step scalar (ofTime (twoSpikes T)) (wcfg 2 false) v = .next { v with phase := .attempt } := by
    rw [step_check (by rw [← hv]; rfl)]
    refine if_neg ?_
    have : v.nstep = 1 := by rw [← hv, ← hw]; subst es; rfl
    rw [this]
    show ¬ (1 : ℤ) > 10000
    decide
  have hv1 : Ready { v with phase := .attempt } T 0.1 (kst 1 1.0e-16) 0.1 := by
    refine ⟨rfl, ?_, ?_, by norm_num, ?_, ?_, ?_, by norm_num, Or.inl ?_⟩
    · rw [← hv, ← hw]; exact hs.eqx
    · rw [← hv]
    · rw [← hv]
    · rw [← hv, ← hw]; exact attempt_faccon hg hs.eqk
    · rw [← hv, ← hw]; exact hs.eqs
    · rw [← hv, ← hw]
      show (s.startn || s.first) = true
      rw [hfirst]; simp
  have hA2 : Stages (twoSpikes T) T (T + 0.1) 0.1 0 0 1 :=
    ⟨twoSpikes_off (by linarith) (by linarith), twoSpikes_off (by linarith) (by linarith),
      twoSpikes_on (Or.inr rfl)⟩
  have hd : (0.03 : ℝ) ≤ kst (kst 1 1.0e-16) 1.0e-16 *
      nrm 0.1 (d1 0.1 0 0 1) (d2 0.1 0 0 1) (d3 0.1 0 0 1) := by
    rw [kst_one (by norm_num), kst_one (by norm_num), one_mul]
    refine le_trans ?_ (spike_nrm (by norm_num) (by norm_num) (by norm_num))
    norm_num
  obtain ⟨nj, cj, r5⟩ := go_dnc hg rfl hv1 hA2 hd
  have eZ2 := (it2_Z hg hv1 hA2
    (it1 (wcfg 2 false) (twoSpikes T) { v with phase := .attempt }).faccon
    (it1 (wcfg 2 false) (twoSpikes T) { v with phase := .attempt }).theta
    (it1 (wcfg 2 false) (twoSpikes T) { v with phase := .attempt }).thqold).trans
    (back_tri hg.eqc _ _ _)
  generalize hq : ({ it2 (wcfg 2 false) (twoSpikes T) { v with phase := .attempt }
        (it1 (wcfg 2 false) (twoSpikes T) { v with phase := .attempt }).faccon
        (it1 (wcfg 2 false) (twoSpikes T) { v with phase := .attempt }).theta
        (it1 (wcfg 2 false) (twoSpikes T) { v with phase := .attempt }).thqold with
        h := .fin (0.1 / 2), dnc := true, reason := .didNotConverge, jac := scJ (0.1 / 2)
        ndec := v.ndec + 1, scal := doScal (wcfg 2 false) v.Y, newt := 0, njac := nj, caljac := cj
        phase := if v.redonewton then .attempt else .tail } : St 1 Sc) = q at r5
  have hqp : q.phase = .tail := by
    rw [← hq]
    refine if_neg ?_
    rw [← hv, ← hw]
    show ¬ false = true
    simp
  have hY : v.Y = fun _ => .fin 0 := by rw [← hv, ← hw]; subst es; rfl
  have hqx : q.x = .fin T := by rw [← hq]; exact hv1.eqx
  have hqxp : q.xph = .fin (T + 0.1) := by
    rw [← hq]
    show v.x + v.h = _
    have a : v.x = .fin T := hv1.eqx
    have b : v.h = .fin 0.1 := hv1.eqh
    rw [a, b, X.fin_add]
  obtain ⟨ee2, -⟩ := est_eq (f := twoSpikes T) hg (s := q) (h := 0.1 / 2) (sc := 0.1) (y := 1)
    (by norm_num) (by rw [← hq]) (by rw [← hq]) (by rw [← hq]; exact eZ2)
    (by rw [← hq, ← hv, ← hw]; exact hy) (by rw [hqx]; exact twoSpikes_on (Or.inl rfl))
    (by rw [← hq]; exact wcfg_scal 2 false (congrFun hY 0)) (by norm_num)
  have hsmall : errNow scalar (ofTime (twoSpikes T)) (wcfg 2 false) q < 1.0 := by
    rw [ee2, one_lit, X.fin_lt]
    refine max_lt ?_ (by norm_num)
    obtain ⟨s1, s2, s3⟩ := spike_small (h := 0.1) (d := 1) (by norm_num) (by norm_num)
    have hz := spike_ddz (by norm_num) (by norm_num) s1 s2 s3
    rw [abs_div, abs_of_pos (by linarith : 0 < consts.U1), div_lt_one (by norm_num),
      div_lt_iff₀ (by linarith)]
    refine (abs_add_le _ _).trans_lt ?_
    have : |(0.1 / 2 * 1 : ℝ)| = 0.05 := by norm_num
    rw [this]
    nlinarith
  have hn0 : q.naccpt = 0 := by rw [← hq, ← hv, ← hw]; subst es; rfl
  have hE : Ends (L := scalar) (wcfg 2 false) q := by
    right
    have hqe : q.xend = .fin (T + 1) := by rw [← hq, ← hv, ← hw]; subst es; rfl
    rw [hqe, hqxp, hg.equ, e01, X.ABSsub_fin, if_pos (by linarith), X.ABS_fin, X.fin_mul, X.fin_mul,
      X.fin_le, abs_of_pos (by linarith)]
    linarith
  refine ⟨{ acc scalar (ofTime (twoSpikes T)) (wcfg 2 false) q with h := q.hopt },
    Reach.returns ((((r1.trans r2).tail r3).tail r4).trans r5) ?_, ?_, ?_, ?_⟩
  · rw [step_tail hqp, tail_eq, if_pos hsmall, if_neg (by show ¬ false = true; simp), if_pos hE]
  · exact hqxp
  · show (q.xph - q.x) :: q.taken = _
    have : q.taken = [] := by rw [← hq, ← hv, ← hw]; subst es; rfl
    rw [this, hqxp, hqx, X.fin_sub]
    congr 2; ring
  · show (if q.naccpt = 0 then q.h else _) = _
    rw [if_pos hn0, ← hq]
    show X.fin (0.1 / 2) = _
    congr 1; norm_num

/-- C77 fails for Radau5: one step of size 0.1 was made, `getfirstAcceptedStep` returns 0.05. -/
theorem radau_first_step_wrong :
    ∃ (L : Lin X 1) (P : Prob X 1) (o s : St 1 L.σ) (x xe : X) (y : Fin 1 → X),
      Std (wcfg 2 false) 0.9 1.0e-16 ∧
      Returns (step L P (wcfg 2 false)) (call o (.fin 1) x xe y) s ∧
      s.taken = [.fin 0.1] ∧ s.firstAcceptedStep = .fin 0.05 := by
  obtain ⟨t, h1, -, h2, h3⟩ := halved_run (T := 1.0e17) le_rfl obj rfl
  exact ⟨_, _, _, t, _, _, _, wcfg_std 2 false (by decide), h1, h2, h3⟩

/-- a run which meets the hypotheses of `radau_first_step_partial`. -/
example : ∃ t, Returns (step scalar (ofTime (after 8 0.01)) (wcfg 2 false)) (at0 obj 1 0 9) t ∧
    t.used.getLast? = some .converged := by
  obtain ⟨t, h1, -, h2⟩ := unconverged_run obj rfl
  exact ⟨t, h1, by rw [h2]; rfl⟩

end Odes.Radau
