import Verif.Props.Log
import Verif.Props.Rodas
import Verif.Props.Rock4

/-! # C113: the log of Rodas and of Rock4 -/

namespace Odes.Log

open Classical Logger

variable {n : ℕ}

namespace Rodas

open Odes.Rodas

variable {L : Lin X n} {P : Prob X n} {g : Cfg n}

/-- what the log of Rodas tells. -/
structure Tells (s : St n L.σ) (l : List Ev) : Prop where
  /-- at the first attempt of a step the step size in force is the one recorded last -/
  size : s.inner = true → s.reject = false → lastH l = some s.h
  /-- the numbers of the steps increase -/
  sorted : (l.map Event.step).Pairwise (· ≤ ·)
  last : ∀ e ∈ l, e.step ≤ s.nstep
  /-- only changes of the step size are recorded -/
  kind : ∀ e ∈ l, e.kind = .changedH
  clean : s.inner = false → s.reject = false

theorem evs_inner {s : St n L.σ} (h : s.inner = true) : evs L g s = [] := by
  unfold evs; rw [if_pos (Or.inl h)]

theorem evs_outer {s : St n L.σ} (hi : s.inner = false) (hl : s.last = false)
    (hc : ¬ 0.1e0 * X.ABS s.h ≤ X.ABS s.x * g.uround) :
    ∃ E : List Ev, evs L g s = E ∧ lastH E = some (prepared L P g s).h ∧
      ∀ e ∈ E, e.time = s.x ∧ e.step = s.nstep ∧ e.kind = .changedH := by
  refine ⟨_, rfl, ?_, ?_⟩
  · unfold evs
    rw [if_neg (by simp [hi, hl]), if_neg hc, prepared_h]
    dsimp only
    rw [lastH_append, lastH_append]
    by_cases ho : Over g s
    · rw [if_pos ho, if_pos (by exact ho), Radau.lastH_one _ rfl]; rfl
    · rw [if_neg ho, if_neg (by exact ho), Radau.lastH_one _ rfl]; rfl
  · unfold evs
    rw [if_neg (by simp [hi, hl]), if_neg hc]
    dsimp only
    intro e he
    simp only [List.mem_append] at he
    rcases he with (he | he) | he
    · split_ifs at he
      · simp only [List.mem_singleton] at he; subst he; simp
      · simp at he
    · simp only [List.mem_singleton] at he; subst he; simp
    · split_ifs at he <;> first
        | (simp only [List.mem_singleton] at he; subst he; simp)
        | simp at he

/-- C113 (Rodas): after every transition of a call the log holds only changes of the step size of this call (it
is the log of the call, whatever was logged before), their step numbers increase, and at the first attempt of every
step the step size in force is the last one logged.  Missing: rejected steps (`rodas_log_misses_rejection`). -/
theorem rodas_log_partial {o : St n L.σ} {h x xend : X} {y : Fin n → X} {s : St n L.σ × List Ev}
    (hr : Reach (step L P g) (start o h x xend y, first L (start o h x xend y)) s) : Tells s.1 s.2 := by
  refine Reach.inv (I := fun s => Tells s.1 s.2) ?_ ?_ hr
  · rintro ⟨s, l⟩ ⟨t, l'⟩ I hst
    obtain ⟨h1, h2⟩ := logged_next hst
    dsimp only at h1 h2 I ⊢
    simp only [Bool.false_eq_true, if_false] at h2
    subst h2
    rcases step_cases h1 with ⟨hi, hl, hc, rfl⟩ | ⟨hi, j, k, err, -, -, ⟨-, rfl⟩ | ⟨-, -, -, rfl⟩⟩
    · obtain ⟨E, hE, e1, e2⟩ := evs_outer (P := P) hi hl hc
      rw [hE]
      refine ⟨fun _ _ => by rw [lastH_append, e1]; rfl, ?_, ?_, ?_, fun hh => by simp [prepared] at hh⟩
      · exact Radau.sorted_append I.sorted I.last (fun e he => (e2 e he).2.1)
      · intro e he
        rcases List.mem_append.1 he with he | he
        · exact I.last e he
        · exact (e2 e he).2.1.le
      · intro e he
        rcases List.mem_append.1 he with he | he
        · exact I.kind e he
        · exact (e2 e he).2.2
    · rw [evs_inner hi, List.append_nil]
      exact ⟨fun _ hh => by simp [rejected] at hh, I.sorted, fun e he => (I.last e he).trans (by simp [rejected]), I.kind,
        fun hh => by change s.inner = false at hh; rw [hi] at hh; cases hh⟩
    · rw [evs_inner hi, List.append_nil]
      exact ⟨fun hh => by simp [accepted] at hh, I.sorted, fun e he => (I.last e he).trans (by simp [accepted]), I.kind,
        fun _ => rfl⟩
  · dsimp only [first]
    rw [written_eq]
    exact ⟨fun hh => by simp [start] at hh, by simp, by simp, by simp, fun _ => rfl⟩

/-- C113 is violated by Rodas: a rejected attempt changes the step size, but nothing is logged, neither the
rejection nor the new step size; the last step size of the log is the one which was rejected. -/
theorem rodas_log_misses_rejection {q : ℝ} (hg : Std g q) {s t : St n L.σ × List Ev} (hi : s.1.inner = true)
    (hst : step L P g s = .next t) (hrej : t.1.taken = s.1.taken) {hh : ℝ} (hh0 : s.1.h = .fin hh) (hne : hh ≠ 0) :
    t.2 = s.2 ∧ t.1.h ≠ s.1.h := by
  obtain ⟨h1, h2⟩ := logged_next hst
  simp only [Bool.false_eq_true, if_false, evs_inner hi, List.append_nil] at h2
  refine ⟨h2, ?_⟩
  obtain ⟨-, -, -, -, h3 | ⟨f, h3, hf, -⟩⟩ := rodas_rejection_shrinks hg hi h1 hrej hh0
  · rw [h3, hh0]; simp
  · rw [h3, hh0]
    simp only [ne_eq, X.fin_inj]
    intro hc
    rw [div_eq_iff (by linarith)] at hc
    have := mul_left_cancel₀ hne ((mul_one hh).trans hc)
    linarith

/-- a call of Rodas with one rejection, none of which is in the log. -/
theorem rodas_log_witness {meth : ℤ} {c : Coef ℚ} (hc : rocoe meth = some c) :
    ∃ s, Returns (step (exactLinX 1) (lift (wQ spike)) (wG c true)) (wStart 1 0 2, first (exactLinX 1) (wStart 1 0 2)) s ∧
      s.1.rejs = 1 ∧ cnt .rejectedStep s.2 = 0 := by
  obtain ⟨t, hr, -, -, -, hj⟩ := run_spike hc
  obtain ⟨l, hl⟩ := returns_logged (fun _ => false) (evs (exactLinX 1) (wG c true)) (first (exactLinX 1) (wStart 1 0 2)) hr
  refine ⟨_, hl, hj, ?_⟩
  obtain ⟨⟨u, lu⟩, hu, ht⟩ := hl.last
  have I := rodas_log_partial hu
  obtain ⟨h1, h2⟩ := logged_ret ht
  simp only [Bool.false_eq_true, if_false] at h1 h2
  have hE : evs (exactLinX 1) (wG c true) u = [] := by
    rcases step_ret h1 with ⟨-, hb, -⟩ | ⟨hb, -⟩
    · unfold evs; rw [if_pos (Or.inr hb)]
    · exact evs_inner hb
  rw [hE, List.append_nil] at h2
  dsimp only
  rw [h2]
  unfold cnt
  rw [List.filter_eq_nil_iff.2]
  · rfl
  · intro e he
    rw [I.kind e he]
    decide

end Rodas

namespace Rock4

open Odes.Rock4

/-- events of one iteration and what it does to the step size. -/
theorem evs_next {P : Problem n} {T : Tables} {te t0 : ℝ} {y0 : Vec n} {s0 s t : St n}
    (I : Inv P T te t0 y0 s0 s) (h : Odes.Rock4.step P T (X.fin te) s = .next t) :
    (∃ v, evs P T (X.fin te) s = [⟨t.t, t.nsteps, .success, v⟩] ∧ t.nsteps = s.nsteps + 1 ∧ t.nacc = s.nacc + 1 ∧
      t.nrej = s.nrej) ∨
    (∃ v : ℝ, evs P T (X.fin te) s = [⟨t.t, t.nsteps, .rejectedStep, .fin v⟩] ∧ t.nsteps = s.nsteps + 1 ∧
      t.nacc = s.nacc ∧ t.nrej = s.nrej + 1 ∧ 0 < v ∧
      t.h = if s.told = s.t ∧ s.nrejloc + 1 = 10 then .fin 1.0e-5 else .fin (0.8 * v)) := by
  obtain ⟨tt, ht, ht0, hte, -⟩ := I.time
  obtain ⟨f, hf, hf1, hf5⟩ := I.facmax
  obtain ⟨told, htold⟩ := I.told
  have hlt : tt < te := by
    by_contra hc
    rw [Odes.Rock4.step, ht, if_neg (by simpa using hc)] at h
    cases h
  have hlt' : s.t < X.fin te := by rw [ht]; exact hlt
  rw [Odes.Rock4.step, if_pos hlt'] at h
  unfold evs
  rw [if_pos hlt']
  cases hch : choose P (X.fin te) s with
  | ret x => rw [hch] at h; cases h
  | throw x => rw [hch] at h; cases h
  | ub x => rw [hch] at h; cases h
  | next s1 =>
  rw [hch] at h
  simp only at h ⊢
  have C := choose_next P te tt s s1 ht hlt I.uround (I.sel.imp id And.left) hch
  obtain ⟨hh, eig, c1, c2, c3, c4, c5, c6⟩ := C.num
  have hpos : 0 < hh := lt_of_lt_of_le (by norm_num [hmin]) c3
  cases hk : kernel P T s1 s1.h with
  | none => rw [hk] at h; cases h
  | some r =>
  obtain ⟨s2, err⟩ := r
  rw [hk] at h
  simp only at h ⊢
  injection h with h
  have fr := C.frame
  have hb1 : bufs s1 = bufs s := by rw [fr]; rfl
  have hD : Distinct s1 := by have := I.distinct; rw [← hb1] at this; exact this
  have e_t : s1.t = s.t := by rw [fr]
  have e_told : s1.told = s.told := by rw [fr]
  have e_nrj : s1.nrejloc = s.nrejloc := by rw [fr]
  have e_fm : s1.facmax = s.facmax := by rw [fr]
  have e_ns : s1.nsteps = s.nsteps := by rw [fr]
  have e_na : s1.nacc = s.nacc := by rw [fr]
  have e_nr : s1.nrej = s.nrej := by rw [fr]
  have hfn1 : s1.heap s1.fn = P.F (s1.heap s1.y) := by
    have e_y : s1.y = s.y := by rw [fr]
    have e_fn : s1.fn = s.fn := by rw [fr]
    have e_heap : s1.heap = s.heap := by rw [fr]
    rw [e_heap, e_fn, e_y]; exact I.fn
  obtain ⟨-, kf⟩ := kernel_frame P T s1 s2 s1.h err hk hD C.sel.bounds.1 hfn1
  have f_t : s2.t = X.fin tt := by rw [kf]; exact e_t.trans ht
  have f_told : s2.told = X.fin told := by rw [kf]; exact e_told.trans htold
  have f_h : s2.h = X.fin hh := by rw [kf]; exact c1
  have f_fm : s2.facmax = X.fin f := by rw [kf]; exact e_fm.trans hf
  have f_ns : s2.nsteps = s.nsteps := by rw [kf]; exact e_ns
  have f_na : s2.nacc = s.nacc := by rw [kf]; exact e_na
  have f_nr : s2.nrej = s.nrej := by rw [kf]; exact e_nr
  have f_nrj : s2.nrejloc = s.nrejloc := by rw [kf]; exact e_nrj
  by_cases hacc : err < 1.0
  · left
    rw [if_pos hacc, ← h]
    unfold Odes.Rock4.control
    simp only [hacc, if_true]
    exact ⟨_, by rw [f_ns], by rw [f_ns], by rw [f_na], by rw [f_nr]⟩
  · right
    obtain ⟨r, hr, hr1, -, -, -⟩ := factor_spec s2 err f f_fm hf1 hf5
    have hn0 : ¬ (s.nsteps + 1 = 0) := by have := I.count; omega
    have hfeq : X.Feq s2.told s2.t ↔ s.told = s.t := by
      rw [f_t, f_told, ht, htold, X.fin_feq, X.fin_inj]
    rw [if_neg hacc, ← h]
    unfold Odes.Rock4.control
    simp only [hacc, if_false]
    refine ⟨hh * r, by rw [f_h, hr, X.fin_mul, f_ns], by rw [f_ns], by rw [f_na], by rw [f_nr], ?_, ?_⟩
    · exact mul_pos hpos (lt_of_lt_of_le (by norm_num) hr1)
    · rw [f_ns, if_neg hn0, hfeq, f_nrj, f_h, hr]
      by_cases hs : s.told = s.t
      · simp only [hs, if_true, true_and]
        rfl
      · simp only [hs, if_false, false_and]
        rfl

/-- what the log of Rock4 tells: the events of this call follow those which were there before. -/
structure Tells (l0 : List Ev) (s : St n) (l : List Ev) : Prop where
  ex : ∃ E, l = l0 ++ E ∧ cnt .success E = s.nacc ∧ cnt .rejectedStep E = s.nrej ∧ (E.length : ℤ) = s.nsteps ∧
    (E.map Event.step).Pairwise (· < ·) ∧ ∀ e ∈ E, e.step ≤ s.nsteps

/-- C113 (Rock4): the events of a call are added to the log; they are one per attempt, numbered in increasing order, as
many `success` as accepted steps and as many `rejectedStep` as rejected steps.  Missing: the log is not
cleared (`l0` stays), and the step size of a rejection is not the next one (`rock4_log_rejected_wrong`). -/
theorem rock4_log_partial (P : Problem n) (T : Tables) (o : St n) (y : ℕ) (t0 te : ℝ) (h0 : X)
    (hv : Valid o y) (hle : t0 ≤ te) {l0 : List Ev} {s : St n × List Ev}
    (h : Reach (step P T (X.fin te)) (start P o y (X.fin t0) h0, l0) s) : Tells l0 s.1 s.2 := by
  suffices Tells l0 s.1 s.2 ∧ Reach (Odes.Rock4.step P T (X.fin te)) (start P o y (X.fin t0) h0) s.1 from this.1
  refine Reach.inv (I := fun s : St n × List Ev => Tells l0 s.1 s.2 ∧
    Reach (Odes.Rock4.step P T (X.fin te)) (start P o y (X.fin t0) h0) s.1) ?_ ?_ h
  · rintro ⟨s, l⟩ ⟨t, l'⟩ ⟨⟨E, e1, e2, e3, e4, e5, e6⟩, hr⟩ hst
    obtain ⟨h1, h2⟩ := logged_next hst
    simp only [Bool.false_eq_true, if_false] at h1 h2
    dsimp only at e1 e2 e3 e4 e5 e6 hr ⊢
    refine ⟨?_, hr.tail h1⟩
    have key : ∀ e : Ev, e.step = s.nsteps + 1 → ((E ++ [e]).map Event.step).Pairwise (· < ·) ∧
        ∀ e' ∈ E ++ [e], e'.step ≤ s.nsteps + 1 := by
      intro e he
      constructor
      · rw [List.map_append, List.pairwise_append]
        refine ⟨e5, by simp, ?_⟩
        intro a ha b hb
        obtain ⟨e', he', rfl⟩ := List.mem_map.1 ha
        simp only [List.map_cons, List.map_nil, List.mem_singleton] at hb
        have := e6 e' he'
        omega
      · intro e' he'
        rcases List.mem_append.1 he' with he' | he'
        · have := e6 e' he'; omega
        · simp only [List.mem_singleton] at he'; rw [he', he]
    rcases evs_next (hv.reach hle hr) h1 with ⟨v, a1, a2, a3, a4⟩ | ⟨v, a1, a2, a3, a4, -, -⟩
    · obtain ⟨k1, k2⟩ := key ⟨t.t, t.nsteps, .success, v⟩ a2
      refine ⟨⟨_, by rw [h2, a1, e1, List.append_assoc], ?_, ?_, ?_, k1, fun e he => a2 ▸ k2 e he⟩⟩
      · rw [cnt_append, Radau.cnt_one, if_pos rfl, e2, a3]
      · rw [cnt_append, Radau.cnt_one, if_neg (by simp), e3, a4, add_zero]
      · rw [List.length_append]; push_cast; rw [e4, a2]; rfl
    · obtain ⟨k1, k2⟩ := key ⟨t.t, t.nsteps, .rejectedStep, .fin v⟩ a2
      refine ⟨⟨_, by rw [h2, a1, e1, List.append_assoc], ?_, ?_, ?_, k1, fun e he => a2 ▸ k2 e he⟩⟩
      · rw [cnt_append, Radau.cnt_one, if_neg (by simp), e2, a3, add_zero]
      · rw [cnt_append, Radau.cnt_one, if_pos rfl, e3, a4]
      · rw [List.length_append]; push_cast; rw [e4, a2]; rfl
  · refine ⟨⟨[], by simp, ?_, ?_, ?_, by simp, by simp⟩, Reach.refl _ _⟩
    · rfl
    · rfl
    · rfl

/-- C113 is violated by Rock4: the step size of an event `rejectedStep`, printed as "new step", is not the
next one, which is 0.8 times it, or `1.0e-5` at the tenth rejection in a row. -/
theorem rock4_log_rejected_wrong (P : Problem n) (T : Tables) (o : St n) (y : ℕ) (t0 te : ℝ) (h0 : X)
    (hv : Valid o y) (hle : t0 ≤ te) {l0 : List Ev} {s t : St n × List Ev}
    (h : Reach (step P T (X.fin te)) (start P o y (X.fin t0) h0, l0) s) (hst : step P T (X.fin te) s = .next t)
    (hrej : t.1.nrej ≠ s.1.nrej) :
    ∃ v : ℝ, t.2 = s.2 ++ [⟨t.1.t, t.1.nsteps, .rejectedStep, .fin v⟩] ∧ 0 < v ∧
      (t.1.h = .fin (0.8 * v) ∧ t.1.h ≠ .fin v ∨ s.1.nrejloc = 9 ∧ t.1.h = .fin 1.0e-5) := by
  have hr : Reach (Odes.Rock4.step P T (X.fin te)) (start P o y (X.fin t0) h0) s.1 := by
    refine Reach.inv (I := fun s : St n × List Ev => Reach (Odes.Rock4.step P T (X.fin te)) (start P o y (X.fin t0) h0) s.1)
      (fun u v hu huv => hu.tail (logged_next huv).1) (Reach.refl _ _) h
  obtain ⟨h1, h2⟩ := logged_next hst
  simp only [Bool.false_eq_true, if_false] at h2
  rcases evs_next (hv.reach hle hr) h1 with ⟨v, -, -, -, a4⟩ | ⟨v, a1, -, -, -, a5, a6⟩
  · exact absurd a4 hrej
  · refine ⟨v, by rw [h2, a1], a5, ?_⟩
    split_ifs at a6 with hc
    · exact Or.inr ⟨by omega, a6⟩
    · refine Or.inl ⟨a6, ?_⟩
      rw [a6]
      simp only [ne_eq, X.fin_inj]
      intro hc
      norm_num at hc
      linarith

/-- the first attempt of `trapP` is rejected: the log says another step size than the next one. -/
theorem rock4_log_witness : ∃ (t : St 1) (v w : ℝ), w ≠ v ∧
    step (trapP 1) oneT (X.fin 2) (start (trapP 1) zeroObj 0 (X.fin 0) (X.fin 1), []) =
      .next (t, [⟨t.t, t.nsteps, .rejectedStep, .fin v⟩]) ∧ t.h = .fin w := by
  obtain ⟨s1, h1, J1⟩ := trap_first oneT 1 rfl one_ne_zero 2 le_rfl
  obtain ⟨-, -, -, -, -, hs, ha, -⟩ := J1
  have I := zeroStart_inv (trapP 1) oneT 2 1 (by norm_num)
  rcases evs_next I h1 with ⟨v, -, -, a3, -⟩ | ⟨v, a1, -, -, -, a5, a6⟩
  · rw [ha] at a3; exact absurd a3 (by simp [zeroStart, start])
  · rw [if_neg (by simp [zeroStart, start])] at a6
    refine ⟨s1, v, 0.8 * v, by norm_num; linarith, ?_, a6⟩
    unfold step logged
    have h1' : Odes.Rock4.step (trapP 1) oneT (X.fin 2) (start (trapP 1) zeroObj 0 (X.fin 0) (X.fin 1)) = .next s1 := h1
    have a1' : evs (trapP 1) oneT (X.fin 2) (start (trapP 1) zeroObj 0 (X.fin 0) (X.fin 1)) = _ := a1
    rw [h1', a1', written_eq]
    rfl

end Rock4

end Odes.Log
