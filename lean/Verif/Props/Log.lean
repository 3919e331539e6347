import Verif.Model.Log
import Verif.Props.Radau

/-! # C113: the log describes the run -/

namespace Odes.Log

open Classical Logger

theorem written_eq (clr : Bool) (E l : List Ev) : written clr E l = (if clr then [] else l) ++ E := by
  have key : ∀ (E l : List Ev), (E.map toOp).foldl Logger.apply l = l ++ E := by
    intro E
    induction E with
    | nil => intro l; simp
    | cons e E ih =>
      intro l
      rw [List.map_cons, List.foldl_cons, ih]
      simp [toOp, Logger.apply]
  unfold written
  rw [List.foldl_append, key]
  cases clr <;> rfl

/-- the step size recorded by the last event `changedH`. -/
noncomputable def lastH (l : List Ev) : Option X := ((l.filter fun e => e.kind = .changedH).getLast?).map Event.value

/-- number of events of a kind. -/
noncomputable def cnt (k : Kind) (l : List Ev) : ℤ := (l.filter fun e => e.kind = k).length

theorem lastH_append (l E : List Ev) : lastH (l ++ E) = (lastH E).or (lastH l) := by
  unfold lastH
  rw [List.filter_append, List.getLast?_append]
  cases (E.filter fun e => decide (e.kind = .changedH)).getLast? <;> rfl

theorem cnt_append (k : Kind) (l E : List Ev) : cnt k (l ++ E) = cnt k l + cnt k E := by
  unfold cnt
  rw [List.filter_append, List.length_append]
  push_cast
  rfl

theorem logged_next {σ : Type} {step : σ → Res σ} {clr : σ → Bool} {evs : σ → List Ev} {s t : σ × List Ev}
    (h : logged step clr evs s = .next t) :
    step s.1 = .next t.1 ∧ t.2 = (if clr s.1 then [] else s.2) ++ evs s.1 := by
  unfold logged at h
  cases hs : step s.1 with
  | next u => rw [hs] at h; injection h with h; rw [← h]; exact ⟨rfl, written_eq ..⟩
  | ret u => rw [hs] at h; injection h
  | throw e => rw [hs] at h; injection h
  | ub e => rw [hs] at h; injection h

theorem logged_ret {σ : Type} {step : σ → Res σ} {clr : σ → Bool} {evs : σ → List Ev} {s t : σ × List Ev}
    (h : logged step clr evs s = .ret t) :
    step s.1 = .ret t.1 ∧ t.2 = (if clr s.1 then [] else s.2) ++ evs s.1 := by
  unfold logged at h
  cases hs : step s.1 with
  | ret u => rw [hs] at h; injection h with h; rw [← h]; exact ⟨rfl, written_eq ..⟩
  | next u => rw [hs] at h; injection h
  | throw e => rw [hs] at h; injection h
  | ub e => rw [hs] at h; injection h

/-- every run is also a run with a log. -/
theorem reach_logged {σ : Type} {step : σ → Res σ} (clr : σ → Bool) (evs : σ → List Ev) {s t : σ} (l0 : List Ev)
    (h : Reach step s t) : ∃ l, Reach (logged step clr evs) (s, l0) (t, l) := by
  refine Reach.inv (I := fun t => ∃ l, Reach (logged step clr evs) (s, l0) (t, l)) ?_ ⟨l0, Reach.refl _ _⟩ h
  rintro u v ⟨l, hl⟩ huv
  refine ⟨_, hl.tail (u := (v, written (clr u) (evs u) l)) ?_⟩
  unfold logged
  rw [huv]

theorem returns_logged {σ : Type} {step : σ → Res σ} (clr : σ → Bool) (evs : σ → List Ev) {s t : σ} (l0 : List Ev)
    (h : Returns step s t) : ∃ l, Returns (logged step clr evs) (s, l0) (t, l) := by
  obtain ⟨u, hu, ht⟩ := h.last
  obtain ⟨l, hl⟩ := reach_logged clr evs l0 hu
  refine ⟨_, hl.returns (u := (t, written (clr u) (evs u) l)) ?_⟩
  unfold logged
  rw [ht]

/-- a quantity which changes during a run changes in some transition. -/
theorem reach_change {σ α : Type} {step : σ → Res σ} (f : σ → α) {s t : σ} (h : Reach step s t) (hf : f t ≠ f s) :
    ∃ u v, Reach step s u ∧ step u = .next v ∧ f v ≠ f u := by
  by_contra hc
  push Not at hc
  refine hf (Reach.inv (I := fun t => Reach step s t ∧ f t = f s) ?_ ⟨Reach.refl _ _, rfl⟩ h).2
  rintro u v ⟨h1, h2⟩ h3
  exact ⟨h1.tail h3, (hc u v h1 h3).trans h2⟩

variable {n : ℕ}

namespace Radau

open Odes.Radau

variable {L : Lin X n} {P : Prob X n} {g : Cfg n}

/-- an attempt has been counted but not finished. -/
def pend {σ : Type} (s : St n σ) : ℤ := if s.phase = .newton ∨ s.phase = .tail then 1 else 0

/-- what the events of a transition from `s` to `t` tell. -/
structure Tr {σ : Type} (s t : St n σ) (E : List Ev) : Prop where
  stamp : ∀ e ∈ E, e.time = t.x ∧ e.step = t.nstep
  size : lastH E = some t.h ∨ (lastH E = none ∧ t.h = s.h)
  rej : cnt .rejectedStep E = t.rejs - s.rejs
  mono : s.nstep ≤ t.nstep
  ph : t.phase ≠ .init
  dnc : t.dnc = false → s.dnc = false ∧ cnt .NewtonFailed E = 0
  bal : t.dnc = false → t.nstep - s.nstep = (t.naccpt - s.naccpt) + (t.rejs - s.rejs)
    + cnt .NewtonWillNotConverge E + (pend t - pend s)

theorem lastH_nil : lastH ([] : List Ev) = none := rfl
theorem cnt_nil (k : Kind) : cnt k ([] : List Ev) = 0 := rfl
theorem lastH_one (e : Ev) (h : e.kind = .changedH) : lastH [e] = some e.value := by simp [lastH, h]
theorem cnt_one (k : Kind) (e : Ev) : cnt k [e] = if e.kind = k then 1 else 0 := by
  by_cases h : e.kind = k <;> simp [cnt, h]

theorem testEvs_pass {s : St n L.σ} {r : Option Reason} {fc th tq : X}
    (h : newtonStep L P g s = (r, pass L P g s fc th tq)) (hw : r ≠ some .willNotConverge) :
    testEvs L P g s = [] := by
  unfold testEvs
  dsimp only
  rw [if_neg]
  intro hf
  apply hw
  have : (newtonStep L P g s).1 = some .willNotConverge := by
    unfold newtonStep
    dsimp only
    unfold newtonTest at hf ⊢
    dsimp only at hf ⊢
    by_cases h1 : 1 < s.newt + 1 ∧ s.newt + 1 < g.nit
    · rw [if_pos h1] at hf ⊢
      split_ifs at hf ⊢ <;> first | rfl | (exfalso; simp_all; done) | (exfalso; omega)
    · rw [if_neg h1] at hf; simp at hf
  rw [h] at this
  exact this

theorem testEvs_fail {s : St n L.σ} {fc th tq h' : X}
    (h : newtonStep L P g s = (some .willNotConverge, fail L P g s fc th tq h')) :
    testEvs L P g s = [⟨s.x, s.nstep, .changedH, h'⟩] := by
  have h1 : (newtonStep L P g s).1 = some .willNotConverge := by rw [h]
  have h2 : (newtonStep L P g s).2.h = h' := by rw [h]; rfl
  unfold testEvs
  dsimp only
  unfold newtonStep at h1 h2
  dsimp only at h1 h2
  unfold newtonTest at h1 h2 ⊢
  dsimp only at h1 h2 ⊢
  split_ifs at h1 h2 ⊢ <;> simp_all

theorem Tr.nil {s t : St n L.σ} (ph : t.phase ≠ .init) (hx : t.h = s.h) (hr : t.rejs = s.rejs) (hn : s.nstep ≤ t.nstep)
    (hd : t.dnc = s.dnc) (hb : t.nstep - s.nstep = t.naccpt - s.naccpt + (pend t - pend s)) : Tr s t [] := by
  refine ⟨by simp, Or.inr ⟨lastH_nil, hx⟩, by rw [cnt_nil, hr]; ring, hn, ph, fun h => ⟨hd ▸ h, cnt_nil _⟩, fun _ => ?_⟩
  rw [cnt_nil, hr, hb]; ring

theorem Tr.chg {s t : St n L.σ} {e : Ev} (ph : t.phase ≠ .init) (hk : e.kind = .changedH) (ht : e.time = t.x) (hs : e.step = t.nstep)
    (hx : e.value = t.h) (hr : t.rejs = s.rejs) (hn : s.nstep ≤ t.nstep) (hd : t.dnc = s.dnc)
    (hb : t.nstep - s.nstep = t.naccpt - s.naccpt + (pend t - pend s)) : Tr s t [e] := by
  refine ⟨by simpa using ⟨ht, hs⟩, Or.inl (by rw [lastH_one _ hk, hx]), ?_, hn, ph,
    fun h => ⟨hd ▸ h, ?_⟩, fun _ => ?_⟩
  · rw [cnt_one, hk, hr, if_neg (by simp)]; ring
  · rw [cnt_one, hk, if_neg (by simp)]
  · rw [cnt_one, hk, hr, if_neg (by simp), hb]; ring

theorem tr_newton {s t : St n L.σ} (hp : s.phase = .newton) (h : newton L P g s = .next t) :
    Tr s t (newtonEvs L P g s) := by
  have hps : pend s = 1 := by unfold pend; rw [hp]; simp
  rcases newtonStep_cases (L := L) (P := P) (g := g) s with ⟨r, fc, th, tq, he, hr, -⟩ | ⟨-, -, fc, th, tq, h', he, -⟩
  · unfold newtonEvs
    rw [testEvs_pass he (by rcases hr with ⟨h, -⟩ | ⟨-, h, -⟩ | ⟨-, h, -⟩ <;> rw [h] <;> simp), he, List.nil_append]
    dsimp only
    rcases hr with ⟨h1, -⟩ | ⟨-, h1, -⟩ | ⟨-, h1, -⟩ <;> rw [h1] at he ⊢
    · rw [newton_some he] at h
      dsimp only
      unfold afterEvs
      rw [h]
      dsimp only
      rw [if_pos rfl]
      obtain ⟨u, j, hu, ht⟩ := afterNewton_dnc h
      have hd : t.dnc = true := by rcases hu with rfl | ⟨-, rfl⟩ <;> rw [ht] <;> rfl
      have hh : t.h = s.h * 0.5 ∧ t.x = s.x ∧ t.nstep = s.nstep ∧ t.rejs = s.rejs := by
        rcases hu with rfl | ⟨-, rfl⟩ <;> rw [ht] <;> exact ⟨rfl, rfl, rfl, rfl⟩
      obtain ⟨h3, h4, h5, h6⟩ := hh
      refine ⟨?_, Or.inl ?_, ?_, h5.ge, by rw [ht]; dsimp only; split_ifs <;> simp, fun h => absurd h (by rw [hd]; simp), fun h => absurd h (by rw [hd]; simp)⟩
      · intro e he
        simp only [List.cons_append, List.nil_append, List.mem_cons, List.not_mem_nil, or_false] at he
        rcases he with rfl | rfl <;> exact ⟨h4.symm, h5.symm⟩
      · rw [h3]; simp [lastH, pass]
      · rw [h6]; simp [cnt]
    · rw [newton_some he] at h
      rw [afterNewton_converged h]
      refine Tr.nil (by simp) rfl rfl le_rfl rfl ?_
      rw [hps]; simp [pend, pass]
    · rw [newton_none he] at h
      injection h with h
      rw [← h]
      refine Tr.nil (by show s.phase ≠ _; rw [hp]; simp) rfl rfl le_rfl rfl ?_
      show s.nstep - s.nstep = s.naccpt - s.naccpt + (pend s - pend s)
      ring
  · unfold newtonEvs
    rw [testEvs_fail he, he]
    dsimp only
    rw [newton_some he] at h
    unfold afterEvs
    rw [h]
    dsimp only
    rw [if_pos rfl]
    obtain ⟨u, j, hu, ht⟩ := afterNewton_wnc h
    have hh : t.h = h' ∧ t.x = s.x ∧ t.nstep = s.nstep ∧ t.rejs = s.rejs ∧ t.dnc = s.dnc ∧ t.naccpt = s.naccpt := by
      rcases hu with rfl | ⟨-, rfl⟩ <;> rw [ht] <;> exact ⟨rfl, rfl, rfl, rfl, rfl, rfl⟩
    have hpt : pend t = 0 := by rw [ht]; simp [pend]
    obtain ⟨h3, h4, h5, h6, h7, h8⟩ := hh
    refine ⟨?_, Or.inl ?_, ?_, h5.ge, by rw [ht]; simp, fun h => ⟨h7 ▸ h, ?_⟩, fun _ => ?_⟩
    · intro e he
      simp only [List.cons_append, List.nil_append, List.mem_cons, List.not_mem_nil, or_false] at he
      rcases he with rfl | rfl <;> exact ⟨h4.symm, h5.symm⟩
    · rw [h3]; simp [lastH]
    · rw [h6]; simp [cnt]
    · simp [cnt]
    · rw [h5, h6, h8, hps, hpt]; simp [cnt]

theorem tailEvs_eq (s : St n L.σ) : tailEvs L P g s =
    if errNow L P g s < 1.0 then
      if g.onlyOneStep then []
      else if Ends g s then [⟨s.xph, s.nstep, .changedH, s.hopt⟩]
      else
        let hn := proposed (acc L P g s) (hnewNow L P g s)
        if 0.0 ≤ (s.xph + hn / g.quot1 - s.xend) * s.posneg then [⟨s.xph, s.nstep, .changedH, s.xend - s.xph⟩]
        else if s.theta ≤ g.thet ∧ g.quot1 ≤ hn / s.h ∧ hn / s.h ≤ g.quot2 then []
        else [⟨s.xph, s.nstep, .changedH, hn⟩]
    else [⟨s.x, s.nstep, .rejectedStep, s.h⟩,
      ⟨s.x, s.nstep, .changedH, if s.first then s.h * 0.1 else s.h / quotOf g s (errNow L P g s)⟩] := rfl

theorem tr_tail {s t : St n L.σ} (hp : s.phase = .tail) (h : tail L P g s = .next t) :
    Tr s t (tailEvs L P g s) := by
  have hps : pend s = 1 := by unfold pend; rw [hp]; simp
  rw [tailEvs_eq]
  rcases tail_next h with ⟨h1, h2, h3, h4⟩ | ⟨h1, h4⟩
  · rw [if_pos h1, if_neg (by rw [h2]; simp), if_neg h3]
    dsimp only
    rcases nextStep_next h4 with ⟨h5, u, j, hu, ht⟩ | ⟨h5, h6, h7, h8, ht⟩ | ⟨h5, u, j, hu, ht⟩
    · rw [if_pos (show 0.0 ≤ (s.xph + proposed (acc L P g s) (hnewNow L P g s) / g.quot1 - s.xend) * s.posneg from h5)]
      rcases hu with rfl | ⟨-, rfl⟩ <;> rw [ht] <;>
      · refine Tr.chg (by simp [evaluated, newJac]) rfl rfl rfl rfl rfl le_rfl rfl ?_
        rw [hps]; simp [pend, evaluated, newJac, acc, accepted, counted]
    · rw [if_neg (show ¬ 0.0 ≤ (s.xph + proposed (acc L P g s) (hnewNow L P g s) / g.quot1 - s.xend) * s.posneg from h5),
        if_pos (show s.theta ≤ g.thet ∧ g.quot1 ≤ proposed (acc L P g s) (hnewNow L P g s) / s.h ∧
          proposed (acc L P g s) (hnewNow L P g s) / s.h ≤ g.quot2 from ⟨h6, h7, h8⟩), ht]
      refine Tr.nil (by simp [evaluated]) rfl rfl le_rfl rfl ?_
      rw [hps]; simp [pend, evaluated, acc, accepted, counted]
    · rw [if_neg (show ¬ 0.0 ≤ (s.xph + proposed (acc L P g s) (hnewNow L P g s) / g.quot1 - s.xend) * s.posneg from h5)]
      by_cases hk : s.theta ≤ g.thet ∧ g.quot1 ≤ proposed (acc L P g s) (hnewNow L P g s) / s.h ∧
          proposed (acc L P g s) (hnewNow L P g s) / s.h ≤ g.quot2
      · have e : nextStep L P g (acc L P g s) (hnewNow L P g s) =
            .next (evaluated P (acc L P g s) (hnewNow L P g s)) := by
          unfold nextStep
          dsimp only
          rw [if_neg h5]
          exact if_pos hk
        rw [e] at h4
        injection h4 with h4
        rw [if_pos hk, ← h4]
        refine Tr.nil (by simp [evaluated]) rfl rfl le_rfl rfl ?_
        rw [hps]; simp [pend, evaluated, acc, accepted, counted]
      · rw [if_neg hk]
        rcases hu with rfl | ⟨-, rfl⟩ <;> rw [ht] <;>
        · refine Tr.chg (by simp [evaluated, newJac]) rfl rfl rfl rfl rfl le_rfl rfl ?_
          rw [hps]; simp [pend, evaluated, newJac, acc, accepted, counted]
  · rw [if_neg h1]
    obtain ⟨u, j, hu, ht⟩ := rejected_next h4
    have hh : t.h = (if s.first then s.h * 0.1 else s.h / quotOf g s (errNow L P g s)) ∧ t.x = s.x ∧
        t.nstep = s.nstep ∧ t.rejs = s.rejs + 1 ∧ t.dnc = s.dnc ∧ t.naccpt = s.naccpt := by
      rcases hu with rfl | ⟨-, rfl⟩ <;> rw [ht] <;> exact ⟨rfl, rfl, rfl, rfl, rfl, rfl⟩
    have hpt : pend t = 0 := by rcases hu with rfl | ⟨-, rfl⟩ <;> rw [ht] <;> simp [pend, rejectState, newJac]
    obtain ⟨h3, h4, h5, h6, h7, h8⟩ := hh
    refine ⟨?_, Or.inl ?_, ?_, h5.ge, by rcases hu with rfl | ⟨-, rfl⟩ <;> rw [ht] <;> simp [rejectState, newJac],
      fun h => ⟨h7 ▸ h, ?_⟩, fun _ => ?_⟩
    · intro e he
      simp only [List.mem_cons, List.not_mem_nil, or_false] at he
      rcases he with rfl | rfl <;> exact ⟨h4.symm, h5.symm⟩
    · rw [h3]; simp [lastH]
    · rw [h6]; simp [cnt]
    · simp [cnt]
    · rw [h5, h6, h8, hps, hpt]; simp [cnt]

theorem tr_step {s t : St n L.σ} (hp : s.phase ≠ .init) (h : Odes.Radau.step L P g s = .next t) :
    Tr s t (evs L P g s) := by
  unfold evs
  match hph : s.phase with
  | .init => exact absurd hph hp
  | .check =>
    rw [step_check hph] at h
    split_ifs at h
    injection h with h
    rw [← h]
    refine Tr.nil (by simp) rfl rfl le_rfl rfl ?_
    simp [pend, hph]
  | .attempt =>
    rw [step_attempt hph] at h
    injection h with h
    rw [← h]
    refine Tr.nil (by simp [attempt]) rfl rfl ?_ rfl ?_
    · show s.nstep ≤ s.nstep + 1
      omega
    · simp [pend, hph, attempt]
  | .newton => rw [step_newton hph] at h; exact tr_newton hph h
  | .tail => rw [step_tail hph] at h; exact tr_tail hph h

/-- what the log `l` tells about the run from `s0` to `s`. -/
structure Tells (step : St n L.σ → Res (St n L.σ)) (s0 s : St n L.σ) (l : List Ev) : Prop where
  /-- the step size in force is the one recorded last -/
  size : lastH l = some s.h
  /-- all rejected steps are recorded -/
  rej : cnt .rejectedStep l = s.rejs
  /-- the numbers of the steps increase -/
  sorted : (l.map Event.step).Pairwise (· ≤ ·)
  last : ∀ e ∈ l, e.step ≤ s.nstep
  /-- every event carries the time and the number of a step of this run -/
  stamp : ∀ e ∈ l, ∃ u, (Reach step s0 u ∨ Returns step s0 u) ∧ u.x = e.time ∧ u.nstep = e.step

/-- as long as Newton did not end with `didNotConverge`, every step is accepted, rejected or given up, and all
steps given up are recorded. -/
def Counts (s : St n L.σ) (p : ℤ) (l : List Ev) : Prop :=
  s.dnc = false → cnt .NewtonFailed l = 0 ∧ s.nstep = s.naccpt + s.rejs + cnt .NewtonWillNotConverge l + p

theorem sorted_append {l E : List Ev} {k : ℤ} (h : (l.map Event.step).Pairwise (· ≤ ·)) (h1 : ∀ e ∈ l, e.step ≤ k)
    (h2 : ∀ e ∈ E, e.step = k) : ((l ++ E).map Event.step).Pairwise (· ≤ ·) := by
  rw [List.map_append, List.pairwise_append]
  refine ⟨h, ?_, ?_⟩
  · rw [List.pairwise_map]
    exact List.pairwise_of_forall_mem_list (fun a ha b hb => by rw [h2 a ha, h2 b hb])
  · intro a ha b hb
    obtain ⟨e, he, rfl⟩ := List.mem_map.mp ha
    obtain ⟨e', he', rfl⟩ := List.mem_map.mp hb
    rw [h2 e' he']
    exact h1 e he

theorem tells_init {s0 t : St n L.σ} (hp : s0.phase = .init) (h : Odes.Radau.step L P g s0 = .next t) :
    t.phase = .check ∧ Tells (Odes.Radau.step L P g) s0 t (evs L P g s0) ∧ Counts t (pend t) (evs L P g s0) := by
  have hr : Reach (Odes.Radau.step L P g) s0 t := (Reach.refl _ _).tail h
  rw [step_init hp] at h
  obtain ⟨j, rfl⟩ := init_next h
  have hst : ∀ e ∈ initEvs L P g s0, e.time = s0.x ∧ e.step = 0 ∧ e.kind = .changedH := by
    intro e he
    unfold initEvs at he
    dsimp only at he
    split_ifs at he <;> simp at he <;> rcases he with he | he | he | he <;> simp_all
  have hc : ∀ k, k ≠ .changedH → cnt k (initEvs L P g s0) = 0 := by
    intro k hk
    unfold cnt
    rw [List.filter_eq_nil_iff.mpr]
    · rfl
    · intro e he
      rw [(hst e he).2.2]
      simpa using hk.symm
  unfold evs
  rw [hp]
  dsimp only
  refine ⟨rfl, ⟨?_, ?_, ?_, ?_, ?_⟩, fun _ => ⟨hc _ (by simp), ?_⟩⟩
  · unfold initEvs
    dsimp only
    rw [lastH_append]
    show _ = some (entered P g s0).h
    by_cases ho : (entered P g s0).last = true
    · rw [if_pos ho, lastH_one _ rfl]
      unfold entered at ho ⊢
      dsimp only at ho ⊢
      split_ifs at ho ⊢ <;> rfl
    · rw [if_neg ho, lastH_nil, lastH_append, lastH_one _ rfl]
      unfold entered at ho ⊢
      dsimp only at ho ⊢
      split_ifs at ho ⊢ <;> first | rfl | simp at ho
  · rw [hc _ (by simp)]; rfl
  · have := sorted_append (l := []) (E := initEvs L P g s0) (k := 0) (by simp) (by simp) fun e he => (hst e he).2.1
    simpa using this
  · intro e he; rw [(hst e he).2.1]; exact le_rfl
  · intro e he
    exact ⟨_, Or.inl hr, (hst e he).1.symm, (hst e he).2.1.symm⟩
  · rw [hc _ (by simp)]; simp [begun, newJac, entered, pend]

theorem tells_step {s0 s t : St n L.σ} {l : List Ev} (hp : s.phase ≠ .init)
    (h : Odes.Radau.step L P g s = .next t) (hr : Reach (Odes.Radau.step L P g) s0 s)
    (T : Tells (Odes.Radau.step L P g) s0 s l) (C : Counts s (pend s) l) :
    Tells (Odes.Radau.step L P g) s0 t (l ++ evs L P g s) ∧ Counts t (pend t) (l ++ evs L P g s) := by
  have I := tr_step hp h
  refine ⟨⟨?_, ?_, ?_, ?_, ?_⟩, fun hd => ?_⟩
  · rw [lastH_append]
    rcases I.size with e | ⟨e, e'⟩
    · rw [e]; rfl
    · rw [e, e', T.size]; rfl
  · rw [cnt_append, T.rej, I.rej]; ring
  · exact sorted_append T.sorted (fun e he => (T.last e he).trans I.mono) fun e he => (I.stamp e he).2
  · intro e he
    rcases List.mem_append.mp he with he | he
    · exact (T.last e he).trans I.mono
    · exact (I.stamp e he).2.le
  · intro e he
    rcases List.mem_append.mp he with he | he
    · exact T.stamp e he
    · exact ⟨t, Or.inl (hr.tail h), (I.stamp e he).1.symm, (I.stamp e he).2.symm⟩
  · obtain ⟨h1, h2⟩ := I.dnc hd
    obtain ⟨h3, h4⟩ := C h1
    have h5 := I.bal hd
    rw [cnt_append, cnt_append, h2, h3]
    exact ⟨by ring, by linarith⟩

/-- invariant of Radau5 with its log. -/
theorem tells {s0 : St n L.σ} (hp : s0.phase = .init) {l0 : List Ev} {s : St n L.σ × List Ev}
    (h : Reach (step L P g) (s0, l0) s) : s = (s0, l0) ∨ (s.1.phase ≠ .init ∧ Reach (Odes.Radau.step L P g) s0 s.1 ∧
      Tells (Odes.Radau.step L P g) s0 s.1 s.2 ∧ Counts s.1 (pend s.1) s.2) := by
  refine Reach.inv (I := fun s => s = (s0, l0) ∨ (s.1.phase ≠ .init ∧ Reach (Odes.Radau.step L P g) s0 s.1 ∧
      Tells (Odes.Radau.step L P g) s0 s.1 s.2 ∧ Counts s.1 (pend s.1) s.2)) ?_ (Or.inl rfl) h
  intro s s' I h
  right
  obtain ⟨h1, h2⟩ := logged_next h
  rcases I with rfl | ⟨I1, I2, I3, I4⟩
  · obtain ⟨h3, h4, h5⟩ := tells_init hp h1
    rw [h2, if_pos (by unfold clr; rw [hp]; rfl), List.nil_append]
    exact ⟨by rw [h3]; simp, (Reach.refl _ _).tail h1, h4, h5⟩
  · rw [h2, if_neg (by unfold clr; simpa using I1)]
    exact ⟨(tr_step I1 h1).ph, I2.tail h1, tells_step I1 h1 I2 I3 I4⟩

/-- C113, partial: Radau5 with logging, after the entry of `operator()`, whatever the log contained before: the log
tells the step size in force, all rejected steps, and (until the first `didNotConverge`) all steps given up by
Newton.  Missing: the text written for `rejectedStep` (`radau_log_rejected_wrong`). -/
theorem radau_log_partial {o : St n L.σ} {h x xend : X} {y : Fin n → X} {l0 : List Ev} {s : St n L.σ × List Ev}
    (hr : Reach (step L P g) (call o h x xend y, l0) s) (hs : s.1.phase ≠ .init) :
    Tells (Odes.Radau.step L P g) (call o h x xend y) s.1 s.2 ∧ Counts s.1 (pend s.1) s.2 := by
  rcases tells (s0 := call o h x xend y) rfl hr with rfl | ⟨-, -, h1, h2⟩
  · exact absurd rfl hs
  · exact ⟨h1, h2⟩

/-- C113, partial: the log when `operator()` returns. -/
theorem radau_log_return_partial {o : St n L.σ} {h x xend : X} {y : Fin n → X} {l0 : List Ev}
    {s : St n L.σ × List Ev} (hr : Returns (step L P g) (call o h x xend y, l0) s) :
    Tells (Odes.Radau.step L P g) (call o h x xend y) s.1 s.2 ∧
    Counts s.1 (if g.onlyOneStep then 1 else 0) s.2 := by
  obtain ⟨u, hu, hs⟩ := hr.last
  obtain ⟨h1, h2⟩ := logged_ret hs
  obtain ⟨hp, ht⟩ := step_ret h1
  rcases tells (s0 := call o h x xend y) rfl hu with rfl | ⟨-, hR, T, C⟩
  · simp [call] at hp
  rw [if_neg (by unfold clr; rw [hp]; simp)] at h2
  have hpe : pend u.1 = 1 := by simp [pend, hp]
  have hE : evs L P g u.1 = tailEvs L P g u.1 := by unfold evs; rw [hp]
  rw [hE, tailEvs_eq] at h2
  obtain ⟨he, ⟨ho, e⟩ | ⟨ho, hE, e⟩⟩ := tail_ret ht
  · rw [if_pos he, if_pos ho, List.append_nil] at h2
    rw [if_pos ho, h2, e]
    have := T
    refine ⟨⟨T.size, T.rej, T.sorted, T.last, T.stamp⟩, fun hd => ?_⟩
    rw [← hpe]
    exact C hd
  · rw [if_pos he, if_neg (by rw [ho]; simp), if_pos hE] at h2
    rw [if_neg (by rw [ho]; simp), h2]
    have hx : s.1.x = u.1.xph ∧ s.1.nstep = u.1.nstep ∧ s.1.h = u.1.hopt ∧ s.1.rejs = u.1.rejs ∧
      s.1.naccpt = u.1.naccpt + 1 ∧ s.1.dnc = u.1.dnc := by rw [e]; exact ⟨rfl, rfl, rfl, rfl, rfl, rfl⟩
    obtain ⟨x1, x2, x3, x4, x5, x6⟩ := hx
    refine ⟨⟨?_, ?_, ?_, ?_, ?_⟩, fun hd => ?_⟩
    · rw [lastH_append, lastH_one _ rfl, x3]; rfl
    · rw [cnt_append, T.rej, cnt_one, if_neg (by simp), x4]; ring
    · exact sorted_append T.sorted T.last (by simp)
    · intro v hv
      rw [x2]
      rcases List.mem_append.mp hv with hv | hv
      · exact T.last v hv
      · simp only [List.mem_singleton] at hv; rw [hv]
    · intro v hv
      rcases List.mem_append.mp hv with hv | hv
      · exact T.stamp v hv
      · simp only [List.mem_singleton] at hv
        exact ⟨s.1, Or.inr (hR.returns h1), by rw [hv, x1], by rw [hv, x2]⟩
    · obtain ⟨c1, c2⟩ := C (x6 ▸ hd)
      rw [cnt_append, cnt_append, cnt_one, cnt_one, if_neg (by simp), if_neg (by simp)]
      exact ⟨by linarith, by linarith⟩

theorem newton_rejs {s t : St n L.σ} (h : newton L P g s = .next t) : t.rejs = s.rejs := by
  rcases newtonStep_cases (L := L) (P := P) (g := g) s with ⟨r, fc, th, tq, he, hr, -⟩ | ⟨-, -, fc, th, tq, h', he, -⟩
  · rcases hr with ⟨h1, -⟩ | ⟨-, h1, -⟩ | ⟨-, h1, -⟩ <;> rw [h1] at he
    · rw [newton_some he] at h
      obtain ⟨u, j, hu, ht⟩ := afterNewton_dnc h
      rcases hu with rfl | ⟨-, rfl⟩ <;> rw [ht] <;> rfl
    · rw [newton_some he] at h
      rw [afterNewton_converged h]; rfl
    · rw [newton_none he] at h
      injection h with h
      rw [← h]; rfl
  · rw [newton_some he] at h
    obtain ⟨u, j, hu, ht⟩ := afterNewton_wnc h
    rcases hu with rfl | ⟨-, rfl⟩ <;> rw [ht] <;> rfl

/-- C113, the statement fails for Radau5: whenever a step is rejected (forward integration), the event
`rejectedStep`, which is printed with the words "new step:", carries the rejected step size and not the new one. -/
theorem radau_log_rejected_wrong {sf u : ℝ} (hg : Std g sf u) {x0 xe : ℝ} (hx : x0 < xe) {o s t : St n L.σ} {h : X}
    {y : Fin n → X} (hr : Reach (Odes.Radau.step L P g) (call o h (.fin x0) (.fin xe) y) s) (hp : s.phase ≠ .init)
    (hst : Odes.Radau.step L P g s = .next t) (hj : t.rejs ≠ s.rejs) :
    ∃ v w, w < v ∧ t.h = .fin w ∧ evs L P g s =
      [⟨s.x, s.nstep, .rejectedStep, .fin v⟩, ⟨s.x, s.nstep, .changedH, .fin w⟩] := by
  have hI := hst
  match hph : s.phase with
  | .init => exact absurd hph hp
  | .check =>
    rw [step_check hph] at hst
    split_ifs at hst
    injection hst with hst
    exact absurd (by rw [← hst]) hj
  | .attempt =>
    rw [step_attempt hph] at hst
    injection hst with hst
    exact absurd (by rw [← hst]; rfl) hj
  | .newton => rw [step_newton hph] at hst; exact absurd (newton_rejs hst) hj
  | .tail =>
    obtain ⟨v, w, e1, -, e2, -, e3⟩ := radau_next_step hg hx hr hph hst
    rw [step_tail hph] at hst
    rcases tail_next hst with ⟨-, -, -, h4⟩ | ⟨h1, h4⟩
    · exfalso
      apply hj
      rcases nextStep_next h4 with ⟨-, u, j, hu, ht⟩ | ⟨-, -, -, -, ht⟩ | ⟨-, u, j, hu, ht⟩
      · rcases hu with rfl | ⟨-, rfl⟩ <;> rw [ht] <;> rfl
      · rw [ht]; rfl
      · rcases hu with rfl | ⟨-, rfl⟩ <;> rw [ht] <;> rfl
    · obtain ⟨u, j, hu, ht⟩ := rejected_next h4
      have hh : t.h = (if s.first then s.h * 0.1 else s.h / quotOf g s (errNow L P g s)) ∧ t.naccpt = s.naccpt := by
        rcases hu with rfl | ⟨-, rfl⟩ <;> rw [ht] <;> exact ⟨rfl, rfl⟩
      rcases e3 with ⟨e3, -⟩ | ⟨-, -, e3, -⟩
      · rw [hh.2] at e3; omega
      refine ⟨v, w, e3, e2, ?_⟩
      unfold evs
      rw [hph]
      dsimp only
      rw [tailEvs_eq, if_neg h1, ← hh.1, e2, e1]

/-- such a run, with the text of the log. -/
theorem radau_log_rejected_witness : ∃ (f : X → X) (s t : St 1 Sc) (v w : ℝ), w < v ∧
    Reach (Odes.Radau.step scalar (ofTime f) (wcfg 7 true))
      (call (L := scalar) obj (.fin 1) (.fin 0) (.fin 1) fun _ => .fin 0) s ∧
    Odes.Radau.step scalar (ofTime f) (wcfg 7 true) s = .next t ∧ t.h = .fin w ∧
    evs scalar (ofTime f) (wcfg 7 true) s =
      [⟨s.x, s.nstep, .rejectedStep, .fin v⟩, ⟨s.x, s.nstep, .changedH, .fin w⟩] := by
  obtain ⟨t, hr, -, -, hj⟩ := uncounted_run obj rfl
  obtain ⟨u, hu, hs⟩ := hr.last
  obtain ⟨hp, hs⟩ := step_ret hs
  have hj' : u.rejs = 1 := by
    rw [← hj]
    obtain ⟨-, ⟨-, e⟩ | ⟨-, -, e⟩⟩ := tail_ret hs <;> rw [e] <;> rfl
  have hb : (at0 obj 1 0 1).rejs = 0 := rfl
  obtain ⟨a, b, h1, h2, h3⟩ := reach_change (fun s : St 1 Sc => s.rejs) hu (by rw [hj', hb]; decide)
  have hph : a.phase ≠ .init := by
    intro hi
    have h0 : a.phase = .init → a.rejs = 0 := by
      refine Reach.inv (I := fun a => a.phase = .init → a.rejs = 0) ?_ (fun _ => hb) h1
      intro p q _ hq hi
      by_cases hp : p.phase = .init
      · rw [(tells_init hp hq).1] at hi; cases hi
      · exact absurd hi (tr_step hp hq).ph
    rw [step_init hi] at h2
    obtain ⟨j, rfl⟩ := init_next h2
    rw [h0 hi] at h3
    exact h3 rfl
  obtain ⟨v, w, e1, e2, e3⟩ := radau_log_rejected_wrong (wcfg_std 7 true (by decide)) one_pos h1 hph h2 h3
  exact ⟨_, a, b, v, w, e1, h1, h2, e2, e3⟩

/-- a run which returns after a rejection; its log has one event `rejectedStep`. -/
example : ∃ (f : X → X) (s : St 1 Sc × List Ev), Returns (step scalar (ofTime f) (wcfg 7 true))
    (call (L := scalar) obj (.fin 1) (.fin 0) (.fin 1) (fun _ => .fin 0), []) s ∧ cnt .rejectedStep s.2 = 1 := by
  obtain ⟨t, hr, -, -, hj⟩ := uncounted_run obj rfl
  obtain ⟨l, hl⟩ := returns_logged (clr scalar) (evs scalar (ofTime (at0only (.fin 1))) (wcfg 7 true)) [] hr
  exact ⟨_, _, hl, by rw [(radau_log_return_partial hl).1.rej]; exact hj⟩

end Radau

end Odes.Log
