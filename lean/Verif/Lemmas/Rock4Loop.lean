import Verif.Lemmas.Rock4Control
import Mathlib.Tactic.Positivity
import Mathlib.Data.Prod.Lex

/-! The invariant of the ROCK4 time loop and its termination. -/

namespace Odes.Rock4

open Classical

variable {n : ℕ}

/-- all buffers of the object and the user's one. -/
def bufs (s : St n) : List ℕ := [s.y, s.fn, s.k1, s.k2, s.k3, s.k4, s.temp, s.g0]

/-- a formula of the tables was used and its error estimate was below one. -/
def StepOk (P : Problem n) (T : Tables) (atol rtol : X) (R : Spec.Formula) (h : ℝ)
    (y : Fin n → X) : Prop :=
  (∃ mdeg mp1 mp2, Sel mdeg mp1 mp2 ∧ R = formulaOf T mdeg mp1 mp2) ∧
  Spec.scaledRms (Spec.errVec R (X.fin h) (Spec.stages R P.F (X.fin h) y))
    (Spec.stages R P.F (X.fin h) y).ynew atol rtol < 1.0

/-- invariant of `while(t<tend)`. -/
structure Inv (P : Problem n) (T : Tables) (te t0 : ℝ) (y0 : Vec n) (s0 s : St n) : Prop where
  time : ∃ t, s.t = X.fin t ∧ t0 ≤ t ∧ t ≤ te ∧
    Spec.Path P.F (StepOk P T s0.atol s0.rtol) t0 y0 t (s.heap s.y)
  tol : s.atol = s0.atol ∧ s.rtol = s0.rtol
  uround : s.uround = 1.0e-16
  sel : s.mdego = 0 ∨ (Sel s.mdego s.mp1 s.mp2 ∧ s.mdego = s.mdeg)
  distinct : (bufs s).Nodup
  perm : (bufs s).Perm (bufs s0)
  fn : s.heap s.fn = P.F (s.heap s.y)
  facmax : ∃ f, s.facmax = X.fin f ∧ 1 ≤ f ∧ f ≤ 5
  told : ∃ r, s.told = X.fin r
  nrejloc : 0 ≤ s.nrejloc
  count : s.nacc + s.nrej = s.nsteps ∧ 0 ≤ s.nacc ∧ 0 ≤ s.nrej
  calls : s.funccal = s.calls
  nrho : 0 ≤ s.nrho ∧ s.nrho < 10

/-- description of one iteration. -/
structure Iter (P : Problem n) (T : Tables) (te t : ℝ) (s s1 s' : St n) (err : X) (hh : ℝ) :
    Prop where
  chosen : Chosen P te t s s1
  h : s1.h = X.fin hh
  hge : hmin ≤ hh
  hle : hh ≤ te - t
  errEq : err = Spec.scaledRms (Spec.errVec (formulaOf T s1.mdeg s1.mp1 s1.mp2) (X.fin hh)
      (Spec.stages (formulaOf T s1.mdeg s1.mp1 s1.mp2) P.F (X.fin hh) (s.heap s.y)))
      (Spec.stages (formulaOf T s1.mdeg s1.mp1 s1.mp2) P.F (X.fin hh) (s.heap s.y)).ynew
      s.atol s.rtol
  calls : s'.calls = s.calls + (s1.mdeg + 4).toNat
  funccal : s'.funccal = s.funccal + s1.mdeg + 4
  nsteps : s'.nsteps = s.nsteps + 1
  mdeg : s'.mdeg = s1.mdeg
  mp : s'.mp1 = s1.mp1 ∧ s'.mp2 = s1.mp2 ∧ s'.mdego = s1.mdego ∧ s'.uround = s.uround ∧
    s'.atol = s.atol ∧ s'.rtol = s.rtol
  rho : s'.rhoCalls = s1.rhoCalls ∧ s'.eigmax = s1.eigmax
  errp : s'.errp = if err < 1.0 then err else s.errp
  accept : err < 1.0 →
    s'.t = X.fin (t + hh) ∧ s'.nacc = s.nacc + 1 ∧ s'.nrej = s.nrej ∧
    s'.heap s'.y = (Spec.stages (formulaOf T s1.mdeg s1.mp1 s1.mp2) P.F (X.fin hh)
      (s.heap s.y)).ynew ∧
    s'.heap s'.fn = P.F (s'.heap s'.y) ∧
    (bufs s').Perm (bufs s) ∧ s'.facmax = X.fin 2 ∧ s'.told = s.told ∧
    s'.nrejloc = (if s.reject then 0 else s.nrejloc) ∧ s'.nrho = (s.nrho + 2) % 10 ∧
    s'.reject = false ∧ s'.hlast = X.fin hh ∧
    ∃ hn, s'.h = X.fin hn ∧ 0 ≤ hn ∧ hn ≤ te - (t + hh) ∧ hn ≤ 5.5 * hh ∧
      (err = X.fin 0 → ¬ 0.0 < s.errp → hn = te - (t + hh) ∨ hh ≤ hn)
  reject : ¬ err < 1.0 →
    s'.t = s.t ∧ s'.nacc = s.nacc ∧ s'.nrej = s.nrej + 1 ∧
    s'.y = s.y ∧ s'.fn = s.fn ∧ s'.heap s.y = s.heap s.y ∧ s'.heap s.fn = s.heap s.fn ∧
    (bufs s').Perm (bufs s) ∧ (∃ fm, s'.facmax = X.fin fm ∧ 1 ≤ fm ∧ fm ≤ 5) ∧ s'.told = s.t ∧
    s'.nrejloc = (if s.told = s.t then s.nrejloc + 1 else s.nrejloc) ∧
    s'.nrho = (if s.nrho ≠ 0 then 0 else 1) ∧ s'.reject = true ∧ s'.hlast = s.hlast ∧
    ∃ hn, s'.h = X.fin hn ∧ 0 < hn ∧ (0.08 * hh ≤ hn ∨ hn = 1.0e-5) ∧
      (¬ (s.told = s.t ∧ s.nrejloc + 1 = 10) → hn ≤ 0.64 * hh)

theorem step_next (P : Problem n) (T : Tables) (te t0 : ℝ) (y0 : Vec n) (s0 s s' : St n)
    (I : Inv P T te t0 y0 s0 s) (h : step P T (X.fin te) s = .next s') :
    ∃ t s1 hh err, s.t = X.fin t ∧ t < te ∧ choose P (X.fin te) s = .next s1 ∧
      Iter P T te t s s1 s' err hh := by
  obtain ⟨t, ht, ht0, hte, -⟩ := I.time
  obtain ⟨f, hf, hf1, hf5⟩ := I.facmax
  obtain ⟨told, htold⟩ := I.told
  have hlt : t < te := by
    by_contra hc
    rw [step, ht, if_neg (by simpa using hc)] at h
    cases h
  rw [step, if_pos (by rw [ht]; exact hlt)] at h
  cases hch : choose P (X.fin te) s with
  | ret x => rw [hch] at h; cases h
  | throw x => rw [hch] at h; cases h
  | ub x => rw [hch] at h; cases h
  | next s1 =>
  rw [hch] at h
  simp only at h
  have C := choose_next P te t s s1 ht hlt I.uround (I.sel.imp id And.left) hch
  obtain ⟨hh, eig, c1, c2, c3, c4, c5, c6⟩ := C.num
  have hpos : 0 < hh := lt_of_lt_of_le (by norm_num [hmin]) c3
  cases hk : kernel P T s1 s1.h with
  | none => rw [hk] at h; cases h
  | some r =>
  obtain ⟨s2, err⟩ := r
  rw [hk] at h
  simp only at h
  injection h with h
  have fr := C.frame
  have hb1 : bufs s1 = bufs s := by rw [fr]; rfl
  have hD : Distinct s1 := by have := I.distinct; rw [← hb1] at this; exact this
  have e_y : s1.y = s.y := by rw [fr]
  have e_fn : s1.fn = s.fn := by rw [fr]
  have e_heap : s1.heap = s.heap := by rw [fr]
  have e_at : s1.atol = s.atol := by rw [fr]
  have e_rt : s1.rtol = s.rtol := by rw [fr]
  have e_t : s1.t = s.t := by rw [fr]
  have e_told : s1.told = s.told := by rw [fr]
  have e_nrj : s1.nrejloc = s.nrejloc := by rw [fr]
  have e_fm : s1.facmax = s.facmax := by rw [fr]
  have e_ns : s1.nsteps = s.nsteps := by rw [fr]
  have e_na : s1.nacc = s.nacc := by rw [fr]
  have e_nr : s1.nrej = s.nrej := by rw [fr]
  have e_nrho : s1.nrho = s.nrho := by rw [fr]
  have e_rej : s1.reject = s.reject := by rw [fr]
  have e_hl : s1.hlast = s.hlast := by rw [fr]
  have e_fc : s1.funccal = s.funccal := by rw [fr]
  have e_ca : s1.calls = s.calls := by rw [fr]
  have e_ur : s1.uround = s.uround := by rw [fr]
  have hfn1 : s1.heap s1.fn = P.F (s1.heap s1.y) := by rw [e_heap, e_fn, e_y]; exact I.fn
  obtain ⟨k1, k2, k3, k4, k5⟩ := kernel_spec P T s1 s2 s1.h err hk hD C.sel.bounds.1 hfn1
  obtain ⟨kp, kf⟩ := kernel_frame P T s1 s2 s1.h err hk hD C.sel.bounds.1 hfn1
  rw [e_heap, e_y, e_at, e_rt] at k5
  rw [e_heap, e_y] at k1 k2 k3
  rw [e_heap, e_fn] at k4
  rw [c1] at k1 k2 k5
  have f_y : s2.y = s.y := by rw [kf]; exact e_y
  have f_fn : s2.fn = s.fn := by rw [kf]; exact e_fn
  have f_t : s2.t = X.fin t := by rw [kf]; exact e_t.trans ht
  have f_told : s2.told = X.fin told := by rw [kf]; exact e_told.trans htold
  have f_h : s2.h = X.fin hh := by rw [kf]; exact c1
  have f_fm : s2.facmax = X.fin f := by rw [kf]; exact e_fm.trans hf
  have f_ns : s2.nsteps = s.nsteps := by rw [kf]; exact e_ns
  have f_na : s2.nacc = s.nacc := by rw [kf]; exact e_na
  have f_nr : s2.nrej = s.nrej := by rw [kf]; exact e_nr
  have f_nrho : s2.nrho = s.nrho := by rw [kf]; exact e_nrho
  have f_nrj : s2.nrejloc = s.nrejloc := by rw [kf]; exact e_nrj
  have f_rej : s2.reject = s.reject := by rw [kf]; exact e_rej
  have f_hl : s2.hlast = s.hlast := by rw [kf]; exact e_hl
  have f_fc : s2.funccal = s.funccal + s1.mdeg + 4 := by rw [kf]; simp only [e_fc]
  have f_ca : s2.calls = s.calls + (s1.mdeg + 4).toNat := by rw [kf]; simp only [e_ca]
  have f_md : s2.mdeg = s1.mdeg := by rw [kf]
  have f_mp1 : s2.mp1 = s1.mp1 := by rw [kf]
  have f_mp2 : s2.mp2 = s1.mp2 := by rw [kf]
  have f_mdo : s2.mdego = s1.mdego := by rw [kf]
  have f_ur : s2.uround = s.uround := by rw [kf]; exact e_ur
  have f_at : s2.atol = s.atol := by rw [kf]; exact e_at
  have f_rt : s2.rtol = s.rtol := by rw [kf]; exact e_rt
  have f_rc : s2.rhoCalls = s1.rhoCalls := by rw [kf]
  have f_eg : s2.eigmax = s1.eigmax := by rw [kf]
  have e_ep : s1.errp = s.errp := by rw [fr]
  have f_ep : s2.errp = s.errp := by rw [kf]; exact e_ep
  have hb2 : (bufs s2).Perm (bufs s) := by
    rw [← hb1]
    have : bufs s2 = [s1.y, s1.fn, s1.k1, s1.k2, s1.k3, s1.k4, s2.temp, s2.g0] := by rw [kf]; rfl
    rw [this]
    rcases kp with ⟨a, b⟩ | ⟨a, b⟩ <;> rw [a, b]
    · exact List.Perm.refl _
    · unfold bufs
      repeat refine List.Perm.cons _ ?_
      exact List.Perm.swap _ _ _
  have hns : 0 ≤ s2.nsteps := by
    rw [f_ns]; have := I.count; omega
  refine ⟨t, s1, hh, err, ht, hlt, rfl, ?_⟩
  by_cases hacc : err < 1.0
  · obtain ⟨hn, hc, hc1, hc2, hc3, hc4⟩ := control_accept te s2 err t hh f f_t f_h hpos c4 f_fm hf1 hf5 hacc
    rw [hc] at h
    subst h
    exact {
      chosen := C, h := c1, hge := c3, hle := c4, errEq := k5
      calls := f_ca
      funccal := f_fc
      nsteps := by simp only [f_ns]
      mdeg := f_md
      mp := ⟨f_mp1, f_mp2, f_mdo, f_ur, f_at, f_rt⟩
      rho := ⟨f_rc, f_eg⟩
      errp := by rw [if_pos hacc]
      accept := fun _ => by
        refine ⟨rfl, by simp only [f_na], by simp only [f_nr], k1, ?_, ?_, rfl, ?_, ?_, ?_, rfl, f_h,
          hn, rfl, hc1, hc2, hc3, by rw [f_ep] at hc4; exact hc4⟩
        · show s2.heap s2.g0 = P.F (s2.heap s2.temp)
          rw [k1, k2]; rfl
        · refine List.Perm.trans ?_ hb2
          show [s2.temp, s2.g0, s2.k1, s2.k2, s2.k3, s2.k4, s2.y, s2.fn].Perm
            [s2.y, s2.fn, s2.k1, s2.k2, s2.k3, s2.k4, s2.temp, s2.g0]
          rw [List.perm_iff_count]
          intro a
          simp only [List.count_cons, List.count_nil]
          omega
        · rw [htold]; exact f_told
        · simp only [f_rej, f_nrj]
        · simp only [f_nrho]; ring_nf
      reject := fun hr => absurd hacc hr }
  · obtain ⟨hn, fm, hc, hfm1, hfm5, hc1, hc3, hc2⟩ := control_reject (X.fin te) s2 err t told hh f f_t f_told
      f_h hpos f_fm hf1 hf5 hacc hns
    rw [hc] at h
    subst h
    have hiff : s.told = s.t ↔ told = t := by rw [ht, htold, X.fin_inj]
    exact {
      chosen := C, h := c1, hge := c3, hle := c4, errEq := k5
      calls := f_ca
      funccal := f_fc
      nsteps := by simp only [f_ns]
      mdeg := f_md
      mp := ⟨f_mp1, f_mp2, f_mdo, f_ur, f_at, f_rt⟩
      rho := ⟨f_rc, f_eg⟩
      errp := by rw [if_neg hacc]; exact f_ep
      accept := fun hr => absurd hr hacc
      reject := fun _ => by
        refine ⟨by rw [ht]; exact f_t, f_na, by simp only [f_nr], f_y, f_fn, k3, k4, hb2,
          ⟨fm, rfl, hfm1, hfm5⟩, by rw [ht]; exact f_t, ?_, ?_, rfl, f_hl, hn, rfl, hc1, hc3, ?_⟩
        · simp only [hiff, f_nrj]
        · simp only [f_nrho]
        · rw [f_nrj] at hc2
          rw [hiff]; exact hc2 }

theorem step_inv (P : Problem n) (T : Tables) (te t0 : ℝ) (y0 : Vec n) (s0 s s' : St n)
    (I : Inv P T te t0 y0 s0 s) (h : step P T (X.fin te) s = .next s') :
    Inv P T te t0 y0 s0 s' := by
  obtain ⟨t, s1, hh, err, ht, hlt, -, D⟩ := step_next P T te t0 y0 s0 s s' I h
  obtain ⟨t', ht', ht0, hte, hp⟩ := I.time
  rw [ht, X.fin_inj] at ht'
  subst ht'
  have hpos : 0 < hh := lt_of_lt_of_le (by norm_num [hmin]) D.hge
  have hle := D.hle
  have C := D.chosen
  have hmd := C.sel.bounds
  obtain ⟨q1, q2, q3, q4, q5, q6⟩ := D.mp
  obtain ⟨told, htold⟩ := I.told
  have hcnt := I.count
  have hnr := I.nrho
  have hcall : s'.funccal = s'.calls := by
    rw [D.funccal, D.calls, I.calls]; push_cast; omega
  have hsel : s'.mdego = 0 ∨ (Sel s'.mdego s'.mp1 s'.mp2 ∧ s'.mdego = s'.mdeg) := by
    right; rw [q3, q1, q2, D.mdeg, C.mdego]; exact ⟨C.sel, rfl⟩
  by_cases hacc : err < 1.0
  · obtain ⟨a1, a2, a3, a4, a5, a6, a7, a8, a9, a10, -⟩ := D.accept hacc
    exact {
      time := by
        refine ⟨t + hh, a1, by linarith, by linarith, ?_⟩
        rw [a4]
        refine Spec.Path.tail _ hh hp hpos ⟨⟨_, _, _, C.sel, rfl⟩, ?_⟩
        rw [← I.tol.1, ← I.tol.2, ← D.errEq]; exact hacc
      tol := by rw [q5, q6]; exact I.tol
      uround := by rw [q4]; exact I.uround
      sel := hsel
      distinct := (List.Perm.nodup_iff a6).2 I.distinct
      perm := a6.trans I.perm
      fn := a5
      facmax := ⟨2, a7, by norm_num, by norm_num⟩
      told := ⟨told, by rw [a8]; exact htold⟩
      nrejloc := by rw [a9]; split_ifs; exacts [le_rfl, I.nrejloc]
      count := by rw [a2, a3, D.nsteps]; omega
      calls := hcall
      nrho := by rw [a10]; omega }
  · obtain ⟨a1, a2, a3, a4, a5, a6, a7, a8, a9, a10, a11, a12, -⟩ := D.reject hacc
    exact {
      time := ⟨t, by rw [a1]; exact ht, ht0, hte, by rw [a4, a6]; exact hp⟩
      tol := by rw [q5, q6]; exact I.tol
      uround := by rw [q4]; exact I.uround
      sel := hsel
      distinct := (List.Perm.nodup_iff a8).2 I.distinct
      perm := a8.trans I.perm
      fn := by rw [a4, a5, a6, a7]; exact I.fn
      facmax := a9
      told := ⟨t, by rw [a10]; exact ht⟩
      nrejloc := by rw [a11]; have := I.nrejloc; split_ifs <;> omega
      count := by rw [a2, a3, D.nsteps]; omega
      calls := hcall
      nrho := by rw [a12]; split_ifs <;> omega }

/-- the state at the beginning of the loop. -/
theorem start_inv (P : Problem n) (T : Tables) (te t0 : ℝ) (o : St n) (y : ℕ) (h0 : X)
    (hle : t0 ≤ te) (hu : o.uround = 1.0e-16)
    (hd : [y, o.fn, o.k1, o.k2, o.k3, o.k4, o.temp, o.g0].Nodup) :
    Inv P T te t0 (o.heap y) (start P o y (X.fin t0) h0) (start P o y (X.fin t0) h0) where
  time := by
    refine ⟨t0, rfl, le_rfl, hle, ?_⟩
    have : (start P o y (X.fin t0) h0).heap (start P o y (X.fin t0) h0).y = o.heap y := by
      simp only [start]
      rw [upd_ne]
      simp only [List.nodup_cons, List.mem_cons, not_or] at hd
      exact hd.1.1
    rw [this]
    exact Spec.Path.refl
  tol := ⟨rfl, rfl⟩
  uround := hu
  sel := Or.inl rfl
  distinct := hd
  perm := List.Perm.refl _
  fn := by
    simp only [start, upd_same]
    rw [upd_ne]
    simp only [List.nodup_cons, List.mem_cons, not_or] at hd
    exact hd.1.1
  facmax := ⟨5, by simp [start]; norm_num, by norm_num, by norm_num⟩
  told := ⟨0, by simp [start]; norm_num⟩
  nrejloc := le_rfl
  count := ⟨rfl, le_rfl, le_rfl⟩
  calls := rfl
  nrho := ⟨le_rfl, by norm_num [start]⟩

/-- number of reductions by 0.65 until a step size is below the limit. -/
noncomputable def shrinks (h : X) : ℕ :=
  match h with
  | .fin r => sInf {k : ℕ | r * (0.65 : ℝ) ^ k < 1e-16}
  | _ => 0

theorem shrinks_lt {a b : ℝ} (hb : 1e-16 ≤ b) (hab : a ≤ 0.65 * b) :
    shrinks (X.fin a) < shrinks (X.fin b) := by
  have hne : ({k : ℕ | b * (0.65 : ℝ) ^ k < 1e-16}).Nonempty := by
    have hb0 : 0 < b := lt_of_lt_of_le (by norm_num) hb
    obtain ⟨k, hk⟩ := exists_pow_lt_of_lt_one (show (0:ℝ) < 1e-16 / b by positivity)
      (show (0.65 : ℝ) < 1 by norm_num)
    refine ⟨k, ?_⟩
    rw [lt_div_iff₀ hb0] at hk
    show b * (0.65 : ℝ) ^ k < 1e-16
    rw [mul_comm]; exact hk
  have hm := Nat.sInf_mem hne
  show sInf {k : ℕ | a * (0.65 : ℝ) ^ k < 1e-16} < sInf {k : ℕ | b * (0.65 : ℝ) ^ k < 1e-16}
  generalize sInf {k : ℕ | b * (0.65 : ℝ) ^ k < 1e-16} = m at hm ⊢
  cases m with
  | zero =>
    exfalso
    have : b * (0.65 : ℝ) ^ 0 < 1e-16 := hm
    rw [pow_zero, mul_one] at this
    linarith
  | succ m =>
    have : b * (0.65 : ℝ) ^ (m + 1) < 1e-16 := hm
    refine Nat.lt_succ_of_le (Nat.sInf_le ?_)
    show a * (0.65 : ℝ) ^ m < 1e-16
    have hp : (0 : ℝ) < (0.65 : ℝ) ^ m := by positivity
    rw [pow_succ] at this
    nlinarith

/-- the measure: steps of length `hmin` left, rejections at this time until the counter has
passed ten, reductions left. -/
noncomputable def meas (te : ℝ) (s : St n) : ℕ ×ₗ ℕ ×ₗ ℕ :=
  toLex (match s.t with | .fin t => ⌊(te - t) / hmin⌋₊ | _ => 0,
    toLex (if s.told = s.t then (10 - s.nrejloc).toNat else 11, shrinks s.h))

theorem step_decreases (P : Problem n) (T : Tables) (te t0 : ℝ) (y0 : Vec n) (s0 s s' : St n)
    (I : Inv P T te t0 y0 s0 s) (hfin : ∃ h0, s.h = X.fin h0)
    (h : step P T (X.fin te) s = .next s') :
    (Inv P T te t0 y0 s0 s' ∧ ∃ h0, s'.h = X.fin h0) ∧ meas te s' < meas te s := by
  obtain ⟨t, s1, hh, err, ht, hlt, -, D⟩ := step_next P T te t0 y0 s0 s s' I h
  have hmpos : (0 : ℝ) < hmin := by norm_num [hmin]
  have hpos : 0 < hh := lt_of_lt_of_le hmpos D.hge
  have hle := D.hle
  obtain ⟨h0, hh0⟩ := hfin
  by_cases hacc : err < 1.0
  · obtain ⟨a1, -, -, -, -, -, -, -, -, -, -, -, hn, hn1, -⟩ := D.accept hacc
    refine ⟨⟨step_inv P T te t0 y0 s0 s s' I h, hn, hn1⟩, ?_⟩
    unfold meas
    rw [Prod.Lex.toLex_lt_toLex]
    left
    rw [ht, a1]
    show ⌊(te - (t + hh)) / hmin⌋₊ < ⌊(te - t) / hmin⌋₊
    have h1 : (te - (t + hh)) / hmin ≤ (te - t) / hmin - 1 := by
      rw [div_le_iff₀ hmpos, sub_mul, div_mul_cancel₀ _ hmpos.ne', one_mul]
      have := D.hge
      linarith
    have h2 : (0 : ℝ) ≤ (te - (t + hh)) / hmin := div_nonneg (by linarith) hmpos.le
    have h3 := Nat.floor_le_floor h1
    have h4 : ⌊(te - t) / hmin - 1⌋₊ + 1 = ⌊(te - t) / hmin⌋₊ := by
      have h5 : (1 : ℝ) ≤ (te - t) / hmin := by linarith
      rw [Nat.floor_sub_one]
      have : 1 ≤ ⌊(te - t) / hmin⌋₊ := by rwa [Nat.one_le_floor_iff]
      omega
    omega
  · obtain ⟨a1, -, -, -, -, -, -, -, -, a10, a11, -, -, -, hn, hn1, hn2, -, hn3⟩ := D.reject hacc
    refine ⟨⟨step_inv P T te t0 y0 s0 s s' I h, hn, hn1⟩, ?_⟩
    unfold meas
    rw [Prod.Lex.toLex_lt_toLex]
    right
    rw [a1, a10, if_pos rfl, a11]
    refine ⟨rfl, ?_⟩
    rw [Prod.Lex.toLex_lt_toLex]
    have hnn := I.nrejloc
    by_cases hc : s.told = s.t
    · rw [if_pos hc, if_pos hc]
      by_cases h10 : s.nrejloc < 10
      · left; simp only; omega
      · right
        refine ⟨by simp only; omega, ?_⟩
        simp only
        rw [hn1, hh0]
        obtain ⟨hh', eig', c1, -, -, -, -, c6⟩ := D.chosen.num
        rw [D.h, X.fin_inj] at c1
        subst c1
        obtain ⟨c7, c8⟩ := c6 h0 hh0
        refine shrinks_lt ?_ ?_
        · norm_num at c8 ⊢; linarith
        · have := hn3 (by omega)
          norm_num at this c7 ⊢; linarith
    · rw [if_neg hc, if_neg hc]
      left; simp only; omega

end Odes.Rock4
