import Verif.Lemmas.Sim
import Verif.Props.Rock4
import Verif.Props.Rodas
import Verif.Props.Rock4LLoop

/-! # C117: calls of Rodas, ROCK4 and ROCK4L depend on their arguments only

Two objects with the same settings, otherwise with arbitrary contents (fresh memory, or what earlier calls left), called
with the same arguments. -/

namespace Odes.Rodas

open Classical

variable {n : ℕ} {L : Lin X n} {P : Prob X n} {g : Cfg n}

/-- the states of the two runs at the heads of the loops. -/
structure Sim (P : Prob X n) (g : Cfg n) (s s' : St n L.σ) : Prop where
  eq : s' = { s with hopt := s'.hopt, xold := s'.xold, hacc := s'.hacc, erracc := s'.erracc,
                     firstAcceptedStep := s'.firstAcceptedStep, DY1 := s'.DY1, FX := s'.FX, jac := s'.jac }
  cnt : 0 ≤ s.naccpt
  lst : s.last = true → s.inner = true ∨ s.naccpt ≠ 0
  inner : s.inner = true → s'.DY1 = s.DY1 ∧ s'.jac = s.jac ∧ (P.autonms = false → s'.FX = s.FX)
  acc : s.naccpt ≠ 0 → s'.firstAcceptedStep = s.firstAcceptedStep ∧
    (g.gustafssonTest = true → s'.hacc = s.hacc ∧ s'.erracc = s.erracc)

/-- the stages do not use `FX` on an autonomous problem. -/
theorem attempt_congr (x h : X) (Y DY : Fin n → X) {FX FX' : Fin n → X} (j : L.σ)
    (hF : P.autonms = false → FX' = FX) : attempt L P g.coef x h Y DY FX' j = attempt L P g.coef x h Y DY FX j := by
  cases ha : P.autonms with
  | false => rw [hF ha]
  | true =>
    unfold attempt stages slvrod
    simp only [ha, if_true]

/-- what the caller can observe (`getLastTimeStep` is `h`). -/
structure SameOut (s s' : St n L.σ) : Prop where
  x : s'.x = s.x
  Y : s'.Y = s.Y
  h : s'.h = s.h
  nstep : s'.nstep = s.nstep
  naccpt : s'.naccpt = s.naccpt
  nrejct : s'.nrejct = s.nrejct
  njac : s'.njac = s.njac
  ndec : s'.ndec = s.ndec
  first : s'.firstAcceptedStep = s.firstAcceptedStep
  taken : s'.taken = s.taken
  rejs : s'.rejs = s.rejs

theorem sim_control {s s' : St n L.σ} (YN : Fin n → X) (err : X) (j : L.σ) (hs : Sim P g s s') (hi : s.inner = true) :
    let t := control g { s with jac := j, ndec := s.ndec + 1, nstep := s.nstep + 1 } YN err
    let t' := control g { s' with jac := j, ndec := s'.ndec + 1, nstep := s'.nstep + 1 } YN err
    t' = { t with hopt := t'.hopt, xold := t'.xold, hacc := t'.hacc, erracc := t'.erracc,
                  firstAcceptedStep := t'.firstAcceptedStep, DY1 := t'.DY1, FX := t'.FX, jac := t'.jac } ∧
      0 ≤ t.naccpt ∧ t.inner = true ∧ t'.DY1 = t.DY1 ∧ t'.jac = t.jac ∧ (P.autonms = false → t'.FX = t.FX) ∧
      (t.naccpt ≠ 0 → t'.firstAcceptedStep = t.firstAcceptedStep ∧
        (g.gustafssonTest = true → t'.hacc = t.hacc ∧ t'.erracc = t.erracc)) ∧
      (t.reject = false → t.naccpt ≠ 0) := by
  obtain ⟨e, c, -, hin, ha⟩ := hs
  obtain ⟨i1, i2, i3⟩ := hin hi
  generalize s'.hopt = ho at e
  generalize s'.xold = xo at e
  generalize s'.hacc = hc at e ha
  generalize s'.erracc = ea at e ha
  generalize s'.firstAcceptedStep = fa at e ha
  generalize s'.DY1 = dy at e i1
  generalize s'.FX = fx at e i3
  generalize s'.jac = jj at e i2
  subst e
  subst i1 i2
  unfold control
  by_cases he : err ≤ 1.0
  · simp only [if_pos he]
    have hh : hnewAcc g ({ s with hopt := ho, xold := xo, hacc := hc, erracc := ea, firstAcceptedStep := fa,
                                  DY1 := s.DY1, FX := fx, jac := j, ndec := s.ndec + 1, nstep := s.nstep + 1 } : St n L.σ) err
        = hnewAcc g { s with jac := j, ndec := s.ndec + 1, nstep := s.nstep + 1 } err := by
      unfold hnewAcc
      by_cases hg : g.gustafssonTest = true ∧ s.naccpt + 1 > 1
      · obtain ⟨h1, h2⟩ := (ha (by have := hg.2; omega)).2 hg.1
        simp only [if_pos hg, h1, h2]
      · simp only [if_neg hg]
    rw [hh]
    refine ⟨rfl, ?_, hi, trivial, trivial, i3, ?_, ?_⟩
    · show 0 ≤ s.naccpt + 1
      omega
    · intro _
      refine ⟨?_, fun hg => by simp only [hg, if_true, and_self]⟩
      by_cases h0 : s.naccpt = 0
      · simp only [h0, if_true]
      · simp only [if_neg h0, (ha h0).1]
    · intro _
      show s.naccpt + 1 ≠ 0
      omega
  · simp only [if_neg he]
    exact ⟨trivial, c, hi, trivial, trivial, i3, ha, by simp⟩

theorem sim_step {s s' : St n L.σ} (hs : Sim P g s s') :
    Res.Rel (Sim P g) SameOut (step L P g s) (step L P g s') := by
  have e := hs.eq
  have ei : s'.inner = s.inner := by rw [e]
  have el : s'.last = s.last := by rw [e]
  unfold step
  rw [ei, el]
  cases hi : s.inner with
  | true =>
    rw [if_pos rfl, if_pos rfl]
    have hc := fun YN err j => sim_control (P := P) (g := g) YN err j hs hi
    obtain ⟨i1, i2, i3⟩ := hs.inner hi
    unfold body
    have ex : s'.x = s.x := by rw [e]
    have eh : s'.h = s.h := by rw [e]
    have eY : s'.Y = s.Y := by rw [e]
    rw [ex, eh, eY, i1, i2, attempt_congr _ _ _ _ _ i3]
    cases attempt L P g.coef s.x s.h s.Y s.DY1 s.FX s.jac with
    | none => exact rfl
    | some r =>
      obtain ⟨j, k⟩ := r
      simp only
      specialize hc k.YNEW (errNorm g s.Y k.YNEW k.AK6) j
      simp only [ex, eh, eY, i1] at hc
      generalize control g { s with jac := j, ndec := s.ndec + 1, nstep := s.nstep + 1 } k.YNEW
        (errNorm g s.Y k.YNEW k.AK6) = t at hc ⊢
      generalize control g { s' with x := s.x, h := s.h, Y := s.Y, DY1 := s.DY1, jac := j, ndec := s'.ndec + 1, nstep := s'.nstep + 1 } k.YNEW
        (errNorm g s.Y k.YNEW k.AK6) = t' at hc ⊢
      obtain ⟨c1, c2, c3, c4, c5, c6, c7, c8⟩ := hc
      have r1 : t'.reject = t.reject := by rw [c1]
      have r2 : t'.nstep = t.nstep := by rw [c1]
      rw [r1, r2]
      cases hr : t.reject with
      | true => exact ⟨c1, c2, fun _ => .inl c3, fun _ => ⟨c4, c5, c6⟩, c7⟩
      | false =>
        simp only [Bool.false_eq_true, if_false]
        by_cases hn : t.nstep > g.nmax
        · rw [if_pos hn, if_pos hn]; exact rfl
        · rw [if_neg hn, if_neg hn]
          cases g.onlyOneStep with
          | true =>
            simp only [if_true]
            have c0 := (c7 (c8 hr)).1
            exact ⟨by rw [c1], by rw [c1], by rw [c1], by rw [c1], by rw [c1], by rw [c1], by rw [c1], by rw [c1], c0,
              by rw [c1], by rw [c1]⟩
          | false =>
            simp only [Bool.false_eq_true, if_false]
            exact ⟨by rw [c1], c2, fun _ => .inr (c8 hr), fun h => absurd h (by simp), c7⟩
  | false =>
    simp only [Bool.false_eq_true, if_false]
    cases hl : s.last with
    | true =>
      simp only [if_true]
      have c0 : s'.firstAcceptedStep = s.firstAcceptedStep := by
        rcases hs.lst hl with h | h
        · rw [hi] at h; cases h
        · exact (hs.acc h).1
      exact ⟨by rw [e], by rw [e], by rw [e], by rw [e], by rw [e], by rw [e], by rw [e], by rw [e], c0,
        by rw [e], by rw [e]⟩
    | false =>
      simp only [Bool.false_eq_true, if_false]
      unfold prepare
      have ex : s'.x = s.x := by rw [e]
      have eh : s'.h = s.h := by rw [e]
      have eY : s'.Y = s.Y := by rw [e]
      have e1 : s'.hmaxn = s.hmaxn := by rw [e]
      have e2 : s'.posneg = s.posneg := by rw [e]
      have e3 : s'.xend = s.xend := by rw [e]
      have e4 : s'.njac = s.njac := by rw [e]
      by_cases hh : 0.1e0 * X.ABS s.h ≤ X.ABS s.x * g.uround
      · rw [eh, ex, if_pos hh, if_pos hh]; exact rfl
      · rw [eh, ex, if_neg hh, if_neg hh]
        simp only
        refine ⟨?_, hs.cnt, fun _ => .inl rfl, fun _ => ⟨?_, ?_, fun ha => ?_⟩, hs.acc⟩
        · rw [e]
        · simp only [eY]
        · simp only [eY]
        · simp only [ha, Bool.false_eq_true, if_false, eY]

/-- C117: **Rodas**: two calls with the same arguments on objects with the same settings have the same outcome: same
solution, time, counters and steps, same exception, or no end in both cases. -/
theorem rodas_calls_agree (o o' : St n L.σ) (h x xe : X) (y : Fin n → X) :
    (∀ t, Returns (step L P g) (start o h x xe y) t → ∃ t', Returns (step L P g) (start o' h x xe y) t' ∧ SameOut t t') ∧
    (∀ e, Throws (step L P g) (start o h x xe y) e → Throws (step L P g) (start o' h x xe y) e) ∧
    (∀ u, HasUb (step L P g) (start o h x xe y) u → HasUb (step L P g) (start o' h x xe y) u) ∧
    (Diverges (step L P g) (start o h x xe y) → Diverges (step L P g) (start o' h x xe y)) := by
  refine outcome_rel (fun s t h => sim_step (P := P) (g := g) h) ⟨rfl, le_rfl, fun h => ?_, fun h => ?_, fun h => ?_⟩
  · cases h
  · cases h
  · exact absurd rfl h

/-- a call which reaches its end, on two objects with different contents. -/
example {meth : ℤ} {c : Coef ℚ} (hc : rocoe meth = some c) : ∃ (o o' : St 1 (exactLinX 1).σ) (s s' : St 1 (exactLinX 1).σ),
    o'.erracc ≠ o.erracc ∧ o'.DY1 ≠ o.DY1 ∧
    Returns (step (exactLinX 1) (lift (wQ fun _ _ _ => 1)) (wG c false)) (start o (.fin 0.4) (.fin 0) (.fin 1) (fins fun _ => 0)) s ∧
    Returns (step (exactLinX 1) (lift (wQ fun _ _ _ => 1)) (wG c false)) (start o' (.fin 0.4) (.fin 0) (.fin 1) (fins fun _ => 0)) s' ∧
    SameOut s s' := by
  obtain ⟨s, y, hs, -⟩ := run_const hc
  obtain ⟨s', h1, h2⟩ := (rodas_calls_agree wO { wO with erracc := .nan, DY1 := fun _ => .nan } (.fin 0.4) (.fin 0) (.fin 1)
    (fins fun _ => 0)).1 s hs
  refine ⟨wO, _, s, s', ?_, ?_, hs, h1, h2⟩
  · show X.nan ≠ X.fin _
    exact fun h => by cases h
  · intro h
    have := congrFun h 0
    revert this
    show X.nan ≠ X.fin _
    exact fun h => by cases h

end Odes.Rodas

namespace Odes.Rock4

open Classical

variable {n : ℕ}

/-- the members which may differ between the two runs. -/
def Same (s s' : St n) : Prop :=
  s' = { s with heap := s'.heap, y := s'.y, fn := s'.fn, k1 := s'.k1, k2 := s'.k2, k3 := s'.k3, k4 := s'.k4,
                temp := s'.temp, g0 := s'.g0, mp1 := s'.mp1, mp2 := s'.mp2, mdeg := s'.mdeg, hlast := s'.hlast }

/-- the states of the two runs at the head of the loop. -/
structure Sim (P : Problem n) (s s' : St n) : Prop where
  eq : Same s s'
  d : Distinct s
  d' : Distinct s'
  hy : s'.heap s'.y = s.heap s.y
  hf : s.heap s.fn = P.F (s.heap s.y)
  hf' : s'.heap s'.fn = P.F (s'.heap s'.y)
  sel : s.mdego = 0 ∨ (Sel s.mdego s.mp1 s.mp2 ∧ s'.mp1 = s.mp1 ∧ s'.mp2 = s.mp2)
  cnt : 0 ≤ s.nacc ∧ 0 ≤ s.nsteps
  last : s.nacc ≠ 0 → s'.hlast = s.hlast
  deg : s.nsteps ≠ 0 → s'.mdeg = s.mdeg

/-- before the kernel. -/
structure SimK (P : Problem n) (s s' : St n) : Prop extends Sim P s s' where
  sel' : Sel s.mdeg s.mp1 s.mp2 ∧ s'.mdeg = s.mdeg ∧ s'.mp1 = s.mp1 ∧ s'.mp2 = s.mp2
  mdego : s.mdego = s.mdeg

theorem mdegre_indep (m a b : ℤ) (h1 : 1 ≤ m) (h2 : m ≤ 148) : mdegre m a = mdegre m b := by
  refine mdegreLoop_indep m a b MS 1 1 ?_
  have := (mdegre_table ⟨(m - 1).toNat, by omega⟩).1
  have e : (((m - 1).toNat : ℕ) : ℤ) + 1 = m := by omega
  simpa only [e] using this

theorem sim_choose {P : Problem n} {te : X} {s s' : St n} (hs : Sim P s s') :
    Res.Rel (SimK P) (fun _ _ => False) (choose P te s) (choose P te s') := by
  obtain ⟨e, d, d', hy, hf, hf', sel, cnt, last, deg⟩ := hs
  have e1 : s'.t = s.t := by rw [e]
  have e2 : s'.h = s.h := by rw [e]
  have e3 : s'.uround = s.uround := by rw [e]
  have e4 : s'.nrho = s.nrho := by rw [e]
  have e5 : s'.rhoCalls = s.rhoCalls := by rw [e]
  have e6 : s'.eigmax = s.eigmax := by rw [e]
  have e7 : s'.mdego = s.mdego := by rw [e]
  have e8 : s'.nstagesmax = s.nstagesmax := by rw [e]
  unfold choose
  simp only [e1, e2, e3, e4, e5, e6, e7, e8]
  generalize (if X.ABSsub te s.t ≤ 1.01 * s.h then X.ABSsub te s.t else s.h) = h
  by_cases hh : h < 10.0 * s.uround
  · rw [if_pos hh, if_pos hh]; exact rfl
  rw [if_neg hh, if_neg hh]
  generalize (if s.nrho = 0 then P.rho s.rhoCalls else s.eigmax) = eg
  generalize (if s.nrho = 0 then s.rhoCalls + 1 else s.rhoCalls) = rc
  cases X.toInt (X.sqrt ((3.0 + h * eg) / 0.353) + 1) with
  | none => exact rfl
  | some md =>
    simp only
    generalize (if md > 152 then 0.8 * (152.0 * 152.0 * 0.353 - 3.0) / eg else h) = h'
    have hm1 : 1 ≤ max (if md > 152 then 152 else md) 5 - 4 := by omega
    have hm2 : max (if md > 152 then 152 else md) 5 - 4 ≤ 148 := by split_ifs <;> omega
    generalize max (if md > 152 then 152 else md) 5 - 4 = m at hm1 hm2
    by_cases hne : m ≠ s.mdego
    · rw [if_pos hne, if_pos hne, mdegre_indep m s'.mp1 s.mp1 hm1 hm2]
      have hS := (mdegre_spec m s.mp1 hm1 hm2).1
      exact ⟨⟨by unfold Same; simp only; rw [e], d, d', hy, hf, hf', .inr ⟨hS, rfl, rfl⟩, cnt, last, fun _ => rfl⟩,
        ⟨hS, rfl, rfl, rfl⟩, rfl⟩
    · rw [if_neg hne, if_neg hne]
      have hm : m = s.mdego := not_not.1 hne
      rcases sel with h0 | ⟨hS, m1, m2⟩
      · omega
      · exact ⟨⟨by unfold Same; simp only; rw [e], d, d', hy, hf, hf', .inr ⟨hS, m1, m2⟩, cnt, last, fun _ => rfl⟩,
          ⟨by rw [hm]; exact hS, rfl, m1, m2⟩, hm.symm⟩

/-- the pointers stay distinct after the exchanges of an accepted step. -/
theorem distinct_swap {s : St n} (h : Distinct s) :
    [s.temp, s.g0, s.k1, s.k2, s.k3, s.k4, s.y, s.fn].Nodup := by
  unfold Distinct at h
  simp only [List.nodup_cons, List.mem_cons, List.not_mem_nil, not_or, or_false, not_false_eq_true, List.nodup_nil,
    and_true] at h ⊢
  obtain ⟨⟨y1, y2, y3, y4, y5, y6, y7⟩, ⟨f1, f2, f3, f4, f5, f6⟩, ⟨a1, a2, a3, a4, a5⟩, ⟨b1, b2, b3, b4⟩,
    ⟨c1, c2, c3⟩, ⟨d1, d2⟩, e1⟩ := h
  refine ⟨⟨e1, ?_, ?_, ?_, ?_, ?_, ?_⟩, ⟨?_, ?_, ?_, ?_, ?_, ?_⟩, ⟨a1, a2, a3, ?_, ?_⟩, ⟨b1, b2, ?_, ?_⟩,
    ⟨c1, ?_, ?_⟩, ⟨?_, ?_⟩, y1⟩ <;> first | assumption | (apply Ne.symm; assumption)

theorem distinct_kernel {u v : St n}
    (h : v = { u with heap := v.heap, temp := v.temp, g0 := v.g0, funccal := u.funccal + u.mdeg + 4,
                      calls := u.calls + (u.mdeg + 4).toNat })
    (hp : (v.temp = u.temp ∧ v.g0 = u.g0) ∨ (v.temp = u.g0 ∧ v.g0 = u.temp)) (hd : Distinct u) : Distinct v := by
  rw [h]
  unfold Distinct at hd ⊢
  simp only
  rcases hp with ⟨h1, h2⟩ | ⟨h1, h2⟩ <;> rw [h1, h2]
  · exact hd
  · exact (List.Perm.nodup_iff (by
      repeat refine List.Perm.cons _ ?_
      exact List.Perm.swap _ _ _)).1 hd

theorem kernel_sim {P : Problem n} {T : Tables} {s s' : St n} (hs : SimK P s s') :
    ∃ t t' err, kernel P T s s.h = some (t, err) ∧ kernel P T s' s'.h = some (t', err) ∧ Sim P t t' ∧
      t'.heap t'.temp = t.heap t.temp ∧ t.heap t.g0 = P.F (t.heap t.temp) ∧ t'.heap t'.g0 = P.F (t'.heap t'.temp) ∧
      t.mdeg = t'.mdeg ∧ t.h = s.h ∧ (Sel t.mdego t.mp1 t.mp2 ∧ t'.mp1 = t.mp1 ∧ t'.mp2 = t.mp2) := by
  obtain ⟨⟨e, d, d', hy, hf, hf', sel, cnt, last, deg⟩, ⟨hS, m0, m1, m2⟩, hmo⟩ := hs
  obtain ⟨b1, b2, b3, b4, b5, b6⟩ := hS.bounds
  obtain ⟨t, err, hk⟩ := kernel_isSome P T s s.h b1 b3 b4 b5 b6
  obtain ⟨t', err', hk'⟩ := kernel_isSome P T s' s'.h (by omega) (by omega) (by omega) (by omega) (by omega)
  obtain ⟨a1, a2, a3, a4, a5⟩ := kernel_spec P T s t s.h err hk d b1 hf
  obtain ⟨c1, c2, c3, c4, c5⟩ := kernel_spec P T s' t' s'.h err' hk' d' (by omega) hf'
  obtain ⟨p, f⟩ := kernel_frame P T s t s.h err hk d b1 hf
  obtain ⟨p', f'⟩ := kernel_frame P T s' t' s'.h err' hk' d' (by omega) hf'
  have eh : s'.h = s.h := by rw [e]
  have ea : s'.atol = s.atol := by rw [e]
  have er : s'.rtol = s.rtol := by rw [e]
  rw [m0, m1, m2, hy, eh] at c1 c2 c5
  rw [ea, er, ← a5] at c5
  subst c5
  have Y : t.y = s.y := by rw [f]
  have Y' : t'.y = s'.y := by rw [f']
  have N : t.fn = s.fn := by rw [f]
  have N' : t'.fn = s'.fn := by rw [f']
  have M : t.mdeg = s.mdeg := by rw [f]
  have M' : t'.mdeg = s'.mdeg := by rw [f']
  have Q1 : t.mp1 = s.mp1 := by rw [f]
  have Q1' : t'.mp1 = s'.mp1 := by rw [f']
  have Q2 : t.mp2 = s.mp2 := by rw [f]
  have Q2' : t'.mp2 = s'.mp2 := by rw [f']
  have O : t.mdego = s.mdego := by rw [f]
  have HL : t.hlast = s.hlast := by rw [f]
  have HL' : t'.hlast = s'.hlast := by rw [f']
  have C1 : t.nacc = s.nacc := by rw [f]
  have C2 : t.nsteps = s.nsteps := by rw [f]
  have sel1 : Sel t.mdego t.mp1 t.mp2 ∧ t'.mp1 = t.mp1 ∧ t'.mp2 = t.mp2 := by
    rw [O, Q1, Q2, Q1', Q2', hmo]; exact ⟨hS, m1, m2⟩
  refine ⟨t, t', err', hk, hk', ⟨?_, distinct_kernel f p d, distinct_kernel f' p' d', ?_, ?_, ?_, .inr sel1, ?_, ?_, fun _ => ?_⟩, ?_, ?_, ?_,
    ?_, ?_, sel1⟩
  · unfold Same
    rw [f', f, e]
    simp only [m0]
  · rw [Y', Y, c3, a3, hy]
  · rw [N, Y, a4, a3, hf]
  · rw [N', Y', c4, c3, hf']
  · rw [C1, C2]; exact cnt
  · rw [C1, HL, HL']; exact last
  · rw [M, M', m0]
  · rw [c1, a1]
  · rw [a2, a1]; rfl
  · rw [c2, c1]; rfl
  · rw [M, M', m0]
  · rw [f]

/-- what the caller can observe. -/
structure SameOut (s s' : St n) : Prop where
  y : s'.heap s'.y = s.heap s.y
  t : s'.t = s.t
  h : s'.h = s.h
  nsteps : s'.nsteps = s.nsteps
  nacc : s'.nacc = s.nacc
  nrej : s'.nrej = s.nrej
  funccal : s'.funccal = s.funccal
  calls : s'.calls = s.calls
  rhoCalls : s'.rhoCalls = s.rhoCalls
  nstagesmax : s'.nstagesmax = s.nstagesmax
  eigmax : s'.eigmax = s.eigmax
  hlast : s.nacc ≠ 0 → s'.hlast = s.hlast
  mdeg : s.nsteps ≠ 0 → s'.mdeg = s.mdeg

theorem sim_step {P : Problem n} {T : Tables} {te : X} {s s' : St n} (hs : Sim P s s') :
    Res.Rel (Sim P) SameOut (step P T te s) (step P T te s') := by
  have e := hs.eq
  have et : s'.t = s.t := by rw [e]
  unfold step
  rw [et]
  by_cases h : s.t < te
  · rw [if_pos h, if_pos h]
    have hc := sim_choose (te := te) hs
    cases h1 : choose P te s <;> cases h2 : choose P te s' <;> rw [h1, h2] at hc <;> first | exact hc.elim | exact hc | skip
    obtain ⟨t, t', err, k1, k2, hS, g1, g2, g3, g4, g5, g6⟩ := kernel_sim (T := T) hc
    simp only [k1, k2]
    obtain ⟨e, d, d', hy, hf, hf', sel, cnt, last, deg⟩ := hS
    have E1 : t'.h = t.h := by rw [e]
    have ef : factor t' err = factor t err := by unfold factor; rw [e]
    unfold control
    rw [ef]
    by_cases he : err < 1.0
    · simp only [if_pos he]
      refine ⟨?_, distinct_swap d, distinct_swap d', g1, g2, g3, .inr g6, ⟨?_, ?_⟩, fun _ => E1, fun _ => g4.symm⟩
      · unfold Same; simp only; rw [e]
      · show 0 ≤ t.nacc + 1
        have := cnt.1; omega
      · show 0 ≤ t.nsteps + 1
        have := cnt.2; omega
    · simp only [if_neg he]
      refine ⟨?_, d, d', hy, hf, hf', .inr g6, ⟨cnt.1, ?_⟩, last, fun _ => g4.symm⟩
      · unfold Same; simp only; rw [e]
      · show 0 ≤ t.nsteps + 1
        have := cnt.2; omega
  · rw [if_neg h, if_neg h]
    exact ⟨hs.hy, by rw [e], by rw [e], by rw [e], by rw [e], by rw [e], by rw [e], by rw [e], by rw [e], by rw [e],
      by rw [e], hs.last, hs.deg⟩

/-- C117: **ROCK4**: two calls with the same arguments, on objects with the same tolerances and otherwise arbitrary
contents, the user's arrays having the same contents: the calls have the same outcome; when they return, same
solution, time and counters, and the same answers of `LastAcceptedTimeStep` and `NbStages` provided a step was
accepted, respectively attempted. -/
theorem rock4_calls_agree_partial (P : Problem n) (T : Tables) (te : X) (o o' : St n) (y y' : ℕ) (t0 h0 : X)
    (hv : Valid o y) (hv' : Valid o' y') (ha : o'.atol = o.atol) (hr : o'.rtol = o.rtol)
    (hy : o'.heap y' = o.heap y) :
    (∀ s, Returns (step P T te) (start P o y t0 h0) s →
      ∃ s', Returns (step P T te) (start P o' y' t0 h0) s' ∧ SameOut s s') ∧
    (∀ e, Throws (step P T te) (start P o y t0 h0) e → Throws (step P T te) (start P o' y' t0 h0) e) ∧
    (∀ u, HasUb (step P T te) (start P o y t0 h0) u → HasUb (step P T te) (start P o' y' t0 h0) u) ∧
    (Diverges (step P T te) (start P o y t0 h0) → Diverges (step P T te) (start P o' y' t0 h0)) := by
  have key (o : St n) (y : ℕ) (hv : Valid o y) : (start P o y t0 h0).heap y = o.heap y := by
    have := hv.nodup
    simp only [List.nodup_cons, List.mem_cons, not_or] at this
    exact upd_ne _ _ this.1.1
  have k1 := key o y hv
  have k2 := key o' y' hv'
  have z0 : (start P o y t0 h0).heap o.fn = P.F (o.heap y) := upd_same _ _ _
  have z1 : (start P o' y' t0 h0).heap o'.fn = P.F (o'.heap y') := upd_same _ _ _
  refine outcome_rel (fun s t h => sim_step (P := P) (T := T) (te := te) h)
    ⟨?_, hv.nodup, hv'.nodup, ?_, ?_, ?_, .inl rfl, ⟨le_rfl, le_rfl⟩, fun h => absurd rfl h, fun h => absurd rfl h⟩
  · unfold Same start
    simp only [ha, hr, hv.uround, hv'.uround]
  · exact k2.trans (hy.trans k1.symm)
  · exact z0.trans (by rw [← k1]; rfl)
  · exact z1.trans (by rw [← k2]; rfl)

/-- C117 fails for `LastAcceptedTimeStep()` and `NbStages()` of a call which makes no step: they are what the object
contained before (in a new object: indeterminate). -/
theorem rock4_no_step_keeps_old (P : Problem n) (T : Tables) (te : X) (o : St n) (y : ℕ) (t0 h0 : X) (h : ¬ t0 < te) :
    ∃ s, Returns (step P T te) (start P o y t0 h0) s ∧ s.hlast = o.hlast ∧ s.mdeg = o.mdeg := by
  refine ⟨start P o y t0 h0, ⟨1, ?_⟩, rfl, rfl⟩
  have : step P T te (start P o y t0 h0) = .ret (start P o y t0 h0) := by
    rw [step]; exact if_neg h
  simp [run, this]

/-- two new objects, same arguments: different answers. -/
theorem rock4_calls_disagree (P : Problem n) (T : Tables) (te t0 h0 : X) (h : ¬ t0 < te) :
    ∃ (o o' : St n) (s s' : St n), Valid o 0 ∧ Valid o' 0 ∧ o'.atol = o.atol ∧ o'.rtol = o.rtol ∧ o'.heap = o.heap ∧
      Returns (step P T te) (start P o 0 t0 h0) s ∧ Returns (step P T te) (start P o' 0 t0 h0) s' ∧
      s'.hlast ≠ s.hlast ∧ s'.mdeg ≠ s.mdeg := by
  let j : St n := { heap := fun _ _ => 0, fn := 0, k1 := 0, k2 := 0, k3 := 0, k4 := 0, temp := 0, g0 := 0,
                    atol := 0, rtol := 0, uround := 0, told := 0, hlast := X.fin 0, mp1 := 0, mp2 := 0, mdeg := 0,
                    funccal := 0, nrej := 0, nsteps := 0, nacc := 0, nstagesmax := 0, y := 0, mdego := 0,
                    eigmax := 0, facmax := 0, hp := 0, nrho := 0, nrejloc := 0, t := 0, h := 0, errp := 0,
                    reject := false, calls := 0, rhoCalls := 0 }
  obtain ⟨s, h1, h2, h3⟩ := rock4_no_step_keeps_old P T te (fresh j 1) 0 t0 h0 h
  obtain ⟨s', h1', h2', h3'⟩ := rock4_no_step_keeps_old P T te (fresh { j with hlast := X.fin 1, mdeg := 1 } 1) 0 t0 h0 h
  refine ⟨fresh j 1, fresh { j with hlast := X.fin 1, mdeg := 1 } 1, s, s', valid_fresh _ 1 0 (.inl one_pos), valid_fresh _ 1 0 (.inl one_pos),
    rfl, rfl, rfl, h1, h1', ?_, ?_⟩
  · rw [h2, h2']
    show X.fin 1 ≠ X.fin 0
    rw [Ne, X.fin_inj]; norm_num
  · rw [h3, h3']
    show (1 : ℤ) ≠ 0
    norm_num

/-- a call which accepts a step, on two objects with different contents and different user arrays. -/
example : ∃ (o o' : St 1) (s s' : St 1), o'.hlast ≠ o.hlast ∧ o'.k1 ≠ o.k1 ∧
    Returns (step restP oneT (X.fin 1)) (start restP o 0 (X.fin 0) (X.fin 1)) s ∧
    Returns (step restP oneT (X.fin 1)) (start restP o' 100 (X.fin 0) (X.fin 1)) s' ∧
    s.nacc = 1 ∧ s'.nacc = 1 ∧ s'.hlast = s.hlast ∧ s'.heap s'.y = s.heap s.y := by
  obtain ⟨s, h1, h2, h3, -⟩ := rest_returns oneT oneT_finite
  have hs := (Reach.tail (Reach.refl _ _) h1).returns h2
  let o' : St 1 := fresh { zeroObj with heap := fun _ => zeroObj.heap 0, hlast := X.nan } 30
  have hv : Valid o' 100 := valid_fresh _ 30 100 (.inr (by norm_num))
  obtain ⟨s', r1, r2⟩ := (rock4_calls_agree_partial restP oneT (X.fin 1) zeroObj o' 0 100 (X.fin 0) (X.fin 1)
    (valid_fresh _ 1 0 (.inl one_pos)) hv rfl rfl rfl).1 s hs
  refine ⟨zeroObj, o', s, s', ?_, ?_, hs, r1, h3, by rw [r2.nacc, h3], r2.hlast (by rw [h3]; norm_num), r2.y⟩
  · show X.nan ≠ X.fin _
    exact fun h => by cases h
  · show (30 : ℕ) ≠ 1
    norm_num

end Odes.Rock4

namespace Odes.Rock4L

open Classical Rock4

variable {n : ℕ}

/-- the states of the two runs at the head of the loop. -/
structure Sim (aff : Bool) (s s' : St n) : Prop where
  eq : s' = { s with heap := s'.heap, mp1 := s'.mp1, mp2 := s'.mp2, mdeg := s'.mdeg }
  y4 : 4 ≤ s.y
  b4 : 4 ≤ s.b
  hy : s'.heap s.y = s.heap s.y
  hb : aff = true → s'.heap s.b = s.heap s.b
  sel : s.mdego = 0 ∨ (Sel s.mdego s.mp1 s.mp2 ∧ s'.mp1 = s.mp1 ∧ s'.mp2 = s.mp2)
  cnt : 0 ≤ s.nsteps
  deg : s.nsteps ≠ 0 → s'.mdeg = s.mdeg

/-- before the kernel. -/
structure SimK (aff : Bool) (s s' : St n) : Prop extends Sim aff s s' where
  sel' : Sel s.mdeg s.mp1 s.mp2 ∧ s'.mdeg = s.mdeg ∧ s'.mp1 = s.mp1 ∧ s'.mp2 = s.mp2
  mdego : s.mdego = s.mdeg

theorem sim_choose {aff : Bool} {te : X} {s s' : St n} (hs : Sim aff s s') :
    Res.Rel (SimK aff) (fun _ _ => False) (choose te s) (choose te s') := by
  obtain ⟨e, y4, b4, hy, hb, sel, cnt, deg⟩ := hs
  have e1 : s'.t = s.t := by rw [e]
  have e2 : s'.h = s.h := by rw [e]
  have e3 : s'.uround = s.uround := by rw [e]
  have e6 : s'.eigmax = s.eigmax := by rw [e]
  have e7 : s'.mdego = s.mdego := by rw [e]
  have e8 : s'.nstagesmax = s.nstagesmax := by rw [e]
  unfold choose
  simp only [e1, e2, e3, e6, e7, e8]
  generalize (if X.ABS (te - s.t) ≤ 1.01 * s.h then X.ABS (te - s.t) else s.h) = h
  by_cases hh : h < 10.0 * s.uround
  · rw [if_pos hh, if_pos hh]; exact rfl
  rw [if_neg hh, if_neg hh]
  cases X.toInt (X.sqrt ((3.0 + h * s.eigmax) / 0.353) + 1) with
  | none => exact rfl
  | some md =>
    simp only
    by_cases h152 : md > 152
    · rw [if_pos h152, if_pos h152]; exact rfl
    rw [if_neg h152, if_neg h152]
    have hm1 : 1 ≤ max md 5 - 4 := by omega
    have hm2 : max md 5 - 4 ≤ 148 := by omega
    generalize max md 5 - 4 = m at hm1 hm2
    by_cases hne : m ≠ s.mdego
    · rw [if_pos hne, if_pos hne, mdegre_indep m s'.mp1 s.mp1 hm1 hm2]
      have hS := (mdegre_spec m s.mp1 hm1 hm2).1
      exact ⟨⟨by simp only; rw [e], y4, b4, hy, hb, .inr ⟨hS, rfl, rfl⟩, cnt, fun _ => rfl⟩, ⟨hS, rfl, rfl, rfl⟩, rfl⟩
    · rw [if_neg hne, if_neg hne]
      have hm : m = s.mdego := not_not.1 hne
      rcases sel with h0 | ⟨hS, m1, m2⟩
      · omega
      · exact ⟨⟨by simp only; rw [e], y4, b4, hy, hb, .inr ⟨hS, m1, m2⟩, cnt, fun _ => rfl⟩,
          ⟨by rw [hm]; exact hS, rfl, m1, m2⟩, hm.symm⟩

/-- what the caller can observe. -/
structure SameOut (s s' : St n) : Prop where
  y : s'.heap s'.y = s.heap s.y
  t : s'.t = s.t
  nsteps : s'.nsteps = s.nsteps
  funccal : s'.funccal = s.funccal
  calls : s'.calls = s.calls
  nstagesmax : s'.nstagesmax = s.nstagesmax
  mdeg : s.nsteps ≠ 0 → s'.mdeg = s.mdeg

theorem kern_sim {aff : Bool} {O : Oper X n} {T : Tab X} {s s' : St n} (hs : SimK aff s s') :
    ∃ hp hp' c, kern aff O T s = some (hp, c) ∧ kern aff O T s' = some (hp', c) ∧ hp' s.y = hp s.y ∧
      (aff = true → hp' s.b = hp s.b) := by
  obtain ⟨⟨e, y4, b4, hy, hb, sel, cnt, deg⟩, ⟨hS, m0, m1, m2⟩, hmo⟩ := hs
  obtain ⟨b1, b2, b3, b4', b5, b6⟩ := hS.bounds
  have eh : s'.h = s.h := by rw [e]
  have ey : s'.y = s.y := by rw [e]
  have eb : s'.b = s.b := by rw [e]
  unfold kern
  rw [m0, m1, m2, eh, ey, eb]
  cases aff with
  | true =>
    simp only [if_true]
    obtain ⟨hp, a1, a2, a3⟩ := kernel2_spec O T s.heap s.h y4 b4 b1 b3 b4' b5 b6
    obtain ⟨hp', c1, c2, c3⟩ := kernel2_spec O T s'.heap s.h y4 b4 b1 b3 b4' b5 b6
    have q : hp' s.y = hp s.y := by rw [a2, c2, hy, hb rfl]
    refine ⟨hp, hp', _, a1, c1, q, fun _ => ?_⟩
    by_cases h : s.b = s.y
    · rw [h, q]
    · rw [a3 _ b4 h, c3 _ b4 h, hb rfl]
  | false =>
    simp only [Bool.false_eq_true, if_false]
    obtain ⟨hp, a1, a2, a3⟩ := kernel1_spec O T s.heap s.h y4 b1 b3 b4' b5 b6
    obtain ⟨hp', c1, c2, c3⟩ := kernel1_spec O T s'.heap s.h y4 b1 b3 b4' b5 b6
    exact ⟨hp, hp', _, a1, c1, by rw [a2, c2, hy], fun h => absurd h (by simp)⟩

theorem sim_step {aff : Bool} {O : Oper X n} {T : Tab X} {te : X} {s s' : St n} (hs : Sim aff s s') :
    Res.Rel (Sim aff) SameOut (step aff O T te s) (step aff O T te s') := by
  have e := hs.eq
  have et : s'.t = s.t := by rw [e]
  unfold step
  rw [et]
  by_cases h : s.t < te
  · rw [if_pos h, if_pos h]
    have hc := sim_choose (te := te) hs
    cases h1 : choose te s <;> cases h2 : choose te s' <;> rw [h1, h2] at hc <;> first | exact hc.elim | exact hc | skip
    obtain ⟨hp, hp', c, k1, k2, g1, g2⟩ := kern_sim (O := O) (T := T) hc
    simp only [k1, k2]
    obtain ⟨⟨e, y4, b4, hy, hb, sel, cnt, deg⟩, ⟨hS, m0, m1, m2⟩, hmo⟩ := hc
    unfold advance
    refine ⟨?_, y4, b4, g1, g2, .inr ⟨by rw [hmo]; exact hS, m1, m2⟩, ?_, fun _ => m0⟩
    · rw [e]; simp only [m0]
    · simp only; omega
  · rw [if_neg h, if_neg h]
    have ey : s'.y = s.y := by rw [e]
    exact ⟨by rw [ey]; exact hs.hy, by rw [e], by rw [e], by rw [e], by rw [e], by rw [e], hs.deg⟩

/-- C117: **ROCK4L**, both entry points: two calls with the same arguments on objects with arbitrary contents have the
same outcome (`NbStages` is `nstagesmax` here). -/
theorem rock4l_calls_agree (aff : Bool) (O : Oper X n) (T : Tab X) (te : X) (o o' : St n) (rho : X) (y b : ℕ)
    (t0 h0 : X) (hu : o'.uround = o.uround) (y4 : 4 ≤ y) (b4 : 4 ≤ b) (hy : o'.heap y = o.heap y)
    (hb : aff = true → o'.heap b = o.heap b) :
    (∀ s, Returns (step aff O T te) (start o rho y b t0 h0) s →
      ∃ s', Returns (step aff O T te) (start o' rho y b t0 h0) s' ∧ SameOut s s') ∧
    (∀ e, Throws (step aff O T te) (start o rho y b t0 h0) e → Throws (step aff O T te) (start o' rho y b t0 h0) e) ∧
    (∀ u, HasUb (step aff O T te) (start o rho y b t0 h0) u → HasUb (step aff O T te) (start o' rho y b t0 h0) u) ∧
    (Diverges (step aff O T te) (start o rho y b t0 h0) → Diverges (step aff O T te) (start o' rho y b t0 h0)) := by
  refine outcome_rel (fun s t h => sim_step (O := O) (T := T) (te := te) h)
    ⟨?_, y4, b4, hy, hb, .inl rfl, le_rfl, fun h => absurd rfl h⟩
  unfold start
  simp only [hu]

/-- two objects with different work arrays and degrees: a run of two steps for every real matrix and tables. -/
example (A : Matrix (Fin 1) (Fin 1) ℝ) (R : Tab ℝ) (y : Fin 1 → ℝ) :
    let O := extOp A
    let T : Tab X := ⟨fun i => X.fin (R.recf i), fun i j => X.fin (R.fpa i j), fun i j => X.fin (R.fpb i j)⟩
    ∃ o o' s s' : St 1, o.heap 0 ≠ o'.heap 0 ∧ o.mdeg ≠ o'.mdeg ∧ o.heap 4 = up y ∧
      Returns (step false O T (X.fin 1)) (start o (X.fin 0) 4 5 (X.fin 0) (X.fin (1 / 2))) s ∧
      Returns (step false O T (X.fin 1)) (start o' (X.fin 0) 4 5 (X.fin 0) (X.fin (1 / 2))) s' ∧
      s.nsteps = 2 ∧ SameOut s s' ∧ s'.mdeg = s.mdeg := by
  intro O T
  have hok : Ok false O T A R :=
    ⟨fun _ => rfl, fun _ _ => rfl, fun _ _ => rfl, fun _ _ _ _ => rfl, fun _ _ _ _ _ _ => rfl, fun _ _ _ _ _ _ => rfl,
      fun _ _ _ _ _ _ _ => rfl⟩
  have h1 : fullSteps (1 - 0) (1 / 2) = 1 := by
    unfold fullSteps
    rw [Nat.ceil_eq_iff (by norm_num)]
    norm_num
  have h2 : lastStep (1 - 0) (1 / 2) = 1 / 2 := by
    unfold lastStep
    rw [h1]
    norm_num
  have h3 : need 0 (1 / 2) ≤ 152 := by
    have : need 0 (1 / 2) < 153 := by
      unfold need
      rw [Int.floor_lt]
      have : Real.sqrt ((3 + 1 / 2 * 0) / 0.353) < 100 := by
        rw [Real.sqrt_lt' (by norm_num)]
        norm_num
      push_cast
      linarith
    omega
  let o : St 1 := { heap := fun _ => up y, y := 0, b := 0, mp1 := 0, mp2 := 0, mdeg := 0, mdego := 0, funccal := 0,
                    nsteps := 0, nstagesmax := 0, t := 0, h := 0, eigmax := 0, uround := 1.0e-16, calls := 0 }
  obtain ⟨s, a, b1, c, a', b1', c', r, -, -, -, r4, -⟩ := rock4l_run hok (te := 1) (t0 := 0) (h := 1 / 2) (ρ := 0)
    (by norm_num) (by norm_num) le_rfl (by norm_num) o rfl 4 5 le_rfl (by norm_num) y y rfl (fun h => by cases h)
    (fun _ => ⟨by norm_num, h3⟩) (by rw [h2]; norm_num) (by rw [h2]; exact h3)
  have r5 : s.nsteps = 2 := by rw [r4, h1]; norm_num
  let o' : St 1 := { o with heap := fun i => if i = 4 then up y else fun _ => X.nan, mdeg := 7, mp1 := 3 }
  obtain ⟨s', q1, q2⟩ := (rock4l_calls_agree false O T (X.fin 1) o o' (X.fin 0) 4 5 (X.fin 0) (X.fin (1 / 2)) rfl
    le_rfl (by norm_num) (by simp [o, o']) (fun h => by cases h)).1 s r
  refine ⟨o, o', s, s', ?_, ?_, rfl, r, q1, r5, q2, q2.mdeg (by rw [r5]; norm_num)⟩
  · intro h
    have := congrFun h 0
    simp [o, o', up] at this
  · simp [o, o']

end Odes.Rock4L
