import Verif.Props.EndLoop
import Verif.Model.Rodas
import Verif.Model.Radau
import Verif.Lemmas.RodasRuns

/-!
# The loops of C112 are those of the models of Rodas and Radau5
-/

namespace Odes.EndLoop

variable {n : ℕ}

/-- the constants of a call of Rodas. -/
noncomputable def cfgRo (g : Rodas.Cfg n) {σ : Type} (s : Rodas.St n σ) : Cn X :=
  { xend := s.xend, posneg := s.posneg, hmaxn := s.hmaxn, uround := g.uround, zero := 0.0
    c01 := 0.1e0, c10u := 10.0 * g.uround, c1e6 := 1.0e-6, c10001 := 1.0001, quot1 := 1
    abs := X.ABS, min := X.MIN, dist := X.ABSsub s.xend }

/-- the variables of the time loop. -/
def projRo {σ : Type} (s : Rodas.St n σ) : Rs X := ⟨s.x, s.h, s.last, s.reject, s.inner⟩

/-- Rodas follows `rodas`, with the answers computed by the rest of the program (one-step mode left out). -/
theorem rodas_sim (L : Rodas.Lin X n) (P : Rodas.Prob X n) (g : Rodas.Cfg n) (s : Rodas.St n L.σ)
    (h1 : g.onlyOneStep = false) :
    (∀ s', Rodas.step L P g s = .next s' → ∃ a, rodas (cfgRo g s) a (projRo s) = .next (projRo s')) ∧
    (∀ s', Rodas.step L P g s = .ret s' → ∀ a, rodas (cfgRo g s) a (projRo s) = .ret (projRo s')) ∧
    (∀ a, rodas (cfgRo g s) a (projRo s) = .throw .stepTooSmall ↔ Rodas.step L P g s = .throw .stepTooSmall) := by
  unfold Rodas.step rodas
  by_cases hi : s.inner = true
  · have hi' : (projRo s).inner = true := hi
    simp only [if_pos hi, if_pos hi']
    refine ⟨fun s' h => ?_, fun s' h => ?_, fun a => ?_⟩
    · unfold Rodas.body at h
      split at h
      · cases h
      · rename_i j k _
        simp only [h1, Bool.false_eq_true, if_false] at h
        unfold Rodas.control at h
        by_cases he : Rodas.errNorm g s.Y k.YNEW k.AK6 ≤ 1.0
        · simp only [if_pos he, Bool.false_eq_true, if_false] at h
          by_cases h3 : s.nstep + 1 > g.nmax
          · rw [if_pos h3] at h; cases h
          rw [if_neg h3] at h
          injection h with h
          obtain ⟨q, hq⟩ : ∃ q, Rodas.hnewAcc g { s with jac := j, ndec := s.ndec + 1, nstep := s.nstep + 1 }
              (Rodas.errNorm g s.Y k.YNEW k.AK6) = s.h / q := by
            unfold Rodas.hnewAcc
            split_ifs
            · exact ⟨_, rfl⟩
            · exact ⟨_, rfl⟩
          generalize Rodas.hnewAcc g _ (Rodas.errNorm g s.Y k.YNEW k.AK6) = H at h hq
          subst hq
          refine ⟨⟨true, q⟩, ?_⟩
          rw [← h]
          unfold rodasBody projRo cfgRo
          simp only [if_true, Rodas.limit]
        · simp only [if_neg he, if_true] at h
          injection h with h
          refine ⟨⟨false, Rodas.facOf g (Rodas.errNorm g s.Y k.YNEW k.AK6)⟩, ?_⟩
          rw [← h]
          unfold rodasBody projRo cfgRo
          simp only [Bool.false_eq_true, if_false]
    · unfold Rodas.body at h
      split at h
      · cases h
      · simp only [h1, Bool.false_eq_true, if_false] at h
        split_ifs at h
    · refine ⟨fun h => (by cases h), fun h => ?_⟩
      unfold Rodas.body at h
      split at h
      · cases h
      · simp only at h
        split_ifs at h <;> simp at h
  · have hi' : ¬ (projRo s).inner = true := hi
    simp only [if_neg hi, if_neg hi']
    by_cases hl : s.last = true
    · have hl' : (projRo s).last = true := hl
      simp only [if_pos hl, if_pos hl']
      refine ⟨fun _ h => (by cases h), fun s' h a => ?_, fun a => ⟨fun h => (by cases h), fun h => (by cases h)⟩⟩
      injection h with h
      rw [h]
    · have hl' : ¬ (projRo s).last = true := hl
      simp only [if_neg hl, if_neg hl']
      unfold Rodas.prepare rodasHead
      by_cases ht : 0.1e0 * X.ABS s.h ≤ X.ABS s.x * g.uround
      · have ht' : (cfgRo g s).c01 * (cfgRo g s).abs (projRo s).h ≤
            (cfgRo g s).abs (projRo s).x * (cfgRo g s).uround := ht
        rw [if_pos ht, if_pos ht']
        exact ⟨fun _ h => (by cases h), fun _ h => (by cases h), fun _ => ⟨fun _ => rfl, fun _ => rfl⟩⟩
      · have ht' : ¬ (cfgRo g s).c01 * (cfgRo g s).abs (projRo s).h ≤
            (cfgRo g s).abs (projRo s).x * (cfgRo g s).uround := ht
        rw [if_neg ht, if_neg ht']
        refine ⟨fun s' h => ⟨⟨true, 0⟩, ?_⟩, fun _ h => (by cases h), fun _ => ⟨fun h => (by cases h), fun h => (by cases h)⟩⟩
        injection h with h
        rw [← h]
        rfl

/-- the constants of a call of Radau5. -/
noncomputable def cfgRa (g : Radau.Cfg n) {σ : Type} (s : Radau.St n σ) : Cn X :=
  { xend := s.xend, posneg := s.posneg, hmaxn := s.hmaxn, uround := g.uround, zero := 0.0
    c01 := 0.1, c10u := 10.0 * g.uround, c1e6 := 1.0e-6, c10001 := 1.0001, quot1 := g.quot1
    abs := X.ABS, min := X.MIN, dist := X.ABSsub s.xend }

/-- the variables of the time loop. -/
def projRa {σ : Type} (s : Radau.St n σ) : Rs X := ⟨s.x, s.h, s.last, s.reject, false⟩

/-- `xph` is `x+h` during an attempt. -/
def Xph {σ : Type} (s : Radau.St n σ) : Prop :=
  s.phase = .newton ∨ s.phase = .tail → s.xph = s.x + s.h

/-- the parts of the state which the Jacobian and the factorisations do not touch. -/
theorem withMatrices_next {L : Radau.Lin X n} {g : Radau.Cfg n} {s s' : Radau.St n L.σ}
    {k : Radau.St n L.σ → Res (Radau.St n L.σ)} (h : Radau.withMatrices L g s k = .next s') :
    ∃ j, k { s with jac := j, ndec := s.ndec + 1 } = .next s' := by
  unfold Radau.withMatrices at h
  split at h
  · cases h
  · exact ⟨_, h⟩

/-- Radau5 enters with `clip`. -/
theorem radau_init_sim (L : Radau.Lin X n) (P : Radau.Prob X n) (g : Radau.Cfg n) {s s' : Radau.St n L.σ}
    (hs : s.phase = .init) (h : Radau.step L P g s = .next s') :
    projRa s' = clip (cfgRa g s') ⟨s.x, s.h, false, false, false⟩ ∧ s'.phase = .check ∧ s'.dnc = false ∧
      s'.xend = s.xend := by
  unfold Radau.step at h
  simp only [hs] at h
  unfold Radau.init at h
  obtain ⟨j, h⟩ := withMatrices_next h
  injection h with h
  rw [← h]
  exact ⟨rfl, rfl, rfl, rfl⟩

theorem newtonTest_true {L : Radau.Lin X n} {g : Radau.Cfg n} {s : Radau.St n L.σ} {Z : Radau.Tri X n}
    (h : (Radau.newtonTest g s Z).1 = true) :
    (Radau.newtonTest g s Z).2.x = s.x ∧ (Radau.newtonTest g s Z).2.h = s.h ∧
    (Radau.newtonTest g s Z).2.last = s.last ∧ (Radau.newtonTest g s Z).2.reject = s.reject := by
  revert h
  unfold Radau.newtonTest
  simp only
  split_ifs <;> simp

theorem newtonTest_false {L : Radau.Lin X n} {g : Radau.Cfg n} {s : Radau.St n L.σ} {Z : Radau.Tri X n}
    (h : (Radau.newtonTest g s Z).1 = false) :
    (Radau.newtonTest g s Z).2.x = s.x ∧
    (Radau.newtonTest g s Z).2.last = false ∧ (Radau.newtonTest g s Z).2.reject = true := by
  revert h
  unfold Radau.newtonTest
  simp only
  split_ifs <;> simp

theorem newtonTest_keep {L : Radau.Lin X n} (g : Radau.Cfg n) (s : Radau.St n L.σ) (Z : Radau.Tri X n) :
    (Radau.newtonTest g s Z).2.phase = s.phase ∧ (Radau.newtonTest g s Z).2.xph = s.xph ∧
    (Radau.newtonTest g s Z).2.dnc = s.dnc := by
  unfold Radau.newtonTest
  simp only
  split_ifs <;> exact ⟨rfl, rfl, rfl⟩

theorem refreshJac_keep (L : Radau.Lin X n) (P : Radau.Prob X n) (g : Radau.Cfg n) (s : Radau.St n L.σ) :
    projRa (Radau.refreshJac L P g s) = projRa s ∧ (Radau.refreshJac L P g s).dnc = s.dnc ∧
    (Radau.refreshJac L P g s).phase = s.phase ∧ (Radau.refreshJac L P g s).redonewton = s.redonewton := by
  unfold Radau.refreshJac
  split_ifs <;> exact ⟨rfl, rfl, rfl, rfl⟩

theorem jacIfSlow_keep (L : Radau.Lin X n) (P : Radau.Prob X n) (g : Radau.Cfg n) (s : Radau.St n L.σ) :
    projRa (Radau.jacIfSlow L P g s) = projRa s ∧ (Radau.jacIfSlow L P g s).phase = s.phase := by
  unfold Radau.jacIfSlow
  split_ifs <;> exact ⟨rfl, rfl⟩

/-- the outcome of one pass through the Newton loop. -/
theorem newtonStep_keep (L : Radau.Lin X n) (P : Radau.Prob X n) (g : Radau.Cfg n) (s : Radau.St n L.σ) :
    ((Radau.newtonStep L P g s).2.phase = s.phase ∧ (Radau.newtonStep L P g s).2.xph = s.xph ∧
      (Radau.newtonStep L P g s).2.x = s.x) ∧
    ((Radau.newtonStep L P g s).1 = none ∨ (Radau.newtonStep L P g s).1 = some .converged →
      projRa (Radau.newtonStep L P g s).2 = projRa s) ∧
    ((Radau.newtonStep L P g s).1 = some .willNotConverge →
      (Radau.newtonStep L P g s).2.last = false ∧ (Radau.newtonStep L P g s).2.reject = true) := by
  unfold Radau.newtonStep
  simp only
  set Z := Radau.increment L P g.c s.x s.xph s.h s.Y s.jac s.Z s.FF
  set s1 : Radau.St n L.σ := { s with nfonccalled := s.nfonccalled + 3, calls := s.calls + 3, newt := s.newt + 1 }
    with hs1
  obtain ⟨k1, k2, k3⟩ := newtonTest_keep g s1 Z
  cases hb : (Radau.newtonTest g s1 Z).1
  · obtain ⟨l1, l2, l3⟩ := newtonTest_false hb
    simp only [if_true]
    split_ifs
    · exact ⟨⟨k1, k2, l1⟩, fun h => absurd h (by simp), fun h => absurd h (by simp)⟩
    · exact ⟨⟨k1, k2, l1⟩, fun h => absurd h (by simp), fun _ => ⟨l2, l3⟩⟩
  · obtain ⟨l1, l2, l3, l4⟩ := newtonTest_true hb
    simp only [Bool.true_eq_false, if_false]
    have e : ∀ d F W, projRa { (Radau.newtonTest g s1 Z).2 with dynold := d, FF := F, Z := W } = projRa s := by
      intro d F W
      simp only [projRa, l1, l2, l3, l4]
      rfl
    split_ifs
    all_goals exact ⟨⟨k1, k2, l1⟩, fun _ => e _ _ _, fun h => absurd h (by simp)⟩

/-- Radau5 follows `radau` until Newton ends with `didNotConverge` (one-step mode left out): a transition
either leaves the variables of the time loop unchanged or is a transition of `radau`. -/
theorem radau_sim (L : Radau.Lin X n) (P : Radau.Prob X n) (g : Radau.Cfg n) {s : Radau.St n L.σ}
    (h1 : g.onlyOneStep = false) (hp : s.phase ≠ .init) (hx : Xph s) :
    (∀ s', Radau.step L P g s = .next s' → s'.dnc = false → Xph s' ∧ s'.phase ≠ .init ∧
      (projRa s' = projRa s ∨ ∃ a, (∀ h, a ≠ .half h) ∧ radau (cfgRa g s) a (projRa s) = .next (projRa s'))) ∧
    (∀ s', Radau.step L P g s = .ret s' → ∃ a, (∀ h, a ≠ .half h) ∧ ∃ r, radau (cfgRa g s) a (projRa s) = .ret r ∧
      r.x = s'.x) := by
  unfold Radau.step
  match hph : s.phase with
  | .init => exact absurd hph hp
  | .check =>
    simp only
    refine ⟨fun s' h _ => ?_, fun s' h => ?_⟩
    · split_ifs at h
      injection h with h
      rw [← h]
      refine ⟨fun h => ?_, by simp, Or.inl rfl⟩
      simp at h
    · split_ifs at h
  | .attempt =>
    simp only
    refine ⟨fun s' h _ => ?_, fun s' h => (by cases h)⟩
    injection h with h
    rw [← h]
    exact ⟨fun _ => rfl, by simp [Radau.attempt], Or.inl rfl⟩
  | .newton =>
    simp only
    have hxx := hx (Or.inl hph)
    obtain ⟨⟨k1, k2, k3⟩, k4, k5⟩ := newtonStep_keep L P g s
    unfold Radau.newton
    simp only
    set r := (Radau.newtonStep L P g s) with hr
    have hcon : projRa r.2 = projRa s → r.2.xph = r.2.x + r.2.h := by
      intro e
      have e1 := congrArg Rs.h e
      simp only [projRa] at e1
      rw [k2, k3, e1, hxx]
    match hr1 : r.1 with
    | none =>
      simp only
      refine ⟨fun s' h _ => ?_, fun s' h => (by cases h)⟩
      injection h with h
      rw [← h]
      have e := k4 (Or.inl hr1)
      exact ⟨fun _ => hcon e, by rw [k1, hph]; simp, Or.inl e⟩
    | some .converged =>
      simp only [Radau.afterNewton]
      refine ⟨fun s' h _ => ?_, fun s' h => (by cases h)⟩
      injection h with h
      rw [← h]
      have e := k4 (Or.inr hr1)
      refine ⟨fun _ => hcon e, by simp, Or.inl e⟩
    | some .didNotConverge =>
      simp only [Radau.afterNewton]
      refine ⟨fun s' h hd => ?_, fun s' h => ?_⟩
      · obtain ⟨j, h⟩ := withMatrices_next h
        injection h with h
        rw [← h] at hd
        simp only [(refreshJac_keep L P g _).2.1] at hd
        exact absurd hd (by simp)
      · unfold Radau.withMatrices at h
        split at h <;> cases h
    | some .willNotConverge =>
      simp only [Radau.afterNewton]
      refine ⟨fun s' h hd => ?_, fun s' h => ?_⟩
      · obtain ⟨j, h⟩ := withMatrices_next h
        injection h with h
        obtain ⟨l1, l2⟩ := k5 hr1
        obtain ⟨q1, q2, q3, q4⟩ := refreshJac_keep L P g { r.2 with newt := 0, redonewton := true, reason := .willNotConverge }
        have hphs : s'.phase = .attempt := by
          rw [← h]
          simp only [q4, if_true]
        have hpr : projRa s' = projRa r.2 := by
          rw [← h]
          exact q1
        refine ⟨fun h => ?_, by rw [hphs]; simp, Or.inr ⟨.redo r.2.h, by simp, ?_⟩⟩
        · rw [hphs] at h; simp at h
        · rw [hpr]
          simp only [radau, projRa, l1, l2, k3]
      · unfold Radau.withMatrices at h
        split at h <;> cases h
  | .tail =>
    simp only
    have hxx := hx (Or.inr hph)
    unfold Radau.tail
    simp only [h1, Bool.false_eq_true, if_false]
    set e := Radau.estrad L P g s
    set sc : Radau.St n L.σ := { s with calls := s.calls + e.2 } with hsc
    by_cases he : e.1 < 1.0
    · simp only [if_pos he]
      set s1 := Radau.accepted g sc e.1 with hs1
      have a1 : s1.x = s.x + s.h := hxx
      by_cases hl : s1.last = true ∨ 0.1 * X.ABSsub s1.xend s1.x ≤ X.ABS s1.x * g.uround
      · rw [if_pos hl]
        refine ⟨fun s' h => (by cases h), fun s' h => ⟨.acc 0 true, by simp, ?_⟩⟩
        injection h with h
        rw [a1] at hl
        refine ⟨_, if_pos hl, ?_⟩
        rw [← h]
        exact a1.symm
      · rw [if_neg hl]
        refine ⟨fun s' h _ => ?_, fun s' h => ?_⟩
        · have hl' := hl
          rw [a1] at hl'
          unfold Radau.nextStep at h
          simp only at h
          set hn := Radau.proposed s1 (Radau.hnewAcc g sc e.1) with hhn
          have hn' : radauProposed (cfgRa g s) (projRa s) (Radau.hnewAcc g sc e.1) = hn := rfl
          by_cases h2 : 0.0 ≤ (s1.x + hn / g.quot1 - s1.xend) * s1.posneg
          · rw [if_pos h2] at h
            obtain ⟨j, h⟩ := withMatrices_next h
            injection h with h
            set t : Radau.St n L.σ := { s1 with
              y0 := P.F s1.x s1.Y, nfonccalled := s1.nfonccalled + 1, calls := s1.calls + 1
              hopt := X.MIN s1.h (Radau.limited s1 (Radau.hnewAcc g sc e.1)), reject := false, phase := .check
              h := s1.xend - s1.x, last := true } with ht
            obtain ⟨q1, q2⟩ := jacIfSlow_keep L P g t
            have hpr : projRa s' = projRa t := by rw [← h]; exact q1
            have hphs : s'.phase = .check := by rw [← h]; exact q2
            refine ⟨fun h => ?_, by rw [hphs]; simp, Or.inr ⟨.acc (Radau.hnewAcc g sc e.1) true, by simp, ?_⟩⟩
            · rw [hphs] at h; simp at h
            · rw [hpr]
              rw [a1] at h2
              refine (if_neg hl').trans ((if_pos h2).trans ?_)
              congr 1
              simp only [projRa, ht, a1]
              rfl
          · rw [if_neg h2] at h
            have h2' := h2
            rw [a1] at h2'
            by_cases h3 : s1.theta ≤ g.thet ∧ g.quot1 ≤ hn / s1.h ∧ hn / s1.h ≤ g.quot2
            · rw [if_pos h3] at h
              injection h with h
              refine ⟨fun hh => ?_, by rw [← h]; simp, Or.inr ⟨.acc (Radau.hnewAcc g sc e.1) true, by simp, ?_⟩⟩
              · rw [← h] at hh; simp at hh
              · refine (if_neg hl').trans ((if_neg h2').trans ((if_pos ⟨rfl, h3.2.1⟩).trans ?_))
                congr 1
                rw [← h]
                simp only [projRa, a1]
                rfl
            · rw [if_neg h3] at h
              obtain ⟨j, h⟩ := withMatrices_next h
              injection h with h
              set t : Radau.St n L.σ := { s1 with
                y0 := P.F s1.x s1.Y, nfonccalled := s1.nfonccalled + 1, calls := s1.calls + 1
                hopt := X.MIN s1.h (Radau.limited s1 (Radau.hnewAcc g sc e.1)), reject := false, phase := .check } with ht
              obtain ⟨q1, q2⟩ := jacIfSlow_keep L P g t
              have hphs : s'.phase = .check := by rw [← h]; exact q2
              have hpr : projRa s' = { projRa t with h := hn } := by rw [← h, ← q1]; rfl
              refine ⟨fun h => ?_, by rw [hphs]; simp, Or.inr ⟨.acc (Radau.hnewAcc g sc e.1) false, by simp, ?_⟩⟩
              · rw [hphs] at h; simp at h
              · rw [hpr]
                refine (if_neg hl').trans ((if_neg h2').trans ((if_neg (by simp)).trans ?_))
                congr 1
                simp only [projRa, ht, a1]
                rfl
        · unfold Radau.nextStep at h
          simp only at h
          split_ifs at h
          all_goals
            unfold Radau.withMatrices at h
            split at h <;> cases h
    · simp only [if_neg he]
      unfold Radau.rejected
      refine ⟨fun s' h _ => ?_, fun s' h => ?_⟩
      · obtain ⟨j, h⟩ := withMatrices_next h
        injection h with h
        set t : Radau.St n L.σ := { sc with
          reject := true, last := false
          h := if sc.first then sc.h * 0.1 else sc.h / Radau.quotOf g sc e.1
          nrejct := if sc.naccpt ≠ 0 then sc.nrejct + 1 else sc.nrejct
          rejs := sc.rejs + 1, phase := .check } with ht
        obtain ⟨q1, q2, q3, q4⟩ := refreshJac_keep L P g t
        have hphs : s'.phase = .check := by rw [← h]; exact q3
        have hpr : projRa s' = projRa t := by rw [← h]; exact q1
        refine ⟨fun h => ?_, by rw [hphs]; simp, Or.inr ⟨.redo t.h, by simp, ?_⟩⟩
        · rw [hphs] at h; simp at h
        · rw [hpr]; rfl
      · unfold Radau.withMatrices at h
        split at h <;> cases h

/-- `Matrices` for one unknown: `decomr` forms `fac-Jac`, `solvereal` divides. -/
noncomputable def divLin : Rodas.Lin X 1 where
  σ := X × X
  load := fun J => (J 0 0, 0)
  decomr := fun fac s => open Classical in if fac - s.1 = 0 then none else some (s.1, fac - s.1)
  solvereal := fun s b i => b i / s.2

theorem div_big (b : X) {e : X} (he : e = .pinf ∨ e = .nan) : b / e = .fin 0 ∨ b / e = .nan := by
  rcases he with rfl | rfl
  · cases b <;> simp
  · right; simp

theorem inf_mul {c : ℝ} (hc : c ≠ 0) {a : X} (ha : a = .fin 0 ∨ a = .nan) : X.fin c / .fin 0 * a = .nan := by
  have : X.fin c / .fin 0 = .pinf ∨ X.fin c / .fin 0 = .ninf := by
    rw [X.fin_div', if_pos rfl]
    unfold X.infTimes
    rcases lt_or_gt_of_ne hc with h | h
    · right; rw [if_neg (by linarith), if_pos h]
    · left; rw [if_pos h]
  rcases ha with rfl | rfl
  · rcases this with e | e <;> rw [e] <;> simp [X.infTimes]
  · simp

/-- C112: what becomes of the step of length zero.  For one unknown, whatever the problem, all quantities
computed with `h=0` are NaN, the step is rejected, `h` becomes NaN, and the `do` loop never ends (the limit of
the number of steps is tested after the loop). -/
theorem rodas_zero_step_diverges {P : Rodas.Prob X 1} {g : Rodas.Cfg 1} {q ga c21 : ℝ} (hg : Rodas.Std g q)
    (h1 : g.coef.GAMMA = .fin ga)
    (h2 : g.coef.C21 = .fin c21) (h3 : c21 ≠ 0) {s : Rodas.St 1 divLin.σ} (hi : s.inner = true)
    (hs : s.h = .fin 0) : Diverges (Rodas.step divLin P g) s := by
  refine diverges_of_inv (I := fun s => s.inner = true ∧ (s.h = .fin 0 ∨ s.h = .nan)) ?_ ⟨hi, Or.inl hs⟩
  rintro s ⟨hi, hh⟩
  have key : ∃ j k, Rodas.attempt divLin P g.coef s.x s.h s.Y s.DY1 s.FX s.jac = some (j, k) ∧ k.AK6 0 = .nan := by
    have hfac : 1 / (s.h * g.coef.GAMMA) = .pinf ∨ 1 / (s.h * g.coef.GAMMA) = .nan := by
      rcases hh with hh | hh <;> rw [hh]
      · left
        rw [h1, X.fin_mul, zero_mul, X.one_eq, X.fin_div', if_pos rfl]
        simp [X.infTimes]
      · right; simp
    have he : 1 / (s.h * g.coef.GAMMA) - s.jac.1 = .pinf ∨ 1 / (s.h * g.coef.GAMMA) - s.jac.1 = .nan := by
      rcases hfac with e | e <;> rw [e]
      · cases s.jac.1
        · right; rfl
        · right; rfl
        · left; rfl
        · left; rfl
      · right; simp
    have hne : ¬ 1 / (s.h * g.coef.GAMMA) - s.jac.1 = 0 := by
      rcases he with e | e <;> rw [e] <;> simp
    refine ⟨(s.jac.1, 1 / (s.h * g.coef.GAMMA) - s.jac.1), Rodas.stages divLin P g.coef s.x s.h s.Y s.DY1 s.FX
      (s.jac.1, 1 / (s.h * g.coef.GAMMA) - s.jac.1), ?_, ?_⟩
    · unfold Rodas.attempt
      simp only [divLin]
      rw [if_neg hne]
      rfl
    · have hAK1 : ∀ A : X, A / (1 / (s.h * g.coef.GAMMA) - s.jac.1) = .fin 0 ∨
          A / (1 / (s.h * g.coef.GAMMA) - s.jac.1) = .nan := fun A => div_big A he
      have hc : ∀ a : X, a = .fin 0 ∨ a = .nan → g.coef.C21 / s.h * a = .nan := by
        intro a ha
        rcases hh with hh | hh <;> rw [hh]
        · rw [h2]; exact inf_mul h3 ha
        · simp
      unfold Rodas.stages Rodas.slvrod
      simp only [divLin, if_true]
      simp only [hc _ (hAK1 _), X.add_nan, X.nan_div, X.mul_nan, X.nan_add]
  obtain ⟨j, k, ha, hk⟩ := key
  refine ⟨_, Rodas.step_reject hi ha (Rodas.errNorm_nan hk) (by simp), hi, Or.inr ?_⟩
  show s.h / Rodas.facOf g .nan = .nan
  rw [Rodas.facOf_nan hg, X.div_nan]

/-- the hypotheses hold for the default configuration with the tables of method 1. -/
example : ∃ (c : Rodas.Coef ℚ) (q ga c21 : ℝ), Rodas.rocoe 1 = some c ∧
    Rodas.Std (Rodas.Cfg.default (n := 1) c (fun _ => 1) fun _ => 1) q ∧
    (Rodas.Cfg.default (n := 1) c (fun _ => 1) fun _ => 1).coef.GAMMA = .fin ga ∧
    (Rodas.Cfg.default (n := 1) c (fun _ => 1) fun _ => 1).coef.C21 = .fin c21 ∧ c21 ≠ 0 := by
  refine ⟨_, 0.9, _, _, rfl, Rodas.std_default _ _ _, rfl, rfl, ?_⟩
  norm_num

end Odes.EndLoop
