import Verif.Model.MainsOut
import Verif.Props.MainsFlat

/-!
# C118: the two ways the test program of SymplecticRK stops
-/

namespace Odes.Symp

section
variable {α : Type} [Add α] [Sub α] [Mul α] [Zero α] [One α] [LE α] {n : ℕ}

theorem inv_e {c : Cfg α n} {st : St α n} (hi : Inv c st) : Inv c { st with e := fun _ => 0 } :=
  ⟨⟨hi.wf.1, hi.wf.2, hi.wf.3, hi.wf.4, hi.wf.5⟩, ⟨hi.coef.1, hi.coef.2, hi.coef.3⟩⟩

theorem iterLoopZ_none (d e a : Fin n → α) (c : Cfg α n) (z : St α n → Fin n → α) (u : Fin n → α) (k : ℕ) : ∀ {st : St α n},
    iterLoopZ c z u k st = none → iterLoop c u k (put d e a st) = none := by
  induction k with
  | zero => intro st h; cases h
  | succ k ih =>
    intro st h
    unfold iterLoopZ evalsZ at h
    unfold iterLoop
    rw [← evals_put]
    cases h1 : evals c st with
    | none => rfl
    | some s1 =>
      rw [h1, Option.map_some, Option.bind_some] at h
      rw [Option.map_some, Option.bind_some]
      obtain ⟨z1, ez⟩ : ∃ z1, z1 = { s1 with delta := fun _ => 0, e := fun _ => 0, a := z s1 } := ⟨_, rfl⟩
      rw [← ez] at h
      have e1 : put d e a s1 = put d e a z1 := by rw [ez]; rfl
      rw [e1, ← update_put]
      cases h2 : update c u z1 with
      | none => rfl
      | some s2 =>
        rw [h2, Option.bind_some] at h
        rw [Option.map_some, Option.bind_some]
        have hs : success c (put d e a s2) ↔ success c s2 := Iff.rfl
        by_cases hsu : success c s2
        · rw [if_pos hsu] at h; cases h
        · rw [if_neg hsu] at h
          rw [if_neg (fun h => hsu (hs.1 h))]
          exact ih h

open Classical in
theorem stepZ_none {c : Cfg α n} {z : St α n → Fin n → α} {h : α} {u : Fin n → α} {st : St α n}
    (hs : stepZ c z h u true st = none) : step c h u true { st with e := fun _ => 0 } = none := by
  have hd : ¬ (true = false ∧ c.eq st.oldH h) := by simp
  unfold stepZ at hs
  unfold step
  dsimp only at hs ⊢

  simp only [if_neg hd] at hs ⊢
  have e0 : { st with e := fun _ => 0 } = put st.delta (fun _ => 0) st.a st := rfl
  obtain ⟨d, hd'⟩ : ∃ d, d = st.delta := ⟨_, rfl⟩
  obtain ⟨a, ha'⟩ : ∃ a, a = st.a := ⟨_, rfl⟩
  have prep : (if ¬ c.eq st.oldH h then (gChange c h { ({ st with e := fun _ => 0 } : St α n) with oldH := h }).bind (eChange c h)
      else some { st with e := fun _ => 0 }) = ((if ¬ c.eq st.oldH h then (gChange c h { st with oldH := h }).bind (eChange c h)
      else some st)).map (put d (fun _ => 0) a) := by
    split
    · have e1 : { ({ st with e := fun _ => 0 } : St α n) with oldH := h } = put d (fun _ => 0) a { st with oldH := h } := by
        rw [hd', ha']; rfl
      rw [e1, ← gChange_put]
      cases gChange c h { st with oldH := h } with
      | none => rfl
      | some s => exact (eChange_put _ _ _ c h s).symm
    · rw [hd', ha']; rfl
  rw [prep]
  cases h1 : (if ¬ c.eq st.oldH h then (gChange c h { st with oldH := h }).bind (eChange c h) else some st) with
  | none => rfl
  | some s1 =>
    rw [h1, Option.bind_some] at hs
    rw [Option.map_some, Option.bind_some, ← startAt_put]
    cases h2 : startAt c u s1 with
    | none => rfl
    | some s2 =>
      rw [h2, Option.bind_some] at hs
      rw [Option.map_some, Option.bind_some]
      have e2 : { put d (fun _ => 0) a s2 with iter := 0 } = put d (fun _ => 0) a { s2 with iter := 0 } := rfl
      rw [e2]
      cases h3 : iterLoopZ c z u c.itermax.toNat { s2 with iter := 0 } with
      | none => rw [iterLoopZ_none d (fun _ => 0) a c z u _ h3]; rfl
      | some r =>
        obtain ⟨b, s3⟩ := r
        rw [h3, Option.bind_some] at hs
        cases b with
        | false => simp at hs
        | true =>
          obtain ⟨p1, p2⟩ := iterLoopZ_put d (fun _ => 0) a c z u _ h3
          rw [p1, Option.bind_some]
          simp only [if_true] at hs ⊢
          rw [increment_put]
          have e3 : put s3.delta (fun _ => 0) s3.a s3 = s3 := by rw [← p2]; rfl
          rw [e3, Option.map_map]
          cases h4 : increment c s3 with
          | none => rfl
          | some s4 => rw [h4] at hs; cases hs

end

end Odes.Symp

namespace Odes.Mains

section
variable {F : Symp.FP} {n : ℕ} {c : Symp.Cfg F.T n} {h : F.T} {more : ℕ → Prop}
  {z : Symp.St F.T n → Fin n → F.T} {u0 u u2 : Fin n → F.T} {st0 st st2 : Symp.St F.T n} {it it2 : ℕ} {w w2 : List (Fin n → F.T)}

theorem SympLoop.hist {junk : Symp.St F.T n} (hst : Symp.construct c junk = some (.ok st0))
    (hl : SympLoop c h more u0 st0 it u st w) : Symp.Hist c st := by
  induction hl with
  | start => exact .new hst
  | next hk hm hs ih => exact .step _ _ _ true true ih hs

/-- the loop is deterministic: after `it` turns there is one state. -/
theorem SympLoop.unique (hl : SympLoop c h more u0 st0 it u st w) (hl2 : SympLoop c h more u0 st0 it u2 st2 w2) :
    u2 = u ∧ st2 = st ∧ w2 = w := by
  induction hl generalizing u2 st2 w2 with
  | start => cases hl2; exact ⟨rfl, rfl, rfl⟩
  | next hk hm hs ih =>
    cases hl2 with
    | next hk2 hm2 hs2 =>
      obtain ⟨rfl, rfl, rfl⟩ := ih hk2
      rw [hs] at hs2
      simp only [Option.some.injEq, Prod.mk.injEq, true_and] at hs2
      obtain ⟨rfl, rfl⟩ := hs2
      exact ⟨rfl, rfl, rfl⟩

/-- a loop of `it2` turns passes through the state after `it ≤ it2` turns; if `it < it2` the step there succeeds. -/
theorem SympLoop.through (hl : SympLoop c h more u0 st0 it2 u2 st2 w2) (hi : it < it2) :
    ∃ u st w, SympLoop c h more u0 st0 it u st w ∧ more it ∧ ∃ u' st', Symp.step c h u true st = some (true, u', st') := by
  induction hl with
  | start => exact absurd hi (Nat.not_lt_zero _)
  | next hk hm hs ih =>
    rcases Nat.lt_succ_iff_lt_or_eq.1 hi with hj | rfl
    · exact ih hj
    · exact ⟨_, _, _, hk, hm, _, _, hs⟩

/-- C118: the program stops, by "end." or by the exception and by one of the two only, never by undefined behaviour (declared arrays: the
right hand side writes inside its result), for every right hand side, step size and initial values; the turn where it stops, the values
and the lines written are determined. -/
theorem symp_main_outcome (hT : Symp.Tab c) (hS : Symp.Scal c) {junk : Symp.St F.T n}
    (hst : Symp.construct c junk = some (.ok st0)) {years hR : ℝ} :
    (∃! o : ℕ × (Fin n → F.T) × Symp.St F.T n × List (Fin n → F.T),
      SympEnds c h (moreSteps years hR) u0 st0 o.1 o.2.1 o.2.2.1 o.2.2.2 ∨
      SympThrows c h (moreSteps years hR) u0 st0 o.1 o.2.1 o.2.2.1 o.2.2.2) ∧
    (∀ it u st w, ¬ SympUndef c h (moreSteps years hR) u0 st0 it u st w) ∧
    ((∃ it u st w, SympEnds c h (moreSteps years hR) u0 st0 it u st w) →
      ∀ it u st w, ¬ SympThrows c h (moreSteps years hR) u0 st0 it u st w) := by
  have hund : ∀ it u st w, ¬ SympUndef c h (moreSteps years hR) u0 st0 it u st w := by
    rintro it u st w ⟨hl, -, hn⟩
    have := (Symp.symp_defined_iff hT hS (hl.hist hst) h u true).1 hn
    exact absurd this.2.1 (by decide)
  -- a stop and a loop going further are incompatible
  have hcl : ∀ {it it2 : ℕ} {u u2 st st2 w w2},
      (SympEnds c h (moreSteps years hR) u0 st0 it u st w ∨ SympThrows c h (moreSteps years hR) u0 st0 it u st w) →
      SympLoop c h (moreSteps years hR) u0 st0 it2 u2 st2 w2 → it2 ≤ it := by
    intro it it2 u u2 st st2 w w2 ho hl
    by_contra hlt
    obtain ⟨u3, st3, w3, hl3, hm3, u', st', hs3⟩ := hl.through (not_le.1 hlt)
    rcases ho with ⟨_, hn⟩ | ⟨hl1, _, u4, st4, hs4⟩
    · exact hn hm3
    · obtain ⟨rfl, rfl, -⟩ := hl1.unique hl3
      rw [hs3] at hs4
      simp at hs4
  have hloop : ∀ {it : ℕ} {u st w},
      (SympEnds c h (moreSteps years hR) u0 st0 it u st w ∨ SympThrows c h (moreSteps years hR) u0 st0 it u st w) →
      SympLoop c h (moreSteps years hR) u0 st0 it u st w := fun ho => ho.elim And.left And.left
  refine ⟨?_, hund, ?_⟩
  · -- existence, by the distance to the last turn
    have hex : ∀ k it u st w, ⌈years * 365.25 * hR⌉₊ ≤ it + k → SympLoop c h (moreSteps years hR) u0 st0 it u st w →
        ∃ it u st w, SympEnds c h (moreSteps years hR) u0 st0 it u st w ∨ SympThrows c h (moreSteps years hR) u0 st0 it u st w := by
      intro k
      induction k with
      | zero => exact fun it u st w hi hl => ⟨it, u, st, w, .inl ⟨hl, not_lt.2 (Nat.ceil_le.1 hi)⟩⟩
      | succ k ih =>
        intro it u st w hi hl
        by_cases hm : moreSteps years hR it
        · rcases hs : Symp.step c h u true st with _ | ⟨r, u', st'⟩
          · exact absurd ⟨hl, hm, hs⟩ (hund it u st w)
          · cases r with
            | true => exact ih _ _ _ _ (by omega) (.next hl hm hs)
            | false => exact ⟨it, u, st, w, .inr ⟨hl, hm, u', st', hs⟩⟩
        · exact ⟨it, u, st, w, .inl ⟨hl, hm⟩⟩
    obtain ⟨it, u, st, w, ho⟩ := hex ⌈years * 365.25 * hR⌉₊ 0 u0 st0 [] (by omega) .start
    refine ⟨(it, u, st, w), ho, ?_⟩
    rintro ⟨it2, u2, st2, w2⟩ ho2
    obtain rfl : it2 = it := le_antisymm (hcl ho (hloop ho2)) (hcl ho2 (hloop ho))
    obtain ⟨rfl, rfl, rfl⟩ := (hloop ho).unique (hloop ho2)
    rfl
  · rintro ⟨it, u, st, w, he⟩ it2 u2 st2 w2 ht
    obtain rfl : it2 = it := le_antisymm (hcl (.inl he) ht.1) (hcl (.inr ht) he.1)
    exact he.2 ht.2.1

/-- C118: when the exception is thrown at the turn `it`, none of the iterations allowed, started with all stages at the values last
written, passed the test of convergence; fewer lines than steps asked for were given to the stream, and the values of `u` are those of
the last one (or the initial ones). -/
theorem symp_main_throws (hT : Symp.Tab c) (hS : Symp.Scal c) {junk : Symp.St F.T n}
    (hst : Symp.construct c junk = some (.ok st0)) {years hR : ℝ}
    (ht : SympThrows c h (moreSteps years hR) u0 st0 it u st w) :
    it < ⌈years * 365.25 * hR⌉₊ ∧ w.length = it ∧ (w = [] ∧ u = u0 ∨ w.head? = some u) ∧
      ∃ Y0 : ℕ → Fin n → F.T, (∀ i, i < c.s → Y0 i = u) ∧
      ∀ j, j < c.itermax.toNat → ¬ (c.small
          (Spec.rho (fun i j => c.la.getD (i * c.s + j) 0 * c.narrow h) c.s c.f u Y0 j) ∧
        Spec.prev (fun i j => c.la.getD (i * c.s + j) 0 * c.narrow h) c.s c.f u Y0 st.tv j ≤
          Spec.rho (fun i j => c.la.getD (i * c.s + j) 0 * c.narrow h) c.s c.f u Y0 j) := by
  obtain ⟨hl, hm, u', st', hs⟩ := ht
  obtain ⟨Y0, h0, h1⟩ := Symp.symp_false hT hS (hl.hist hst) hs
  refine ⟨Nat.lt_ceil.2 hm, hl.tests.1, ?_, Y0, h0 (.inl rfl), h1⟩
  cases hl with
  | start => exact .inl ⟨rfl, rfl⟩
  | next hk hm hs => exact .inr rfl

theorem SympLoopZ.inv (hT : Symp.Tab c) (hS : Symp.Scal c) {junk : Symp.St F.T n} (hst : Symp.construct c junk = some (.ok st0))
    (hl : SympLoopZ c z h more u0 st0 it u st w) : Symp.Inv c st := by
  induction hl with
  | start => exact (Symp.construct_inv hT hS hst).1
  | next hk hm hs ih =>
    obtain ⟨w1, w2, w3, -⟩ := Symp.step_cases hT hS (Symp.inv_e ih) (Symp.stepZ_iff.1 hs)
    exact ⟨w1, w3.symm ▸ w2⟩

/-- the loop is deterministic: after `it` turns there is one state. -/
theorem SympLoopZ.unique (hl : SympLoopZ c z h more u0 st0 it u st w) (hl2 : SympLoopZ c z h more u0 st0 it u2 st2 w2) :
    u2 = u ∧ st2 = st ∧ w2 = w := by
  induction hl generalizing u2 st2 w2 with
  | start => cases hl2; exact ⟨rfl, rfl, rfl⟩
  | next hk hm hs ih =>
    cases hl2 with
    | next hk2 hm2 hs2 =>
      obtain ⟨rfl, rfl, rfl⟩ := ih hk2
      rw [hs] at hs2
      simp only [Option.some.injEq, Prod.mk.injEq, true_and] at hs2
      obtain ⟨rfl, rfl⟩ := hs2
      exact ⟨rfl, rfl, rfl⟩

/-- a loop of `it2` turns passes through the state after `it ≤ it2` turns; if `it < it2` the step there succeeds. -/
theorem SympLoopZ.through (hl : SympLoopZ c z h more u0 st0 it2 u2 st2 w2) (hi : it < it2) :
    ∃ u st w, SympLoopZ c z h more u0 st0 it u st w ∧ more it ∧ ∃ u' st', Symp.stepZ c z h u true st = some (true, u', st') := by
  induction hl with
  | start => exact absurd hi (Nat.not_lt_zero _)
  | next hk hm hs ih =>
    rcases Nat.lt_succ_iff_lt_or_eq.1 hi with hj | rfl
    · exact ih hj
    · exact ⟨_, _, _, hk, hm, _, _, hs⟩

/-- C118 with the planetary problems (usual memory layout): the same. -/
theorem symp_main_outcomeZ (hT : Symp.Tab c) (hS : Symp.Scal c) {junk : Symp.St F.T n}
    (hst : Symp.construct c junk = some (.ok st0)) {years hR : ℝ} :
    (∃! o : ℕ × (Fin n → F.T) × Symp.St F.T n × List (Fin n → F.T),
      SympEndsZ c z h (moreSteps years hR) u0 st0 o.1 o.2.1 o.2.2.1 o.2.2.2 ∨
      SympThrowsZ c z h (moreSteps years hR) u0 st0 o.1 o.2.1 o.2.2.1 o.2.2.2) ∧
    (∀ it u st w, SympLoopZ c z h (moreSteps years hR) u0 st0 it u st w → Symp.stepZ c z h u true st ≠ none) ∧
    ((∃ it u st w, SympEndsZ c z h (moreSteps years hR) u0 st0 it u st w) →
      ∀ it u st w, ¬ SympThrowsZ c z h (moreSteps years hR) u0 st0 it u st w) := by
  have hund : ∀ it u st w, SympLoopZ c z h (moreSteps years hR) u0 st0 it u st w → Symp.stepZ c z h u true st ≠ none := by
    intro it u st w hl hn
    have := (Symp.step_none_iff hT hS (Symp.inv_e (hl.inv hT hS hst)) h u true).1 (Symp.stepZ_none hn)
    exact absurd this.2.1 (by decide)
  -- a stop and a loop going further are incompatible
  have hcl : ∀ {it it2 : ℕ} {u u2 st st2 w w2},
      (SympEndsZ c z h (moreSteps years hR) u0 st0 it u st w ∨ SympThrowsZ c z h (moreSteps years hR) u0 st0 it u st w) →
      SympLoopZ c z h (moreSteps years hR) u0 st0 it2 u2 st2 w2 → it2 ≤ it := by
    intro it it2 u u2 st st2 w w2 ho hl
    by_contra hlt
    obtain ⟨u3, st3, w3, hl3, hm3, u', st', hs3⟩ := hl.through (not_le.1 hlt)
    rcases ho with ⟨_, hn⟩ | ⟨hl1, _, u4, st4, hs4⟩
    · exact hn hm3
    · obtain ⟨rfl, rfl, -⟩ := hl1.unique hl3
      rw [hs3] at hs4
      simp at hs4
  have hloop : ∀ {it : ℕ} {u st w},
      (SympEndsZ c z h (moreSteps years hR) u0 st0 it u st w ∨ SympThrowsZ c z h (moreSteps years hR) u0 st0 it u st w) →
      SympLoopZ c z h (moreSteps years hR) u0 st0 it u st w := fun ho => ho.elim And.left And.left
  refine ⟨?_, hund, ?_⟩
  · -- existence, by the distance to the last turn
    have hex : ∀ k it u st w, ⌈years * 365.25 * hR⌉₊ ≤ it + k → SympLoopZ c z h (moreSteps years hR) u0 st0 it u st w →
        ∃ it u st w, SympEndsZ c z h (moreSteps years hR) u0 st0 it u st w ∨ SympThrowsZ c z h (moreSteps years hR) u0 st0 it u st w := by
      intro k
      induction k with
      | zero => exact fun it u st w hi hl => ⟨it, u, st, w, .inl ⟨hl, not_lt.2 (Nat.ceil_le.1 hi)⟩⟩
      | succ k ih =>
        intro it u st w hi hl
        by_cases hm : moreSteps years hR it
        · rcases hs : Symp.stepZ c z h u true st with _ | ⟨r, u', st'⟩
          · exact absurd hs (hund it u st w hl)
          · cases r with
            | true => exact ih _ _ _ _ (by omega) (.next hl hm hs)
            | false => exact ⟨it, u, st, w, .inr ⟨hl, hm, u', st', hs⟩⟩
        · exact ⟨it, u, st, w, .inl ⟨hl, hm⟩⟩
    obtain ⟨it, u, st, w, ho⟩ := hex ⌈years * 365.25 * hR⌉₊ 0 u0 st0 [] (by omega) .start
    refine ⟨(it, u, st, w), ho, ?_⟩
    rintro ⟨it2, u2, st2, w2⟩ ho2
    obtain rfl : it2 = it := le_antisymm (hcl ho (hloop ho2)) (hcl ho2 (hloop ho))
    obtain ⟨rfl, rfl, rfl⟩ := (hloop ho).unique (hloop ho2)
    rfl
  · rintro ⟨it, u, st, w, he⟩ it2 u2 st2 w2 ht
    obtain rfl : it2 = it := le_antisymm (hcl (.inl he) ht.1) (hcl (.inr ht) he.1)
    exact he.2 ht.2.1

/-- C118: when the exception is thrown in the program with the planetary problems: the same as `symp_main_throws`. -/
theorem symp_main_throwsZ (hT : Symp.Tab c) (hS : Symp.Scal c) {junk : Symp.St F.T n}
    (hst : Symp.construct c junk = some (.ok st0)) {years hR : ℝ}
    (ht : SympThrowsZ c z h (moreSteps years hR) u0 st0 it u st w) :
    it < ⌈years * 365.25 * hR⌉₊ ∧ w.length = it ∧ (w = [] ∧ u = u0 ∨ w.head? = some u) ∧
      ∃ Y0 : ℕ → Fin n → F.T, (∀ i, i < c.s → Y0 i = u) ∧
      ∀ j, j < c.itermax.toNat → ¬ (c.small
          (Spec.rho (fun i j => c.la.getD (i * c.s + j) 0 * c.narrow h) c.s c.f u Y0 j) ∧
        Spec.prev (fun i j => c.la.getD (i * c.s + j) 0 * c.narrow h) c.s c.f u Y0 st.tv j ≤
          Spec.rho (fun i j => c.la.getD (i * c.s + j) 0 * c.narrow h) c.s c.f u Y0 j) := by
  obtain ⟨hl, hm, u', st', hs⟩ := ht
  have hi := Symp.inv_e (hl.inv hT hS hst)
  have key : ∃ u2 st2, Symp.step c h u true { st with e := fun _ => 0 } = some (false, u2, st2) := by
    rcases h1 : Symp.step c h u true { st with e := fun _ => 0 } with _ | ⟨r, u2, st2⟩
    · exact absurd ((Symp.step_none_iff hT hS hi h u true).1 h1).2.1 (by decide)
    · cases r with
      | false => exact ⟨u2, st2, rfl⟩
      | true =>
        have := Symp.stepZ_iff (z := z).2 h1
        rw [hs] at this
        simp at this
  obtain ⟨u2, st2, h2⟩ := key
  obtain ⟨-, -, -, Y0, h0, h1⟩ := Symp.step_cases hT hS hi h2
  refine ⟨Nat.lt_ceil.2 hm, ?_, ?_, Y0, h0 (.inl rfl), ?_⟩
  · clear hs hi h2 h0 h1 hm
    induction hl with
    | start => rfl
    | next hk hm hs ih => simp [ih]
  · cases hl with
    | start => exact .inl ⟨rfl, rfl⟩
    | next hk hm hs => exact .inr rfl
  · rcases h1 with ⟨hf, -⟩ | ⟨-, -, -, -, -, h3⟩
    · cases hf
    · exact h3

/-- the free particle (which reaches "end." with 100 iterations, `Props/Mains.lean`): the exception at the first turn when no
iteration is allowed. -/
example (junk : Symp.St F.T 2) (h : F.T) (u0 : Fin 2 → F.T) :
    ∃ st0, Symp.construct (Symp.cfgFt F Symp.gaussD2 0 Symp.freeF) junk = some (.ok st0) ∧
      SympThrows (Symp.cfgFt F Symp.gaussD2 0 Symp.freeF) h (moreSteps 200 1) u0 st0 0 u0 st0 [] := by
  have hT := Symp.cfgFt_tab (F := F) Symp.gaussD2_mem 0 Symp.freeF
  have hS := Symp.cfgFt_scal (F := F) Symp.gaussD2 0 Symp.freeF
  obtain ⟨st0, hst⟩ := (Symp.symp_construct (c := Symp.cfgFt F Symp.gaussD2 0 Symp.freeF) hT.la.le hT.lb.le hT.lc.le junk).2
    ⟨hT.two, hT.max⟩
  refine ⟨st0, hst, .start, by norm_num [moreSteps], ?_⟩
  rcases hs : Symp.step (Symp.cfgFt F Symp.gaussD2 0 Symp.freeF) h u0 true st0 with _ | ⟨r, u', st'⟩
  · exact absurd ((Symp.symp_defined_iff hT hS (.new hst) h u0 true).1 hs).2.1 (by decide)
  · cases r with
    | false => exact ⟨u', st', rfl⟩
    | true =>
      obtain ⟨-, M, hM, -⟩ := Symp.symp_success_partial hT hS (.new hst) hs
      exact absurd hM (by simp [Symp.cfgFt])

/-- and with what is left in `a`. -/
example (z : Symp.St F.T 2 → Fin 2 → F.T) (junk : Symp.St F.T 2) (h : F.T) (u0 : Fin 2 → F.T) :
    ∃ st0, Symp.construct (Symp.cfgFt F Symp.gaussD2 0 Symp.freeF) junk = some (.ok st0) ∧
      SympThrowsZ (Symp.cfgFt F Symp.gaussD2 0 Symp.freeF) z h (moreSteps 200 1) u0 st0 0 u0 st0 [] := by
  have hT := Symp.cfgFt_tab (F := F) Symp.gaussD2_mem 0 Symp.freeF
  have hS := Symp.cfgFt_scal (F := F) Symp.gaussD2 0 Symp.freeF
  obtain ⟨st0, hst⟩ := (Symp.symp_construct (c := Symp.cfgFt F Symp.gaussD2 0 Symp.freeF) hT.la.le hT.lb.le hT.lc.le junk).2
    ⟨hT.two, hT.max⟩
  refine ⟨st0, hst, .start, by norm_num [moreSteps], ?_⟩
  rcases hs : Symp.stepZ (Symp.cfgFt F Symp.gaussD2 0 Symp.freeF) z h u0 true st0 with _ | ⟨r, u', st'⟩
  · exact absurd hs ((symp_main_outcomeZ (years := 200) (hR := 1) (u0 := u0) hT hS hst).2.1 _ _ _ _ .start)
  · cases r with
    | false => exact ⟨u', st', rfl⟩
    | true =>
      obtain ⟨-, -, -, Y0, -, h1⟩ := Symp.step_cases hT hS (Symp.inv_e (Symp.construct_inv hT hS hst).1) (Symp.stepZ_iff.1 hs)
      rcases h1 with ⟨-, M, hM, -⟩ | ⟨hf, -⟩
      · exact absurd hM (by simp [Symp.cfgFt])
      · cases hf

end

end Odes.Mains
