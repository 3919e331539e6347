import Verif.Lemmas.RadauControl

/-! C78: in a run, the starting values of the Newton iteration are extrapolated from the data of the last
accepted step. -/

namespace Odes.Radau

variable {n : ℕ} {L : Lin X n} {P : Prob X n} {g : Cfg n}

/-- what the extrapolation uses. -/
structure Same (s t : St n L.σ) : Prop where
  hold : t.hold = s.hold
  save : t.save = s.save
  acc : t.naccpt = s.naccpt

theorem Same.rfl' (s : St n L.σ) : Same s s := ⟨rfl, rfl, rfl⟩

theorem same_newJac (s : St n L.σ) : Same s (newJac L P g s) := ⟨rfl, rfl, rfl⟩

theorem same_newtonTest (s : St n L.σ) (Z : Tri X n) : Same s (newtonTest g s Z).2 := by
  unfold newtonTest
  simp only
  split_ifs <;> exact ⟨rfl, rfl, rfl⟩

theorem same_newtonStep (s : St n L.σ) : Same s (newtonStep L P g s).2 := by
  have h := same_newtonTest (g := g) { s with
    nfonccalled := s.nfonccalled + 3, calls := s.calls + 3, newt := s.newt + 1 }
    (increment L P g.c s.x s.xph s.h s.Y s.jac s.Z s.FF)
  unfold newtonStep
  simp only
  split_ifs <;> exact ⟨h.1, h.2, h.3⟩

theorem same_after {r : Reason} {s t : St n L.σ} (h : afterNewton L P g r s = .next t) : Same s t := by
  cases r with
  | converged => rw [afterNewton_converged h]; exact ⟨rfl, rfl, rfl⟩
  | didNotConverge =>
    obtain ⟨u, j, hu, rfl⟩ := afterNewton_dnc h
    rcases hu with rfl | ⟨-, rfl⟩ <;> exact ⟨rfl, rfl, rfl⟩
  | willNotConverge =>
    obtain ⟨u, j, hu, rfl⟩ := afterNewton_wnc h
    rcases hu with rfl | ⟨-, rfl⟩ <;> exact ⟨rfl, rfl, rfl⟩

theorem same_jacIfSlow (s : St n L.σ) : Same s (jacIfSlow L P g s) := by
  unfold jacIfSlow
  split_ifs <;> exact ⟨rfl, rfl, rfl⟩

theorem same_next {s t : St n L.σ} {hnew : X} (h : nextStep L P g s hnew = .next t) : Same s t := by
  unfold nextStep at h
  simp only at h
  split_ifs at h
  · obtain ⟨j, -, h⟩ := withMatrices_next.mp h
    injection h with h
    rw [← h]
    have := same_jacIfSlow (L := L) (P := P) (g := g) { s with
      y0 := P.F s.x s.Y, nfonccalled := s.nfonccalled + 1, calls := s.calls + 1, hopt := X.MIN s.h (limited s hnew)
      reject := false, phase := .check, h := s.xend - s.x, last := true }
    exact ⟨this.1, this.2, this.3⟩
  · injection h with h
    rw [← h]; exact ⟨rfl, rfl, rfl⟩
  · obtain ⟨j, -, h⟩ := withMatrices_next.mp h
    injection h with h
    rw [← h]
    have := same_jacIfSlow (L := L) (P := P) (g := g) { s with
      y0 := P.F s.x s.Y, nfonccalled := s.nfonccalled + 1, calls := s.calls + 1, hopt := X.MIN s.h (limited s hnew)
      reject := false, phase := .check }
    exact ⟨this.1, this.2, this.3⟩

/-- C78, partial: the data of the extrapolation.  At every acceptance `hold` becomes the size of the accepted
step and the polynomial is computed from its stages; otherwise they do not change during a call; and an attempt
which does not start from zero starts from their extrapolation, with the current step size. -/
theorem radau_start_data_partial {s t : St n L.σ} (hp : s.phase ≠ .init) (h : step L P g s = .next t) :
    ((t.naccpt = s.naccpt ∧ t.hold = s.hold ∧ t.save = s.save) ∨
      (s.phase = .tail ∧ t.naccpt = s.naccpt + 1 ∧ t.hold = s.h ∧ t.save = saves g.c s.Z)) ∧
    (s.phase = .attempt → (s.startn || s.first) = false → t.Z = extrapolate g.c s.h s.hold s.save ∧
      t.FF = forth g.c t.Z) := by
  match hph : s.phase with
  | .init => exact absurd hph hp
  | .check =>
    unfold step at h
    simp only [hph] at h
    split_ifs at h
    injection h with h
    rw [← h]
    exact ⟨Or.inl ⟨rfl, rfl, rfl⟩, fun h => absurd h (by simp)⟩
  | .attempt =>
    rw [step_attempt hph] at h
    injection h with h
    rw [← h]
    refine ⟨Or.inl ⟨rfl, rfl, rfl⟩, fun _ hs => ?_⟩
    unfold attempt
    simp only [hs, Bool.false_eq_true, if_false, and_self]
  | .newton =>
    rw [step_newton hph] at h
    refine ⟨Or.inl ?_, fun h => absurd h (by simp)⟩
    have h1 := same_newtonStep (L := L) (P := P) (g := g) s
    unfold newton at h
    simp only at h
    cases hr : (newtonStep L P g s).1 with
    | none =>
      rw [hr] at h
      injection h with h
      rw [← h]; exact ⟨h1.3, h1.1, h1.2⟩
    | some r =>
      rw [hr] at h
      have h2 := same_after h
      exact ⟨h2.3.trans h1.3, h2.1.trans h1.1, h2.2.trans h1.2⟩
  | .tail =>
    rw [step_tail hph, tail_eq] at h
    refine ⟨?_, fun h => absurd h (by simp)⟩
    split_ifs at h
    · have h2 := same_next h
      exact Or.inr ⟨rfl, h2.3, h2.1, h2.2⟩
    · left
      unfold rejected at h
      obtain ⟨j, -, h⟩ := withMatrices_next.mp h
      injection h with h
      rw [← h]
      rcases refreshJac_cases (P := P) (g := g) (L := L)
        { counted L P g s with
          reject := true, last := false
          h := if (counted L P g s).first then (counted L P g s).h * 0.1
            else (counted L P g s).h / quotOf g (counted L P g s) (errNow L P g s)
          nrejct := if (counted L P g s).naccpt ≠ 0 then (counted L P g s).nrejct + 1 else (counted L P g s).nrejct
          rejs := (counted L P g s).rejs + 1, phase := .check } with ⟨-, e⟩ | ⟨-, e⟩ <;>
      · rw [e]; exact ⟨rfl, rfl, rfl⟩

/-- the hypotheses are met by every attempt after the first accepted step, and the starting values are then not
trivial. -/
example (s : St n L.σ) (hp : s.phase = .attempt) (hs : s.startn = false) (hf : s.first = false) :
    ∃ t, step L P g s = .next t ∧ t.Z = extrapolate g.c s.h s.hold s.save := by
  refine ⟨_, step_attempt hp, ?_⟩
  exact ((radau_start_data_partial (P := P) (by rw [hp]; simp) (step_attempt hp)).2 hp (by rw [hs, hf]; rfl)).1

end Odes.Radau
