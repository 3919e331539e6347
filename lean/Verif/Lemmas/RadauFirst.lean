import Verif.Lemmas.RadauCount

/-! The recorded first accepted step of Radau5: for every input. -/

namespace Odes.Radau

open Classical

variable {n : ℕ} {L : Lin X n} {P : Prob X n} {g : Cfg n}

/-- the step made with the size `w` is recorded with the size `f` after a Newton loop which ended with
`r`. -/
def Recorded (r : Reason) (w f : X) : Prop :=
  (r = .converged ∧ f = w) ∨ (r = .didNotConverge ∧ f = w * 0.5)

/-- first accepted step, after the entry of `operator()`. -/
structure Fst (x0 : X) (s : St n L.σ) : Prop where
  phase : s.phase ≠ .init
  nn : 0 ≤ s.naccpt
  zero : s.naccpt = 0 → s.taken = [] ∧ s.used = [] ∧ s.x = x0
  newt : s.phase = .newton → s.xph = s.x + s.hnewt ∧ s.h = s.hnewt
  tail : s.phase = .tail → s.xph = s.x + s.hnewt ∧ Recorded s.reason s.hnewt s.h
  one : s.naccpt ≠ 0 → ∃ w r, s.taken.getLast? = some (x0 + w - x0) ∧ s.used.getLast? = some r ∧
    Recorded r w s.firstAcceptedStep

theorem Fst.congr {x0 : X} {s t : St n L.σ} (hs : Fst x0 s) (hi : t.phase ≠ .init)
    (h3 : t.naccpt = s.naccpt) (h2 : t.taken = s.taken) (h4 : t.used = s.used) (h5 : t.x = s.x)
    (h6 : t.firstAcceptedStep = s.firstAcceptedStep)
    (h7 : t.phase = .newton → t.xph = t.x + t.hnewt ∧ t.h = t.hnewt)
    (h8 : t.phase = .tail → t.xph = t.x + t.hnewt ∧ Recorded t.reason t.hnewt t.h) : Fst x0 t := by
  obtain ⟨a1, a2, a3, a4, a5, a6⟩ := hs
  refine ⟨hi, by rwa [h3], ?_, h7, h8, ?_⟩
  · rw [h2, h3, h4, h5]; exact a3
  · rw [h2, h3, h4, h6]; exact a6

/-- a step accepted from a state at the end of the `do` loop. -/
theorem Fst.acc {x0 : X} {s : St n L.σ} (hs : Fst x0 s) (hp : s.phase = .tail) :
    ∃ w r, ((s.xph - s.x) :: s.taken).getLast? = some (x0 + w - x0) ∧
      (s.reason :: s.used).getLast? = some r ∧
      Recorded r w (if s.naccpt = 0 then s.h else s.firstAcceptedStep) := by
  obtain ⟨b1, b2⟩ := hs.tail hp
  by_cases h0 : s.naccpt = 0
  · obtain ⟨c1, c2, c3⟩ := hs.zero h0
    rw [if_pos h0, c1, c2, b1, c3]
    exact ⟨_, _, rfl, rfl, b2⟩
  · obtain ⟨w, r, c1, c2, c3⟩ := hs.one h0
    rw [if_neg h0]
    refine ⟨w, r, ?_, ?_, c3⟩
    · rw [List.getLast?_cons, c1]; rfl
    · rw [List.getLast?_cons, c2]; rfl

theorem fst_init {s t : St n L.σ} (h : init L P g s = .next t) : Fst s.x t := by
  obtain ⟨j, rfl⟩ := init_next h
  refine ⟨(by intro h; cases h), le_rfl, fun _ => ⟨rfl, rfl, rfl⟩, (by intro h; cases h),
    (by intro h; cases h), fun h => absurd rfl h⟩

theorem fst_step {x0 : X} {s t : St n L.σ} (hs : Fst x0 s ∨ (s.phase = .init ∧ s.x = x0))
    (h : step L P g s = .next t) : Fst x0 t := by
  rcases hs with hs | ⟨hs, e⟩
  swap
  · rw [step_init hs] at h; rw [← e]; exact fst_init h
  have hs' := hs
  obtain ⟨a1, a2, a3, a4, a5, a6⟩ := hs
  cases hp : s.phase with
  | init => exact absurd hp a1
  | check =>
    rw [step_check hp] at h
    split at h
    · injection h
    · injection h with h
      rw [← h]
      exact hs'.congr (by intro h; cases h) rfl rfl rfl rfl rfl (by intro h; cases h)
        (by intro h; cases h)
  | attempt =>
    rw [step_attempt hp] at h
    injection h with h
    rw [← h]
    exact hs'.congr (by intro h; cases h) rfl rfl rfl rfl rfl (fun _ => ⟨rfl, rfl⟩)
      (by intro h; cases h)
  | newton =>
    rw [step_newton hp] at h
    obtain ⟨b1, b2⟩ := a4 hp
    rcases newtonStep_cases (L := L) (P := P) (g := g) s with
      ⟨r, fc, th, tq, e, hr, -⟩ | ⟨n1, n2, fc, th, tq, h', e, hh'⟩
    · rcases hr with ⟨rfl, hnit⟩ | ⟨hnit, rfl, hconv⟩ | ⟨hnit, rfl, -⟩
      · rw [newton_some e] at h
        obtain ⟨v, j, hv, rfl⟩ := afterNewton_dnc h
        have base : Fst x0 { pass L P g s fc th tq with
            h := s.h * 0.5, dnc := true, reason := .didNotConverge, scal := doScal g s.Y, newt := 0
            phase := if s.redonewton then .attempt else .tail } := by
          refine hs'.congr ?_ rfl rfl rfl rfl rfl ?_ ?_
          · cases s.redonewton <;> (intro h; cases h)
          · intro h
            have h' : (if s.redonewton then Phase.attempt else .tail) = .newton := h
            split at h' <;> cases h'
          · intro _
            refine ⟨b1, Or.inr ⟨rfl, ?_⟩⟩
            show s.h * 0.5 = s.hnewt * 0.5
            rw [b2]
        rcases hv with rfl | ⟨-, rfl⟩
        · exact base.congr base.phase rfl rfl rfl rfl rfl base.newt base.tail
        · exact base.congr base.phase rfl rfl rfl rfl rfl base.newt base.tail
      · rw [newton_some e] at h
        rw [afterNewton_converged h]
        exact hs'.congr (by intro h; cases h) rfl rfl rfl rfl rfl (by intro h; cases h)
          (fun _ => ⟨b1, Or.inl ⟨rfl, b2⟩⟩)
      · rw [newton_none e] at h
        injection h with h
        rw [← h]
        refine hs'.congr a1 rfl rfl rfl rfl rfl (fun _ => ⟨b1, b2⟩) fun h => ?_
        have h' : s.phase = .tail := h
        rw [hp] at h'; cases h'
    · rw [newton_some e] at h
      obtain ⟨v, j, hv, rfl⟩ := afterNewton_wnc h
      rcases hv with rfl | ⟨-, rfl⟩
      · exact hs'.congr (by intro h; cases h) rfl rfl rfl rfl rfl (by intro h; cases h)
          (by intro h; cases h)
      · exact hs'.congr (by intro h; cases h) rfl rfl rfl rfl rfl (by intro h; cases h)
          (by intro h; cases h)
  | tail =>
    rw [step_tail hp] at h
    rcases tail_next h with ⟨he, ho, hE, h⟩ | ⟨he, h⟩
    · have base : Fst x0 (evaluated P (acc L P g s) (hnewNow L P g s)) := by
        refine ⟨(by intro h; cases h), ?_, ?_, (by intro h; cases h), (by intro h; cases h),
          fun _ => hs'.acc hp⟩
        · show 0 ≤ s.naccpt + 1; omega
        · intro h
          have h' : s.naccpt + 1 = 0 := h
          omega
      have key : ∀ {t : St n L.σ}, t.phase = .check →
          t.naccpt = (evaluated P (acc L P g s) (hnewNow L P g s)).naccpt →
          t.taken = (evaluated P (acc L P g s) (hnewNow L P g s)).taken →
          t.used = (evaluated P (acc L P g s) (hnewNow L P g s)).used →
          t.x = (evaluated P (acc L P g s) (hnewNow L P g s)).x →
          t.firstAcceptedStep = (evaluated P (acc L P g s) (hnewNow L P g s)).firstAcceptedStep →
          Fst x0 t := fun h0 h1 h2 h3 h4 h5 =>
        base.congr (by rw [h0]; intro h; cases h) h1 h2 h3 h4 h5 (by rw [h0]; intro h; cases h)
          (by rw [h0]; intro h; cases h)
      rcases nextStep_next h with ⟨h1, y, j, hy, rfl⟩ | ⟨h1, h2, h3, h4, rfl⟩ | ⟨h1, y, j, hy, rfl⟩
      · rcases hy with rfl | ⟨-, rfl⟩
        · exact key rfl rfl rfl rfl rfl rfl
        · exact key rfl rfl rfl rfl rfl rfl
      · exact base
      · rcases hy with rfl | ⟨-, rfl⟩
        · exact key rfl rfl rfl rfl rfl rfl
        · exact key rfl rfl rfl rfl rfl rfl
    · obtain ⟨y, j, hy, rfl⟩ := rejected_next h
      rcases hy with rfl | ⟨-, rfl⟩
      · exact hs'.congr (by intro h; cases h) rfl rfl rfl rfl rfl (by intro h; cases h)
          (by intro h; cases h)
      · exact hs'.congr (by intro h; cases h) rfl rfl rfl rfl rfl (by intro h; cases h)
          (by intro h; cases h)

theorem fst_reach {o s : St n L.σ} {h x xe : X} {y : Fin n → X}
    (hr : Reach (step L P g) (call o h x xe y) s) :
    Fst x s ∨ (s.phase = .init ∧ s.x = x) :=
  Reach.inv (I := fun s => Fst x s ∨ (s.phase = .init ∧ s.x = x))
    (fun _ _ hI hst => Or.inl (fst_step hI hst)) (Or.inr ⟨rfl, rfl⟩) hr

end Odes.Radau
