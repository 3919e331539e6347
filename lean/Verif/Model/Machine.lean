import Mathlib.Logic.Basic

/-!
# Transition systems

An unbounded C++ loop is modelled by the function performing one iteration.
-/

namespace Odes

/-- Reasons for an exception (`throw OdesException(...)`). -/
inductive Exn where
  | stepTooSmall
  | nstepTooLarge
  | factorisation
  | badMethod
  | badMode
  | degreeTooLarge
  | other
  deriving DecidableEq, Repr

/-- Kinds of undefined behaviour the models distinguish. -/
inductive Ub where
  | intConversion
  | outOfBounds
  | uninitialised
  | doubleFree
  deriving DecidableEq, Repr

/-- Result of one transition. -/
inductive Res (σ : Type) where
  | next (s : σ)
  | ret (s : σ)
  | throw (e : Exn)
  | ub (u : Ub)

variable {σ : Type}

/-- run at most `k` transitions; `.next s` means: still running, in state `s`. -/
def run (step : σ → Res σ) : Nat → σ → Res σ
  | 0, s => .next s
  | k + 1, s =>
    match step s with
    | .next s' => run step k s'
    | r => r

/-- `t` is reached from `s` by some number of transitions. -/
def Reach (step : σ → Res σ) (s t : σ) : Prop := ∃ k, run step k s = .next t
/-- the run from `s` returns normally in state `t`. -/
def Returns (step : σ → Res σ) (s t : σ) : Prop := ∃ k, run step k s = .ret t
/-- the run from `s` ends by an exception. -/
def Throws (step : σ → Res σ) (s : σ) (e : Exn) : Prop := ∃ k, run step k s = .throw e
/-- the run from `s` meets undefined behaviour. -/
def HasUb (step : σ → Res σ) (s : σ) (u : Ub) : Prop := ∃ k, run step k s = .ub u
/-- the run from `s` comes to an end. -/
def Terminates (step : σ → Res σ) (s : σ) : Prop := ∃ k, ∀ t, run step k s ≠ .next t
/-- the run from `s` goes on for ever. -/
def Diverges (step : σ → Res σ) (s : σ) : Prop := ∀ k, ∃ t, run step k s = .next t

theorem run_succ_next {step : σ → Res σ} {s s' : σ} (h : step s = .next s') (k : Nat) :
    run step (k + 1) s = run step k s' := by simp [run, h]

theorem Reach.refl (step : σ → Res σ) (s : σ) : Reach step s s := ⟨0, rfl⟩

theorem run_add {step : σ → Res σ} : ∀ (j k : Nat) (s : σ),
    run step (j + k) s = match run step j s with
      | .next t => run step k t
      | r => r
  | 0, k, s => by simp [run]
  | j + 1, k, s => by
    have e : j + 1 + k = (j + k) + 1 := by omega
    rw [e]
    simp only [run]
    cases step s with
    | next s' => simpa using run_add j k s'
    | ret _ => rfl
    | throw _ => rfl
    | ub _ => rfl

theorem Reach.tail {step : σ → Res σ} {s t u : σ} (h : Reach step s t)
    (h' : step t = .next u) : Reach step s u := by
  obtain ⟨k, hk⟩ := h
  exact ⟨k + 1, by rw [run_add, hk]; simp [run, h']⟩

theorem Reach.trans {step : σ → Res σ} {s t u : σ} (h : Reach step s t)
    (h' : Reach step t u) : Reach step s u := by
  obtain ⟨k, hk⟩ := h
  obtain ⟨j, hj⟩ := h'
  exact ⟨k + j, by rw [run_add, hk]; simpa using hj⟩

/-- invariants of transitions hold in every reachable state. -/
theorem Reach.inv {step : σ → Res σ} {I : σ → Prop}
    (hI : ∀ s s', I s → step s = .next s' → I s') {s t : σ} (hs : I s)
    (h : Reach step s t) : I t := by
  obtain ⟨k, hk⟩ := h
  induction k generalizing s with
  | zero => simp [run] at hk; exact hk ▸ hs
  | succ k ih =>
    simp only [run] at hk
    cases hst : step s with
    | next s' => rw [hst] at hk; exact ih (hI _ _ hs hst) hk
    | ret _ => rw [hst] at hk; simp at hk
    | throw _ => rw [hst] at hk; simp at hk
    | ub _ => rw [hst] at hk; simp at hk

/-- the last transition of a run that ends. -/
theorem run_end {step : σ → Res σ} {r : Res σ} (hr : ∀ t, r ≠ .next t) :
    ∀ {k : Nat} {s : σ}, run step k s = r → ∃ t, Reach step s t ∧ step t = r
  | 0, s, h => absurd h.symm (hr s)
  | k + 1, s, h => by
    simp only [run] at h
    cases hst : step s with
    | next s' =>
      rw [hst] at h
      obtain ⟨t, ht, e⟩ := run_end hr h
      exact ⟨t, (Reach.tail (Reach.refl _ _) hst).trans ht, e⟩
    | ret x => rw [hst] at h; exact ⟨s, Reach.refl _ _, by rw [hst]; exact h⟩
    | throw x => rw [hst] at h; exact ⟨s, Reach.refl _ _, by rw [hst]; exact h⟩
    | ub x => rw [hst] at h; exact ⟨s, Reach.refl _ _, by rw [hst]; exact h⟩

theorem Returns.last {step : σ → Res σ} {s t : σ} (h : Returns step s t) :
    ∃ u, Reach step s u ∧ step u = .ret t := by
  obtain ⟨k, hk⟩ := h
  exact run_end (by simp) hk

theorem Throws.last {step : σ → Res σ} {s : σ} {e : Exn} (h : Throws step s e) :
    ∃ u, Reach step s u ∧ step u = .throw e := by
  obtain ⟨k, hk⟩ := h
  exact run_end (by simp) hk

theorem HasUb.last {step : σ → Res σ} {s : σ} {e : Ub} (h : HasUb step s e) :
    ∃ u, Reach step s u ∧ step u = .ub e := by
  obtain ⟨k, hk⟩ := h
  exact run_end (by simp) hk

theorem Reach.returns {step : σ → Res σ} {s t u : σ} (h : Reach step s t)
    (h' : step t = .ret u) : Returns step s u := by
  obtain ⟨k, hk⟩ := h
  exact ⟨k + 1, by rw [run_add, hk]; simp [run, h']⟩

/-- a run which never returns, throws or meets UB from an invariant set diverges. -/
theorem diverges_of_inv {step : σ → Res σ} {I : σ → Prop}
    (hI : ∀ s, I s → ∃ s', step s = .next s' ∧ I s') {s : σ} (hs : I s) :
    Diverges step s := by
  intro k
  induction k generalizing s with
  | zero => exact ⟨s, rfl⟩
  | succ k ih =>
    obtain ⟨s', h, hI'⟩ := hI s hs
    obtain ⟨t, ht⟩ := ih hI'
    exact ⟨t, by rw [run_succ_next h]; exact ht⟩

/-- a well-founded measure proves termination. -/
theorem terminates_of_measure {step : σ → Res σ} {I : σ → Prop} {α : Type}
    {r : α → α → Prop} (wf : WellFounded r) (m : σ → α)
    (hI : ∀ s s', I s → step s = .next s' → I s' ∧ r (m s') (m s)) {s : σ} (hs : I s) :
    Terminates step s := by
  have : ∀ a, ∀ s, m s = a → I s → Terminates step s := by
    intro a
    induction a using wf.induction with
    | _ a ih =>
      intro s hm hs
      cases hst : step s with
      | next s' =>
        obtain ⟨hs', hr⟩ := hI s s' hs hst
        obtain ⟨k, hk⟩ := ih (m s') (hm ▸ hr) s' rfl hs'
        exact ⟨k + 1, fun t => by rw [run_succ_next hst]; exact hk t⟩
      | ret x => exact ⟨1, fun t => by simp [run, hst]⟩
      | throw x => exact ⟨1, fun t => by simp [run, hst]⟩
      | ub x => exact ⟨1, fun t => by simp [run, hst]⟩
  exact this _ s rfl hs

theorem Diverges.not_terminates {step : σ → Res σ} {s : σ} (h : Diverges step s) :
    ¬ Terminates step s := by
  rintro ⟨k, hk⟩
  obtain ⟨t, ht⟩ := h k
  exact hk t ht

theorem Returns.terminates {step : σ → Res σ} {s t : σ} (h : Returns step s t) :
    Terminates step s := by
  obtain ⟨k, hk⟩ := h
  exact ⟨k, fun u => by rw [hk]; simp⟩

end Odes
