import Verif.Model.MainsRadau
import Verif.Props.Radau
import Verif.Props.RadauSettings

/-!
# C118: the test program of Radau5
-/

namespace Odes.Mains

open Odes.Radau

section
variable {n : ℕ} {L : Lin X n} {P : Prob X n} {g : Cfg n} {h xend : X} {y0 : Fin n → X} {o s s' : St n L.σ} {k : ℕ}

/-- a run has one end -/
theorem run_end {σ : Type} {f : σ → Res σ} {a : σ} {k k' : ℕ} {r r' : Res σ} (hr : ∀ t, r ≠ .next t) (hr' : ∀ t, r' ≠ .next t)
    (h : run f k a = r) (h' : run f k' a = r') : r = r' := by
  have e1 := run_add k k' (step := f) a
  have e2 := run_add k' k (step := f) a
  rw [h] at e1
  rw [h', Nat.add_comm k' k, e1] at e2
  cases r with
  | next t => exact absurd rfl (hr t)
  | _ => cases r' with
    | next t => exact absurd rfl (hr' t)
    | _ => first | exact e2 | cases e2

theorem returns_unique {σ : Type} {f : σ → Res σ} {a t t' : σ} (h : Returns f a t) (h' : Returns f a t') : t = t' := by
  obtain ⟨k, h⟩ := h
  obtain ⟨k', h'⟩ := h'
  have := run_end (by simp) (by simp) h h'
  injection this

theorem returns_not_throws {σ : Type} {f : σ → Res σ} {a t : σ} {e : Exn} (h : Returns f a t) : ¬ Throws f a e := by
  rintro ⟨k', h'⟩
  obtain ⟨k, h⟩ := h
  cases run_end (by simp) (by simp) h h'

/-- C118: the program is determined by the object and the numbers typed -/
theorem radau_main_unique (hs : RadauLoops P g h xend y0 k o s) (hs' : RadauLoops P g h xend y0 k o s') : s = s' := by
  induction hs generalizing s' with
  | zero => cases hs'; rfl
  | succ hk hc ih =>
    cases hs' with
    | succ hk' hc' =>
      cases ih hk'
      exact returns_unique hc hc'

/-- C118: after an exception no further turn is made -/
theorem radau_main_aborts (ha : RadauAborts P g h xend y0 k o) (j : ℕ) : ¬ RadauLoops P g h xend y0 (k + 1 + j) o s := by
  intro hl
  induction j generalizing s with
  | zero =>
    obtain ⟨t, e, ht, he⟩ := ha
    cases hl with
    | succ hk hc => cases radau_main_unique ht hk; exact returns_not_throws hc he
  | succ j ih =>
    cases hl with
    | succ hk hc => exact ih hk

/-- C118 (part): what is printed after the last turn, and `y`, are those of one call on any object with the value of `faccon` which the
turn before has left. -/
theorem radau_main_loops_partial (hL : Reloads L g.c) (hl : RadauLoops P g h xend y0 (k + 1) o s) :
    ∃ p, RadauLoops P g h xend y0 k o p ∧ ∀ o' : St n L.σ, o'.faccon = p.faccon →
      ∃ s1, Returns (step L P (radauCfg g)) (call o' h (.fin 0) xend y0) s1 ∧ radauPrinted s = radauPrinted s1 ∧ s.Y = s1.Y ∧ s.x = s1.x := by
  cases hl with
  | @succ _ _ p _ hk hc =>
    refine ⟨p, hk, fun o' ho => ?_⟩
    obtain ⟨s1, h1, h2⟩ := (radau_calls_agree_partial (g := radauCfg g) hL h (.fin 0) xend y0 ho).1 _ hc
    refine ⟨s1, h1, ?_, h2.Y.symm, h2.x.symm⟩
    unfold radauPrinted
    rw [h2.nstep, h2.njac, h2.naccpt, h2.nrejct, h2.ndec]

/-- C118 (part): where every turn ends: after 0, not beyond `xend`; at `xend` up to the tolerance of the test, unless the step was
accepted when the Newton iteration had given up (`dnc`, C18). -/
theorem radau_main_time_partial {sf u xe : ℝ} (hg : Std (radauCfg g) sf u) (ho : g.onlyOneStep = false) (hx : 0 < xe)
    (hl : RadauLoops P g h (.fin xe) y0 (k + 1) o s) :
    ∃ r, s.x = .fin r ∧ 0 < r ∧ r ≤ xe ∧ (s.dnc = false → r = xe ∨ 0.1 * (xe - r) ≤ |r| * u) := by
  cases hl with
  | succ hk hc => exact radau_returns_in_interval_partial hg ho hx hc

/-- C118: at most 10001 steps are accepted in the last turn. -/
theorem radau_main_steps (hl : RadauLoops P g h xend y0 (k + 1) o s) : (radauPrinted s).naccpt + s.rejs ≤ 10001 := by
  cases hl with
  | succ hk hc =>
    obtain ⟨t, h1, h2⟩ := hc.last
    obtain ⟨hp, h2⟩ := step_ret h2
    rcases cinv_reach h1 with hI | hI
    · have h3 := hI.outer (show (0 : ℤ) ≤ 10000 by norm_num)
      rw [hp, if_neg (by decide)] at h3
      obtain ⟨-, ⟨-, rfl⟩ | ⟨-, -, rfl⟩⟩ := tail_ret h2
      · show t.naccpt + t.rejs ≤ 10001
        have : (radauCfg g).nmax = 10000 := rfl
        omega
      · show t.naccpt + 1 + t.rejs ≤ 10001
        have : (radauCfg g).nmax = 10000 := rfl
        omega
    · rw [hI] at hp; cases hp

theorem RadauLoops.last (hl : RadauLoops P g h xend y0 (k + 1) o s) :
    ∃ p, RadauLoops P g h xend y0 k o p ∧ Returns (step L P (radauCfg g)) (call p h (.fin 0) xend y0) s := by
  cases hl with
  | succ hk hc => exact ⟨_, hk, hc⟩

end

/-- the settings of the examples are those of the program but for the tolerances -/
theorem wcfg_nmax (b : Bool) : radauCfg (wcfg 7 b) = wcfg 7 b := rfl

/-- C118 is violated: the second of two turns evaluates the right hand side 4 times, the first one 7 times. -/
theorem radau_main_turns_differ (o : St 1 Sc) (hk : o.faccon = .fin 1) : ∃ (P : Prob X 1) (s s' : St 1 Sc),
    RadauLoops (L := scalar) P (wcfg 7 false) (.fin 1) (.fin 1) (fun _ => .fin 0) 1 o s ∧
    RadauLoops (L := scalar) P (wcfg 7 false) (.fin 1) (.fin 1) (fun _ => .fin 0) 2 o s' ∧ s.nfonccalled = 7 ∧ s'.nfonccalled = 4 := by
  obtain ⟨P, t, t', h1, h2, h3, h4⟩ := radau_second_call_differs o hk
  have l0 := RadauLoops.zero (L := scalar) (P := P) (g := wcfg 7 false) (h := .fin 1) (xend := .fin 1) (y0 := fun _ => .fin 0) o
  have l1 := l0.succ h1
  exact ⟨P, t, t', l1, l1.succ h2, h3, h4⟩

/-- C118 is violated: if 0 is typed for the integration time the program does not end, whatever the right hand side (of the time) and
the first step. -/
theorem radau_main_empty (f : X → X) (o : St 1 Sc) (r : ℝ) (y : Fin 1 → X) (k : ℕ) :
    (∀ s, ¬ RadauLoops (L := scalar) (ofTime f) (wcfg 7 false) (.fin r) (.fin 0) y (k + 1) o s) ∧
      ¬ RadauAborts (L := scalar) (ofTime f) (wcfg 7 false) (.fin r) (.fin 0) y k o := by
  have hd : ∀ s : St 1 Sc, Diverges (step scalar (ofTime f) (wcfg 7 false)) (call (L := scalar) s (.fin r) (.fin 0) (.fin 0) y) :=
    fun s => radau_empty_never_ends f s r 0 y
  constructor
  · intro s hl
    obtain ⟨p, -, j, hj⟩ := hl.last
    obtain ⟨t, ht⟩ := hd p j
    rw [wcfg_nmax, ht] at hj
    cases hj
  · rintro ⟨p, e, -, j, hj⟩
    obtain ⟨t, ht⟩ := hd p j
    rw [wcfg_nmax, ht] at hj
    cases hj

/-- two turns which reach their end, as in the hypotheses of the theorems above -/
example : ∃ (P : Prob X 1) (s : St 1 Sc), RadauLoops (L := scalar) P (wcfg 7 false) (.fin 1) (.fin 1) (fun _ => .fin 0) (1 + 1) obj s ∧
    ∃ r, s.x = .fin r ∧ 0 < r ∧ r ≤ 1 := by
  obtain ⟨P, s, s', -, h2, -, -⟩ := radau_main_turns_differ obj rfl
  obtain ⟨r, h3, h4, h5, -⟩ := radau_main_time_partial (g := wcfg 7 false) (wcfg_std 7 false (by decide)) rfl one_pos h2
  exact ⟨P, s', h2, r, h3, h4, h5⟩

end Odes.Mains
