import Verif.Lemmas.RadauCount
import Verif.Lemmas.RadauLoop

/-! # Radau5: the step size after an attempt, `hopt`, evaluations, backward integration -/

namespace Odes.Radau

open Classical

variable {n : ℕ} {L : Lin X n} {P : Prob X n} {g : Cfg n} {sf u : ℝ}

/-! ### the next step size -/

/-- the step size after the error test, forward. -/
theorem tail_h (hg : Std g sf u) {x0 xe : ℝ} {s t : St n L.σ} (hs : Run g sf x0 xe s)
    (hp : s.phase = .tail) (h : tail L P g s = .next t) {hh : ℝ} (eh : s.h = .fin hh) :
    ∃ k, t.h = .fin k ∧ 0 < k ∧
      ((errNow L P g s < 1.0 ∧ k ≤ 8 * hh ∧ (s.reject = true → k ≤ hh) ∧
          (hh / 5 ≤ k ∨ (t.last = true ∧ ∃ x, t.x = .fin x ∧ x + k = xe))) ∨
       (¬ errNow L P g s < 1.0 ∧ k < hh ∧ (s.first = true → k = hh / 10) ∧
          (s.first = false → hh / 5 ≤ k))) := by
  have hs' := hs
  obtain ⟨a1, a2, a3, a4, a5, a6, a7, a8, a9, a10, a11, a12, l, hh', b1, b2, b3, b4, b5, b6, b7, b8,
    b9, b10, b11⟩ := hs
  obtain ⟨w, c1, c2, c3, c4, c5, c6, c7⟩ := b11 (Or.inr hp)
  have hx : x0 < xe := by linarith [sum_nonneg b2]
  obtain rfl : hh = hh' := by rw [eh] at b6; injection b6
  have hle : hh ≤ xe - x0 := by linarith [sum_nonneg b2]
  rcases tail_next h with ⟨he, ho, hE, h⟩ | ⟨he, h⟩
  · obtain ⟨v, ev, v1, v2⟩ := hnewNow_range hg hs' hp b6 b7 he
    have hv : 0 < v := by linarith
    have hl : s.last = false := by
      by_contra hl
      exact hE (Or.inl (by simpa using hl))
    obtain ⟨-, epr⟩ := proposed_range (s := acc L P g s) hx a2 a3 (hh := hh) b6 b7 hv
    have hlt := c5 hl
    rw [ev] at h
    generalize hq : proposed (acc L P g s) (.fin v) = q at h epr
    have hq' : proposed (acc L P g s) (X.fin v) = q := hq
    obtain ⟨p, hp1, hp2, hp3, hp4, hp5⟩ : ∃ p, q = .fin p ∧ 0 < p ∧ hh / 5 ≤ p ∧ p ≤ 8 * hh ∧
        (s.reject = true → p ≤ hh) := by
      have hp' : (0 : ℝ) < xe - x0 := by linarith
      have hrj : (acc L P g s).reject = s.reject := rfl
      rw [hrj] at epr
      refine ⟨_, epr, ?_, ?_, ?_, ?_⟩
      · split
        · exact lt_min (lt_min hv hp') b7
        · exact lt_min hv hp'
      · split
        · exact le_min (le_min v1 (by linarith)) (by linarith)
        · exact le_min v1 (by linarith)
      · split
        · exact (min_le_left _ _).trans ((min_le_left _ _).trans v2)
        · exact (min_le_left _ _).trans v2
      · intro hr; rw [if_pos hr]; exact min_le_right _ _
    have etest : (0.0 ≤ ((acc L P g s).x + q / g.quot1 - (acc L P g s).xend) * (acc L P g s).posneg)
        ↔ xe ≤ x0 + l.sum + w + p := by
      have e0 : (0.0 : X) = .fin 0 := (X.ofSci_eq _ _ _).trans (by norm_num)
      have a4' : (acc L P g s).xend = .fin xe := a4
      have a2' : (acc L P g s).posneg = .fin 1 := a2
      have hax : (acc L P g s).x = .fin (x0 + l.sum + w) := c2
      rw [hax, hp1, hg.quot1, X.fin_div _ _ one_ne_zero, X.fin_add, a4', a2', X.fin_sub,
        X.fin_mul, e0, X.fin_le, div_one, mul_one]
      constructor <;> intro h <;> linarith
    rcases nextStep_next h with ⟨h1, y, j, hy, rfl⟩ | ⟨h1, h2, h3, h4, rfl⟩ | ⟨h1, y, j, hy, rfl⟩
    · rw [hq', etest] at h1
      have key : (acc L P g s).xend - (acc L P g s).x = .fin (xe - (x0 + l.sum + w)) := by
        show s.xend - s.xph = _
        rw [a4, c2, X.fin_sub]
      refine ⟨xe - (x0 + l.sum + w), ?_, by linarith, Or.inl ⟨he, by linarith, fun hr => ?_,
        Or.inr ⟨?_, x0 + l.sum + w, ?_, by ring⟩⟩⟩
      · rcases hy with rfl | ⟨-, rfl⟩ <;> exact key
      · linarith [hp5 hr]
      · rcases hy with rfl | ⟨-, rfl⟩ <;> rfl
      · rcases hy with rfl | ⟨-, rfl⟩ <;> exact c2
    · exact ⟨hh, b6, b7, Or.inl ⟨he, by linarith, fun _ => le_rfl, Or.inl (by linarith)⟩⟩
    · exact ⟨p, hq'.trans hp1, hp2, Or.inl ⟨he, hp4, hp5, Or.inl hp3⟩⟩
  · obtain ⟨y, j, hy, rfl⟩ := rejected_next h
    obtain ⟨q, eq, q1, q2, q3⟩ := quotOf_range (s := counted L P g s) hg a5 a6 a7
      (a8 (Or.inr hp)) (errNow_values (L := L) (P := P) (g := g) s)
    obtain ⟨k, ek, k1, k2, k3, k4⟩ : ∃ k, (rejectState g (counted L P g s) (errNow L P g s)).h = .fin k ∧
        0 < k ∧ k < hh ∧ (s.first = true → k = hh / 10) ∧ (s.first = false → hh / 5 ≤ k) := by
      have q3 := q3 he
      show ∃ k, (if s.first then s.h * 0.1 else s.h / quotOf g (counted L P g s) (errNow L P g s))
        = .fin k ∧ _
      by_cases hf : s.first = true
      · have e1 : (0.1 : X) = .fin 0.1 := X.ofSci_eq _ _ _
        rw [if_pos hf, b6, e1, X.fin_mul]
        exact ⟨_, rfl, mul_pos b7 (by norm_num), by linarith, fun _ => by norm_num; ring,
          fun h => by rw [hf] at h; cases h⟩
      · rw [if_neg hf, eq, b6, X.fin_div _ _ (by linarith)]
        refine ⟨_, rfl, div_pos b7 (by linarith), ?_, fun h => absurd h hf, fun _ => ?_⟩
        · rw [div_lt_iff₀ (by linarith)]
          nlinarith
        · exact div_le_div_of_nonneg_left b7.le (by linarith) q2
    refine ⟨k, ?_, k1, Or.inr ⟨he, k2, k3, k4⟩⟩
    rcases hy with rfl | ⟨-, rfl⟩ <;> exact ek

/-- the step size after a failed Newton iteration. -/
theorem newton_h (hg : Std g sf u) {x0 xe : ℝ} {s t : St n L.σ} (hs : Run g sf x0 xe s)
    (hp : s.phase = .newton) (h : newton L P g s = .next t) {hh : ℝ} (eh : s.h = .fin hh) :
    ∃ k, t.h = .fin k ∧ (k = hh ∨ k = hh / 2 ∨
      (0.8 * (20 : ℝ) ^ (-(1 / 4) : ℝ) * hh ≤ k ∧ k ≤ 0.8 * hh)) := by
  have hn1 := hs.newt2 hp
  obtain ⟨l, hh', b1, b2, b3, b4, b5, b6, b7, -⟩ := hs.pos
  obtain rfl : hh = hh' := by rw [eh] at b6; injection b6
  rcases newtonStep_cases (L := L) (P := P) (g := g) s with
    ⟨r, fc, th, tq, e, hr, -⟩ | ⟨n1, n2, fc, th, tq, h', e, hh'⟩
  · rcases hr with ⟨rfl, hnit⟩ | ⟨hnit, rfl, -⟩ | ⟨hnit, rfl, -⟩
    · rw [newton_some e] at h
      obtain ⟨v, j, hv, rfl⟩ := afterNewton_dnc h
      have eh : s.h * 0.5 = .fin (hh / 2) := by
        have e5 : (0.5 : X) = .fin (1 / 2) := (X.ofSci_eq _ _ _).trans (by norm_num)
        rw [b6, e5, X.fin_mul]; congr 1; ring
      refine ⟨hh / 2, ?_, Or.inr (Or.inl rfl)⟩
      rcases hv with rfl | ⟨-, rfl⟩ <;> exact eh
    · rw [newton_some e] at h
      rw [afterNewton_converged h]
      exact ⟨hh, b6, Or.inl rfl⟩
    · rw [newton_none e] at h
      injection h with h
      rw [← h]
      exact ⟨hh, b6, Or.inl rfl⟩
  · rw [newton_some e] at h
    obtain ⟨v, j, hv, rfl⟩ := afterNewton_wnc h
    obtain ⟨k, ek, hk⟩ : ∃ k, h' = .fin k ∧ (k = hh / 2 ∨
        (0.8 * (20 : ℝ) ^ (-(1 / 4) : ℝ) * hh ≤ k ∧ k ≤ 0.8 * hh)) := by
      rcases hh' with ⟨hd, rfl⟩ | rfl
      · obtain ⟨f, ef, f1, f2⟩ := hhfac_range n2 hd
        exact ⟨hh * f, by rw [b6, ef, X.fin_mul], Or.inr ⟨by nlinarith, by nlinarith⟩⟩
      · have e2 : (2.0 : X) = .fin 2 := (X.ofSci_eq _ _ _).trans (by norm_num)
        exact ⟨hh / 2, by rw [b6, e2, X.fin_div _ _ (by norm_num)], Or.inl rfl⟩
    refine ⟨k, ?_, Or.inr hk⟩
    rcases hv with rfl | ⟨-, rfl⟩ <;> exact ek

/-! ### `hopt` -/

/-- `hopt` has been computed during this call unless the first step goes to the end at once. -/
def Opt (x0 xe : ℝ) (s : St n L.σ) : Prop :=
  (∃ v, s.hopt = .fin v ∧ 0 < v ∧ v ≤ xe - x0) ∨ s.naccpt = 0

theorem opt_step (hg : Std g sf u) {x0 xe : ℝ} (hx : x0 < xe) {s t : St n L.σ}
    (hs : Run g sf x0 xe s) (ho : Opt x0 xe s) (h : step L P g s = .next t) : Opt x0 xe t := by
  cases hp : s.phase with
  | init => exact absurd hp hs.phase
  | check =>
    rw [step_check hp] at h
    split at h
    · injection h
    · injection h with h
      rw [← h]; exact ho
  | attempt =>
    rw [step_attempt hp] at h
    injection h with h
    rw [← h]; exact ho
  | newton =>
    rw [step_newton hp] at h
    rcases newtonStep_cases (L := L) (P := P) (g := g) s with
      ⟨r, fc, th, tq, e, hr, -⟩ | ⟨n1, n2, fc, th, tq, h', e, hh'⟩
    · rcases hr with ⟨rfl, hnit⟩ | ⟨hnit, rfl, -⟩ | ⟨hnit, rfl, -⟩
      · rw [newton_some e] at h
        obtain ⟨v, j, hv, rfl⟩ := afterNewton_dnc h
        rcases hv with rfl | ⟨-, rfl⟩ <;> exact ho
      · rw [newton_some e] at h
        rw [afterNewton_converged h]
        exact ho
      · rw [newton_none e] at h
        injection h with h
        rw [← h]
        exact ho
    · rw [newton_some e] at h
      obtain ⟨v, j, hv, rfl⟩ := afterNewton_wnc h
      rcases hv with rfl | ⟨-, rfl⟩ <;> exact ho
  | tail =>
    rw [step_tail hp] at h
    have hs' := hs
    obtain ⟨a1, a2, a3, a4, a5, a6, a7, a8, a9, a10, a11, a12, l, hh, b1, b2, b3, b4, b5, b6, b7, b8,
      b9, b10, b11⟩ := hs
    rcases tail_next h with ⟨he, hone, hE, h⟩ | ⟨he, h⟩
    · obtain ⟨v, ev, v1, v2⟩ := hnewNow_range hg hs' hp b6 b7 he
      have hv : 0 < v := by linarith
      obtain ⟨el, -⟩ := proposed_range (s := acc L P g s) hx a2 a3 (hh := hh) b6 b7 hv
      have key : Opt x0 xe (evaluated P (acc L P g s) (hnewNow L P g s)) := by
        left
        refine ⟨min hh (min v (xe - x0)), ?_, lt_min b7 (lt_min hv (by linarith)),
          (min_le_right _ _).trans (min_le_right _ _)⟩
        show X.MIN s.h (limited (acc L P g s) (hnewNow L P g s)) = _
        rw [ev, el, b6, X.MIN_fin]
      rcases nextStep_next h with ⟨h1, y, j, hy, rfl⟩ | ⟨h1, h2, h3, h4, rfl⟩ | ⟨h1, y, j, hy, rfl⟩
      · rcases hy with rfl | ⟨-, rfl⟩ <;> exact key
      · exact key
      · rcases hy with rfl | ⟨-, rfl⟩ <;> exact key
    · obtain ⟨y, j, hy, rfl⟩ := rejected_next h
      rcases hy with rfl | ⟨-, rfl⟩ <;> exact ho

theorem opt_reach (hg : Std g sf u) {x0 xe : ℝ} (hx : x0 < xe) {o s : St n L.σ} {h : X}
    {y : Fin n → X} (hr : Reach (step L P g) (call o h (.fin x0) (.fin xe) y) s) :
    AtInit x0 xe s ∨ (Run g sf x0 xe s ∧ Opt x0 xe s) := by
  refine Reach.inv (I := fun s => AtInit x0 xe s ∨ (Run g sf x0 xe s ∧ Opt x0 xe s)) ?_
    (Or.inl (atInit_call o h x0 xe y)) hr
  rintro s t (hs | ⟨hs, ho⟩) hst
  · refine Or.inr ⟨fwd_step hg hx (Or.inl hs) hst, Or.inr ?_⟩
    rw [step_init hs.phase] at hst
    obtain ⟨j, rfl⟩ := init_next hst
    rfl
  · exact Or.inr ⟨fwd_step hg hx (Or.inr hs) hst, opt_step hg hx hs ho hst⟩

/-! ### evaluations -/

/-- the counter is exact as long as `estrad` makes no second evaluation. -/
theorem calls_step {s t : St n L.σ} (hs : s.nfonccalled = s.calls)
    (he : s.phase = .tail → (estrad L P g s).2 = 0) (hi : s.phase ≠ .init)
    (h : step L P g s = .next t) : t.nfonccalled = t.calls := by
  have hj : ∀ v : St n L.σ, v.nfonccalled = v.calls →
      (newJac L P g v).nfonccalled = (newJac L P g v).calls := by
    intro v hv
    show (if _ then _ else _) = (if _ then _ else _)
    rw [hv]
  cases hp : s.phase with
  | init => exact absurd hp hi
  | check =>
    rw [step_check hp] at h
    split at h
    · injection h
    · injection h with h
      rw [← h]; exact hs
  | attempt =>
    rw [step_attempt hp] at h
    injection h with h
    rw [← h]; exact hs
  | newton =>
    rw [step_newton hp] at h
    have h3 : s.nfonccalled + 3 = s.calls + 3 := by rw [hs]
    rcases newtonStep_cases (L := L) (P := P) (g := g) s with
      ⟨r, fc, th, tq, e, hr, -⟩ | ⟨n1, n2, fc, th, tq, h', e, hh'⟩
    · rcases hr with ⟨rfl, hnit⟩ | ⟨hnit, rfl, -⟩ | ⟨hnit, rfl, -⟩
      · rw [newton_some e] at h
        obtain ⟨v, j, hv, rfl⟩ := afterNewton_dnc h
        rcases hv with rfl | ⟨-, rfl⟩
        · exact h3
        · exact hj _ h3
      · rw [newton_some e] at h
        rw [afterNewton_converged h]
        exact h3
      · rw [newton_none e] at h
        injection h with h
        rw [← h]
        exact h3
    · rw [newton_some e] at h
      obtain ⟨v, j, hv, rfl⟩ := afterNewton_wnc h
      rcases hv with rfl | ⟨-, rfl⟩
      · exact h3
      · exact hj _ h3
  | tail =>
    rw [step_tail hp] at h
    have h1 : s.nfonccalled = s.calls + (estrad L P g s).2 := by rw [he hp, hs, add_zero]
    have h2 : s.nfonccalled + 1 = s.calls + (estrad L P g s).2 + 1 := by rw [h1]
    rcases tail_next h with ⟨-, hone, hE, h⟩ | ⟨-, h⟩
    · rcases nextStep_next h with ⟨-, y, j, hy, rfl⟩ | ⟨-, -, -, -, rfl⟩ | ⟨-, y, j, hy, rfl⟩
      · rcases hy with rfl | ⟨-, rfl⟩
        · exact h2
        · exact hj _ h2
      · exact h2
      · rcases hy with rfl | ⟨-, rfl⟩
        · exact h2
        · exact hj _ h2
    · obtain ⟨y, j, hy, rfl⟩ := rejected_next h
      rcases hy with rfl | ⟨-, rfl⟩
      · exact h1
      · exact hj _ h1

/-! ### integrating backward with `x0 + xend > 0`: the wrong direction -/

/-- every state of such a call: nothing accepted so far, the step goes forward. -/
structure Wrong (g : Cfg n) (sf x0 xe : ℝ) (s : St n L.σ) : Prop where
  phase : s.phase ≠ .init
  xend : s.xend = .fin xe
  facr : s.facr = .fin (1 / 8)
  facl : s.facl = .fin 5
  cfac : s.cfac = .fin (sf * (1 + 2 * g.nit))
  newt0 : s.phase = .newton ∨ s.phase = .tail → 0 ≤ s.newt
  newt2 : s.phase = .newton → s.newt < g.nit
  x : s.x = .fin x0
  naccpt : s.naccpt = 0
  h : ∃ hh, s.h = .fin hh ∧ 0 < hh ∧ hh ≤ x0 + xe
  xph : s.phase = .newton ∨ s.phase = .tail → ∃ w, s.xph = .fin (x0 + w) ∧ 0 < w ∧ w ≤ x0 + xe

theorem Wrong.congr {x0 xe : ℝ} {s t : St n L.σ} (hs : Wrong g sf x0 xe s)
    (h1 : t.phase = s.phase) (h4 : t.xend = s.xend) (h5 : t.facr = s.facr) (h6 : t.facl = s.facl)
    (h7 : t.cfac = s.cfac) (h8 : t.newt = s.newt) (h9 : t.naccpt = s.naccpt) (h13 : t.x = s.x)
    (h14 : t.h = s.h) (h18 : t.xph = s.xph) : Wrong g sf x0 xe t := by
  obtain ⟨a1, a2, a3, a4, a5, a6, a7, a8, a9, a10, a11⟩ := hs
  constructor
  · rwa [h1]
  · rwa [h4]
  · rwa [h5]
  · rwa [h6]
  · rwa [h7]
  · rwa [h1, h8]
  · rwa [h1, h8]
  · rwa [h13]
  · rwa [h9]
  · rwa [h14]
  · rwa [h1, h18]

theorem wrong_ends (hg : Std g sf u) {x0 xe : ℝ} (h0 : xe < x0) {s : St n L.σ}
    (hs : Wrong g sf x0 xe s) (hp : s.phase = .tail) : Ends g s := by
  obtain ⟨w, ew, wpos, wle⟩ := hs.xph (Or.inr hp)
  right
  have e1 : (0.1 : X) = .fin 0.1 := X.ofSci_eq _ _ _
  rw [hs.xend, ew, hg.uround, e1, X.ABSsub_fin, X.ABS_fin, X.fin_mul, X.fin_mul, X.fin_le,
    if_neg (by linarith)]
  have := mul_nonneg (abs_nonneg (x0 + w)) hg.uround_pos.le
  linarith

theorem entered_wrong {x0 xe : ℝ} (h0 : xe < x0) (h1 : 0 < x0 + xe) {s : St n L.σ}
    (hs : AtInit x0 xe s) : (entered P g s).h = .fin (x0 + xe) := by
  have ep : X.SIGN (s.xend - s.x) = .fin (-1) := by
    rw [hs.x, hs.xend, X.fin_sub]
    unfold X.SIGN
    rw [X.zero_eq, X.fin_le, if_neg (by linarith), X.one_eq, X.fin_neg]
  have em : X.MIN (X.ABS (s.xend - s.x)) (X.ABSsub s.xend s.x) = .fin (-(x0 + xe)) := by
    rw [hs.x, hs.xend, X.fin_sub, X.ABS_fin, X.ABSsub_fin, if_neg (by linarith), X.MIN_fin]
    congr 1
    rw [min_eq_right]
    · ring
    · have := abs_nonneg (xe - x0); linarith
  have ev : ∀ a : X, X.MIN (X.ABS a) (.fin (-(x0 + xe))) * .fin (-1) = .fin (x0 + xe) := by
    intro a
    obtain ⟨v, e1, e2, e3, e4, e5⟩ := MIN_ABS_fin a (-(x0 + xe))
    rw [e1, X.fin_mul]
    congr 1
    by_cases hr : ∃ r, a = .fin r
    · obtain ⟨r, hr⟩ := hr
      rw [e4 _ hr, min_eq_right (by have := abs_nonneg r; linarith)]; ring
    · rw [e5 (fun r hr' => hr ⟨r, hr'⟩)]; ring
  have e0 : (0.0 : X) = .fin 0 := (X.ofSci_eq _ _ _).trans (by norm_num)
  have e11 : (1.0001 : X) = .fin 1.0001 := X.ofSci_eq _ _ _
  have e : (entered P g s).h =
      if 0.0 < (s.x + X.MIN (X.ABS (if X.ABS s.h < 10.0 * g.uround then 1.0e-6 else s.h))
        (X.MIN (X.ABS (s.xend - s.x)) (X.ABSsub s.xend s.x)) * X.SIGN (s.xend - s.x) * 1.0001
          - s.xend) * X.SIGN (s.xend - s.x) then s.xend - s.x
      else X.MIN (X.ABS (if X.ABS s.h < 10.0 * g.uround then 1.0e-6 else s.h))
        (X.MIN (X.ABS (s.xend - s.x)) (X.ABSsub s.xend s.x)) * X.SIGN (s.xend - s.x) := rfl
  rw [e, em, ep, ev, if_neg]
  rw [hs.x, hs.xend, e0, e11, X.fin_mul, X.fin_add, X.fin_sub, X.fin_mul, X.fin_lt]
  intro h; nlinarith

theorem wrong_step (hg : Std g sf u) {x0 xe : ℝ} (h0 : xe < x0) (h1 : 0 < x0 + xe)
    {s t : St n L.σ} (hs : AtInit x0 xe s ∨ Wrong g sf x0 xe s) (h : step L P g s = .next t) :
    Wrong g sf x0 xe t := by
  rcases hs with hs | hs
  · rw [step_init hs.phase] at h
    obtain ⟨j, rfl⟩ := init_next h
    have eh : (begun L P g s j).h = .fin (x0 + xe) := by
      show (entered P g s).h = _
      exact entered_wrong (P := P) (g := g) h0 h1 hs
    refine ⟨(by intro h; cases h), hs.xend, ?_, ?_, ?_, (by rintro (h | h) <;> cases h),
      (by intro h; cases h), hs.x, rfl, ⟨_, eh, h1, le_rfl⟩, (by rintro (h | h) <;> cases h)⟩
    · show (1.0e+0 / 8.0e+0 : X) = _
      have a1 : (1.0e+0 : X) = .fin 1 := (X.ofSci_eq _ _ _).trans (by norm_num)
      have a2 : (8.0e+0 : X) = .fin 8 := (X.ofSci_eq _ _ _).trans (by norm_num)
      rw [a1, a2, X.fin_div _ _ (by norm_num)]
    · show (5.0e+0 : X) = _
      exact (X.ofSci_eq _ _ _).trans (by norm_num)
    · show g.safe * X.ofInt (1 + 2 * g.nit) = _
      rw [hg.safe]
      show X.fin sf * X.fin _ = _
      rw [X.fin_mul]; push_cast; rfl
  have hs' := hs
  obtain ⟨a1, a2, a3, a4, a5, a6, a7, a8, a9, ⟨hh, b1, b2, b3⟩, a11⟩ := hs
  cases hp : s.phase with
  | init => exact absurd hp a1
  | check =>
    rw [step_check hp] at h
    split at h
    · injection h
    · injection h with h
      rw [← h]
      exact ⟨(by intro h; cases h), a2, a3, a4, a5, (by rintro (h | h) <;> cases h),
        (by intro h; cases h), a8, a9, ⟨hh, b1, b2, b3⟩, (by rintro (h | h) <;> cases h)⟩
  | attempt =>
    rw [step_attempt hp] at h
    injection h with h
    rw [← h]
    refine ⟨(by intro h; cases h), a2, a3, a4, a5, fun _ => le_rfl, fun _ => ?_, a8, a9,
      ⟨hh, b1, b2, b3⟩, fun _ => ⟨hh, ?_, b2, b3⟩⟩
    · have := hg.nit; show (0 : ℤ) < g.nit; omega
    · show s.x + s.h = _
      rw [a8, b1, X.fin_add]
  | newton =>
    rw [step_newton hp] at h
    obtain ⟨w, w1, w2, w3⟩ := a11 (Or.inl hp)
    have n0 := a6 (Or.inl hp)
    have nn := a7 hp
    rcases newtonStep_cases (L := L) (P := P) (g := g) s with
      ⟨r, fc, th, tq, e, hr, -⟩ | ⟨n1, n2, fc, th, tq, h', e, hh'⟩
    · rcases hr with ⟨rfl, hnit⟩ | ⟨hnit, rfl, -⟩ | ⟨hnit, rfl, -⟩
      · rw [newton_some e] at h
        obtain ⟨v, j, hv, rfl⟩ := afterNewton_dnc h
        have eh : s.h * 0.5 = .fin (hh / 2) := by
          have e5 : (0.5 : X) = .fin (1 / 2) := (X.ofSci_eq _ _ _).trans (by norm_num)
          rw [b1, e5, X.fin_mul]; congr 1; ring
        have key : Wrong g sf x0 xe { pass L P g s fc th tq with
            h := s.h * 0.5, newt := 0, phase := if s.redonewton then .attempt else .tail } := by
          refine ⟨?_, a2, a3, a4, a5, fun _ => le_rfl, ?_, a8, a9, ⟨hh / 2, eh, by linarith,
            by linarith⟩, fun _ => ⟨w, w1, w2, w3⟩⟩
          · cases s.redonewton <;> (intro h; cases h)
          · cases s.redonewton <;> (intro h; cases h)
        rcases hv with rfl | ⟨-, rfl⟩ <;> exact key.congr rfl rfl rfl rfl rfl rfl rfl rfl rfl rfl
      · rw [newton_some e] at h
        rw [afterNewton_converged h]
        refine ⟨(by intro h; cases h), a2, a3, a4, a5, fun _ => ?_, (by intro h; cases h), a8, a9,
          ⟨hh, b1, b2, b3⟩, fun _ => ⟨w, w1, w2, w3⟩⟩
        show 0 ≤ s.newt + 1; omega
      · rw [newton_none e] at h
        injection h with h
        rw [← h]
        refine ⟨?_, a2, a3, a4, a5, fun _ => ?_, fun _ => ?_, a8, a9,
          ⟨hh, b1, b2, b3⟩, fun _ => ⟨w, w1, w2, w3⟩⟩
        · show s.phase ≠ _; rw [hp]; intro h; cases h
        · show 0 ≤ s.newt + 1; omega
        · show s.newt + 1 < g.nit; omega
    · rw [newton_some e] at h
      obtain ⟨v, j, hv, rfl⟩ := afterNewton_wnc h
      obtain ⟨k, ek, kpos, kle⟩ : ∃ k, h' = .fin k ∧ 0 < k ∧ k < hh := by
        rcases hh' with ⟨hd, rfl⟩ | rfl
        · obtain ⟨f, ef, f1, f2⟩ := hhfac_range n2 hd
          refine ⟨hh * f, by rw [b1, ef, X.fin_mul], mul_pos b2 (lt_of_lt_of_le (by positivity) f1), ?_⟩
          nlinarith
        · have e2 : (2.0 : X) = .fin 2 := (X.ofSci_eq _ _ _).trans (by norm_num)
          exact ⟨hh / 2, by rw [b1, e2, X.fin_div _ _ (by norm_num)], by linarith, by linarith⟩
      have key : Wrong g sf x0 xe { fail L P g s fc th tq h' with newt := 0, phase := .attempt } :=
        ⟨(by intro h; cases h), a2, a3, a4, a5, (by rintro (h | h) <;> cases h),
          (by intro h; cases h), a8, a9, ⟨k, ek, kpos, by linarith⟩, (by rintro (h | h) <;> cases h)⟩
      rcases hv with rfl | ⟨-, rfl⟩ <;> exact key.congr rfl rfl rfl rfl rfl rfl rfl rfl rfl rfl
  | tail =>
    rw [step_tail hp] at h
    rcases tail_next h with ⟨he, ho, hE, h⟩ | ⟨he, h⟩
    · exact absurd (wrong_ends hg h0 hs' hp) hE
    · obtain ⟨y, j, hy, rfl⟩ := rejected_next h
      obtain ⟨q, eq, q1, q2, q3⟩ := quotOf_range (s := counted L P g s) hg a3 a4 a5
        (a6 (Or.inr hp)) (errNow_values (L := L) (P := P) (g := g) s)
      obtain ⟨k, ek, kpos, kle⟩ : ∃ k, (rejectState g (counted L P g s) (errNow L P g s)).h = .fin k ∧
          0 < k ∧ k < hh := by
        have q3 := q3 he
        show ∃ k, (if s.first then s.h * 0.1 else s.h / quotOf g (counted L P g s) (errNow L P g s))
          = .fin k ∧ 0 < k ∧ k < hh
        by_cases hf : s.first = true
        · have e1 : (0.1 : X) = .fin 0.1 := X.ofSci_eq _ _ _
          rw [if_pos hf, b1, e1, X.fin_mul]
          exact ⟨_, rfl, mul_pos b2 (by norm_num), by linarith⟩
        · rw [if_neg hf, eq, b1, X.fin_div _ _ (by linarith)]
          refine ⟨_, rfl, div_pos b2 (by linarith), ?_⟩
          rw [div_lt_iff₀ (by linarith)]
          nlinarith
      have key : Wrong g sf x0 xe (rejectState g (counted L P g s) (errNow L P g s)) :=
        ⟨(by intro h; cases h), a2, a3, a4, a5, (by rintro (h | h) <;> cases h),
          (by intro h; cases h), a8, a9, ⟨k, ek, kpos, by linarith⟩, (by rintro (h | h) <;> cases h)⟩
      rcases hy with rfl | ⟨-, rfl⟩ <;> exact key.congr rfl rfl rfl rfl rfl rfl rfl rfl rfl rfl

theorem wrong_reach (hg : Std g sf u) {x0 xe : ℝ} (h0 : xe < x0) (h1 : 0 < x0 + xe)
    {o s : St n L.σ} {h : X} {y : Fin n → X}
    (hr : Reach (step L P g) (call o h (.fin x0) (.fin xe) y) s) :
    AtInit x0 xe s ∨ Wrong g sf x0 xe s :=
  Reach.inv (I := fun s => AtInit x0 xe s ∨ Wrong g sf x0 xe s)
    (fun _ _ hI hst => Or.inr (wrong_step hg h0 h1 hI hst)) (Or.inl (atInit_call o h x0 xe y)) hr

end Odes.Radau
