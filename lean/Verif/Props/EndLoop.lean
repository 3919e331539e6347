import Verif.Lemmas.EndLoop

/-!
# The end of the interval of Rodas and Radau5 in floating point arithmetic (C112)
-/

namespace Odes.EndLoop

open Odes.Symp Odes.TimeLoop Odes.Hess Spec

variable {F : FP} {c : Cn F.T}

/-- the states a loop reaches from `s0` if the rest of the program gives answers allowed by `ok`. -/
inductive Run {α β : Type} (step : α → β → Res β) (ok : α → β → Prop) (s0 : β) : β → Prop
  | start : Run step ok s0 s0
  | next {s s' : β} {a : α} : Run step ok s0 s → ok a s → step a s = .next s' → Run step ok s0 s'

theorem Run.inv {α β : Type} {step : α → β → Res β} {ok : α → β → Prop} {s0 s : β} {I : β → Prop}
    (h : Run step ok s0 s) (h0 : I s0) (hn : ∀ a s s', I s → ok a s → step a s = .next s' → I s') : I s := by
  induction h with
  | start => exact h0
  | next _ h1 h2 ih => exact hn _ _ _ ih h1 h2

/-- answers of the rest of Rodas: `h` is divided by a positive number, at least 1.1 after a rejection
(there `err > 1`, and `fac` is at least `MIN(5, sqrt(sqrt(err))/0.9)`). -/
def RodasOk (a : An F.T) (_ : Rs F.T) : Prop := 0 < a.q.1 ∧ (a.acc = false → 1.1 ≤ a.q.1)

/-- invariant of Rodas. -/
structure RInv (c : Cn F.T) (x0 : F.T) (s : Rs F.T) : Prop where
  ge : (s.inner = false ∧ s.last = true) ∨ (x0.1 ≤ s.x.1 ∧ s.x.1 ≤ c.xend.1)
  last : s.inner = true → s.last = true → s.h = c.xend - s.x
  step : s.inner = true → s.last = false → 0 ≤ s.h.1 ∧ (s.x + s.h).1 ≤ c.xend.1
  done : s.inner = false → s.last = true → ∃ x' : F.T, x0.1 ≤ x'.1 ∧ x'.1 ≤ c.xend.1 ∧
    s.x = x' + (c.xend - x')

theorem head_next {s s' : Rs F.T} (h : rodasHead c s = .next s') :
    s' = { clip c s with inner := true } ∧ ¬ c.c01 * c.abs s.h ≤ c.abs s.x * c.uround := by
  unfold rodasHead at h
  split_ifs at h with h1
  injection h with h
  exact ⟨h.symm, h1⟩

/-- a rejected step: the new step is smaller. -/
theorem div_le {h q : F.T} (he : F.eps ≤ 1 / 32) (h0 : 0 ≤ h.1) (hq : 1.1 ≤ q.1) :
    0 ≤ (h / q).1 ∧ 1.06 * (h / q).1 ≤ h.1 := by
  have hq0 : 0 < q.1 := by linarith
  have h1 : 0 ≤ h.1 / q.1 := div_nonneg h0 hq0.le
  have h2 : h.1 / q.1 * 1.1 ≤ h.1 := by
    rw [div_mul_eq_mul_div, div_le_iff₀ hq0]; nlinarith
  rw [div_val]
  have h3 := F.abs_rnd (h.1 / q.1)
  rw [abs_of_nonneg h1] at h3
  have h4 := F.rn.ge Flt.zero h1
  rw [abs_of_nonneg h4] at h3
  refine ⟨h4, ?_⟩
  have := F.eps_pos
  nlinarith

/-- a smaller step than the rounded distance stays in the interval. -/
theorem add_le_end {x h : F.T} (he : F.eps ≤ 1 / 32) (hx : x.1 ≤ c.xend.1)
    (hh : 1.05 * h.1 ≤ (c.xend - x).1) : x.1 + 1.01 * h.1 ≤ c.xend.1 ∧ (0 ≤ h.1 → (x + h).1 ≤ c.xend.1) := by
  have h1 := F.abs_rnd (c.xend.1 - x.1)
  rw [← FP.sub_val, abs_of_nonneg (sub_nonneg' hx), abs_of_nonneg (by linarith)] at h1
  have := F.eps_pos
  have h2 : x.1 + 1.01 * h.1 ≤ c.xend.1 := by nlinarith
  refine ⟨h2, fun h0 => ?_⟩
  rw [FP.add_val]
  exact F.rn.le c.xend.2 (by linarith)

theorem RInv.next (W : Fwd c) (he : F.eps ≤ 1 / 32) {x0 : F.T} {a : An F.T} {s s' : Rs F.T} (I : RInv c x0 s)
    (ok : RodasOk a s) (h : rodas c a s = .next s') : RInv c x0 s' := by
  obtain ⟨ok1, ok2⟩ := ok
  unfold rodas at h
  split_ifs at h with h1 h2
  · injection h with h
    have hx : x0.1 ≤ s.x.1 ∧ s.x.1 ≤ c.xend.1 := by
      rcases I.ge with ⟨h3, _⟩ | h3
      · rw [h1] at h3; exact absurd h3 (by decide)
      · exact h3
    subst h
    unfold rodasBody
    cases hacc : a.acc
    · simp only [Bool.false_eq_true, if_false]
      refine ⟨Or.inr hx, fun _ h => absurd h (by simp), fun _ _ => ?_, fun h => absurd h (by simp [h1])⟩
      simp only
      cases hl : s.last
      · obtain ⟨p1, p2⟩ := I.step h1 hl
        obtain ⟨q1, q2⟩ := div_le he p1 (ok2 hacc)
        exact ⟨q1, (add_mono _ (by linarith)).trans p2⟩
      · have e := I.last h1 hl
        have p1 : 0 ≤ s.h.1 := by rw [e]; exact sub_nonneg' hx.2
        obtain ⟨q1, q2⟩ := div_le he p1 (ok2 hacc)
        exact ⟨q1, (add_le_end he hx.2 (by rw [← e]; linarith)).2 q1⟩
    · simp only [if_true]
      refine ⟨?_, fun h => absurd h (by simp), fun h => absurd h (by simp), fun _ hl => ?_⟩
      · cases hl : s.last
        · right
          obtain ⟨p1, p2⟩ := I.step h1 hl
          exact ⟨hx.1.trans (le_add' _ p1), p2⟩
        · exact Or.inl ⟨rfl, rfl⟩
      · exact ⟨s.x, hx.1, hx.2, by rw [← I.last h1 hl]⟩
  · obtain ⟨rfl, -⟩ := head_next h
    have hl : s.last = false := by simpa using h2
    have hx : x0.1 ≤ s.x.1 ∧ s.x.1 ≤ c.xend.1 := by
      rcases I.ge with ⟨_, h3⟩ | h3
      · exact absurd h3 h2
      · exact h3
    rcases W.clip_eq s with ⟨p, e⟩ | ⟨p, e⟩ <;> rw [e]
    · exact ⟨Or.inr hx, fun _ _ => rfl, fun _ h => absurd h (by simp), fun h => absurd h (by simp)⟩
    · exact ⟨Or.inr hx, fun _ h => absurd h (by simp [hl]), fun _ _ => ⟨W.pre_nonneg s, W.pre_le p⟩,
        fun h => absurd h (by simp)⟩

/-- C112, partial: Rodas in floating point arithmetic, `x0 < xend`.  All `x` before the last step are in
`[x0, xend]`; the last step adds the rounded distance to `xend`. -/
theorem rodas_float_end_partial (W : Fwd c) (he : F.eps ≤ 1 / 32) {x0 h : F.T} (hx : x0.1 < c.xend.1) {s : Rs F.T}
    (hr : Run (rodas c) RodasOk ⟨x0, h, false, false, false⟩ s) :
    (s.inner = true ∨ s.last = false → x0.1 ≤ s.x.1 ∧ s.x.1 ≤ c.xend.1) ∧
    ∀ a s', rodas c a s = .ret s' →
      |s'.x.1 - c.xend.1| ≤ F.eps * |c.xend.1| + (1 + F.eps) * (F.eps * |c.xend.1 - x0.1|) ∧
      (c.xend.1 / 2 ≤ x0.1 → s'.x = c.xend) := by
  have I : RInv c x0 s := hr.inv ⟨Or.inr ⟨le_rfl, hx.le⟩, fun h => absurd h (by simp), fun h => absurd h (by simp),
    fun _ h => absurd h (by simp)⟩ fun a s s' I ok h => I.next W he ok h
  refine ⟨fun h => ?_, fun a s' h => ?_⟩
  · rcases I.ge with ⟨h1, h2⟩ | h1
    · rw [h1, h2] at h; simp at h
    · exact h1
  · unfold rodas at h
    split_ifs at h with h1 h2
    · injection h with h
      subst h
      obtain ⟨x', p1, p2, e⟩ := I.done (by simpa using h1) h2
      rw [e]
      refine ⟨(land_near _ _).trans ?_, fun h3 => land_exact (by linarith) p2⟩
      have := F.eps_pos
      have : |c.xend.1 - x'.1| ≤ |c.xend.1 - x0.1| := by
        rw [abs_of_nonneg (by linarith), abs_of_nonneg (by linarith)]; linarith
      gcongr
    · unfold rodasHead at h
      split_ifs at h

/-- the accepted steps are not tiny. -/
def NotTiny (c : Cn F.T) (a : An F.T) (s : Rs F.T) : Prop :=
  RodasOk a s ∧ (a.acc = true → s.inner = true → (2 : ℝ) ^ 15 * F.eps * |c.xend.1| ≤ s.h.1)

/-- invariant: no division by zero. -/
structure ZInv (c : Cn F.T) (s : Rs F.T) : Prop where
  lt : s.inner = true ∨ s.last = false → s.x.1 < c.xend.1
  last : s.inner = true → s.last = true → s.h = c.xend - s.x
  step : s.inner = true → s.last = false → 0 < s.h.1 ∧
    s.x.1 + 1.00009 * s.h.1 ≤ c.xend.1 + 17 / 16 * F.eps * |c.xend.1|

theorem ZInv.pos {s : Rs F.T} (I : ZInv c s) (h : s.inner = true) : 0 < s.h.1 := by
  cases hl : s.last
  · exact (I.step h hl).1
  · rw [I.last h hl, sub_pos']; exact I.lt (Or.inl h)

theorem ZInv.next (W : Fwd c) (he : F.eps ≤ 1 / 2 ^ 20) {a : An F.T} {s s' : Rs F.T} (I : ZInv c s)
    (ok : NotTiny c a s) (h : rodas c a s = .next s') : ZInv c s' := by
  obtain ⟨⟨ok1, ok2⟩, ok3⟩ := ok
  have he' : F.eps ≤ 1 / 32 := he.trans (by norm_num)
  have e0 := F.eps_pos
  have b0 : 0 ≤ F.eps * |c.xend.1| := by positivity
  unfold rodas at h
  split_ifs at h with h1 h2
  · injection h with h
    subst h
    have hx := I.lt (Or.inl h1)
    have hp := I.pos h1
    unfold rodasBody
    cases hacc : a.acc
    · simp only [Bool.false_eq_true, if_false]
      obtain ⟨q1, q2⟩ := div_le he' hp.le (ok2 hacc)
      refine ⟨fun _ => hx, fun _ h => absurd h (by simp), fun _ _ => ⟨?_, ?_⟩⟩
      · show 0 < (s.h / a.q).1
        rw [div_val]; exact rnd_pos F (div_pos hp ok1)
      · show s.x.1 + 1.00009 * (s.h / a.q).1 ≤ _
        cases hl : s.last
        · have := (I.step h1 hl).2
          linarith
        · have e := I.last h1 hl
          have := (add_le_end he' hx.le (c := c) (h := s.h / a.q) (by rw [← e]; linarith)).1
          linarith
    · simp only [if_true]
      refine ⟨fun hl => ?_, fun h => absurd h (by simp), fun h => absurd h (by simp)⟩
      have hl : s.last = false := by simpa using hl
      show (s.x + s.h).1 < c.xend.1
      obtain ⟨p1, p2⟩ := I.step h1 hl
      by_contra hcon
      rw [not_lt] at hcon
      have h5 : c.xend.1 - 17 / 16 * F.eps * |c.xend.1| ≤ s.x.1 + s.h.1 := by
        by_contra hc
        rw [not_le] at hc
        have h6 : (s.x + s.h).1 ≤ c.xend.1 := by
          rw [FP.add_val]; exact F.rn.le c.xend.2 (by linarith)
        have h7 := err' (F := F) he' (s.x.1 + s.h.1)
        rw [← FP.add_val, le_antisymm h6 hcon, abs_le] at h7
        linarith [h7.2]
      have := ok3 hacc h1
      have hpos : 0 < |c.xend.1| ∨ c.xend.1 = 0 := by
        rcases eq_or_ne c.xend.1 0 with h | h
        · exact Or.inr h
        · exact Or.inl (abs_pos.2 h)
      rcases hpos with hpos | hzero
      · have : 0 < F.eps * |c.xend.1| := mul_pos e0 hpos
        linarith
      · rw [hzero] at h5 p2
        simp only [abs_zero, mul_zero] at h5 p2
        linarith
  · obtain ⟨rfl, hn⟩ := head_next h
    have hl : s.last = false := by simpa using h2
    have hx := I.lt (Or.inr hl)
    have h0 : s.h.1 ≠ 0 := by
      intro h0
      apply hn
      rw [le_val, FP.mul_val, FP.mul_val, W.abs, W.abs, h0, abs_zero, mul_zero, F.rn.exact Flt.zero]
      exact F.rn.ge Flt.zero (mul_nonneg (abs_nonneg _) W.uround.le)
    rcases W.clip_eq s with ⟨p, e⟩ | ⟨p, e⟩ <;> rw [e]
    · exact ⟨fun _ => hx, fun _ _ => rfl, fun _ h => absurd h (by simp)⟩
    · refine ⟨fun _ => hx, fun _ h => absurd h (by simp [hl]), fun _ _ => ⟨W.pre_pos h0, ?_⟩⟩
      show s.x.1 + 1.00009 * (Fwd.pre c s).1 ≤ _
      have hp := W.pre_pos h0
      set y := Fwd.pre c s
      have h3 : 1.0001 * (1 - F.eps) ≤ c.c10001.1 := by
        have := F.err 1.0001
        rw [← W.c10001, abs_le, abs_of_pos (by norm_num)] at this
        linarith [this.1]
      have h4 : 1.00009 * y.1 ≤ (y * c.c10001).1 := by
        have hq : 0 < y.1 * c.c10001.1 := mul_pos hp (by linarith [W.c1])
        have := F.err (y.1 * c.c10001.1)
        rw [← FP.mul_val, abs_le, abs_of_pos hq] at this
        have h5 : (1 - F.eps) * (y.1 * c.c10001.1) ≤ (y * c.c10001).1 := by linarith [this.1]
        refine le_trans ?_ h5
        have h6 : y.1 * (1.0001 * (1 - F.eps)) ≤ y.1 * c.c10001.1 := mul_le_mul_of_nonneg_left h3 hp.le
        have h7 := mul_le_mul_of_nonneg_left h6 (by linarith : 0 ≤ 1 - F.eps)
        refine le_trans ?_ h7
        have h8 : 1.00009 ≤ (1 - F.eps) * (1.0001 * (1 - F.eps)) := by
          norm_num at he ⊢
          nlinarith
        calc 1.00009 * y.1 ≤ (1 - F.eps) * (1.0001 * (1 - F.eps)) * y.1 := mul_le_mul_of_nonneg_right h8 hp.le
          _ = _ := by ring
      have h5 : s.x.1 + (y * c.c10001).1 ≤ c.xend.1 + 17 / 16 * F.eps * |c.xend.1| := by
        by_contra hc
        rw [not_le] at hc
        have h6 : c.xend.1 ≤ (s.x + y * c.c10001).1 := by
          rw [FP.add_val]; exact F.rn.ge c.xend.2 (by linarith)
        have h7 := err' (F := F) he' (s.x.1 + (y * c.c10001).1)
        rw [← FP.add_val, le_antisymm p h6, abs_le] at h7
        linarith [h7.1]
      linarith

/-- C112, partial: if no accepted step is smaller than `2^15` units in the last place of `xend`, Rodas never
attempts a step of length zero: `fac=1./(h*GAMMA)` is computed with `h > 0`. -/
theorem rodas_float_no_zero_step_partial (W : Fwd c) (he : F.eps ≤ 1 / 2 ^ 20) {x0 h : F.T} (hx : x0.1 < c.xend.1)
    {s : Rs F.T} (hr : Run (rodas c) (NotTiny c) ⟨x0, h, false, false, false⟩ s) (hs : s.inner = true) :
    0 < s.h.1 :=
  (hr.inv (I := ZInv c) ⟨fun _ => hx, fun h => absurd h (by simp), fun h => absurd h (by simp)⟩
    fun _ _ _ I ok h => I.next W he ok h).pos hs

/-- C112, the statement fails for Rodas: in double precision, from `x=1` to `1+2^(-49)`, with an initial step
at least as long as the interval.  The first step ends exactly at `xend`, but since `h*1.0001` and `h` give the
same `x+h` after rounding, `last` is not set.  If the step is accepted (with a step which is not decreased,
`q <= 1`), a further iteration follows, with `h=xend-x=0`, and `fac=1./(h*GAMMA)` divides by zero. -/
theorem rodas_float_zero_step (W : Fwd c) (hp : F.p = 53) {x0 h : F.T} (hx0 : x0.1 = 1)
    (hxe : c.xend.1 = 1 + 2 ^ (-49 : ℤ)) (hm : c.hmaxn.1 = 2 ^ (-49 : ℤ)) (hu : c.uround.1 = F.rnd 1e-16)
    (hu10 : c.c10u.1 = F.rnd (10 * F.rnd 1e-16)) (hh : (2 : ℝ) ^ (-49 : ℤ) ≤ h.1) {a : An F.T}
    (ha : a.acc = true) (hq : 0 < a.q.1) (hq1 : a.q.1 ≤ 1) (a' : An F.T) :
    ∃ s1 s2 s3 : Rs F.T, rodas c a ⟨x0, h, false, false, false⟩ = .next s1 ∧ rodas c a s1 = .next s2 ∧
      rodas c a' s2 = .next s3 ∧ s3 = ⟨c.xend, 0, true, false, true⟩ ∧ s2.x = c.xend ∧ s2.last = false := by
  have hu1 : F.rnd 1e-16 ≤ (2 : ℝ) ^ (-53 : ℤ) := F.rn.le (Flt.two_zpow F.hp _) (by norm_num)
  have hu2 : 0 < F.rnd 1e-16 := rnd_pos F (by norm_num)
  have h10 : c.c10u.1 ≤ (2 : ℝ) ^ (-49 : ℤ) := by
    rw [hu10]
    refine F.rn.le (Flt.two_zpow F.hp _) ?_
    norm_num at hu1 ⊢
    linarith
  have h01 : 0.09 ≤ c.c01.1 := by
    have := F.err 0.1
    have he : F.eps ≤ 1 / 32 := by unfold FP.eps; rw [hp]; norm_num
    rw [← W.c01, abs_le, abs_of_pos (by norm_num)] at this
    linarith [this.1]
  have hus : F.rnd 1e-16 ≤ 9 / 8 * (1e-16) := by
    have := F.abs_rnd 1e-16
    have he : F.eps ≤ 1 / 32 := by unfold FP.eps; rw [hp]; norm_num
    rw [abs_of_pos hu2, abs_of_pos (by norm_num)] at this
    norm_num at this he ⊢
    linarith
  -- the head of the loop does not stop
  have head : ∀ x y : F.T, 0 ≤ x.1 → x.1 ≤ 1.1 → (2 : ℝ) ^ (-49 : ℤ) ≤ y.1 →
      ¬ c.c01 * c.abs y ≤ c.abs x * c.uround := by
    intro x y a1 a2 a3
    rw [le_val, FP.mul_val, FP.mul_val, W.abs, W.abs, not_le, hu, abs_of_nonneg a1,
      abs_of_nonneg (le_trans (z2 _).le a3)]
    have b1 : F.rnd (x.1 * F.rnd 1e-16) ≤ (5 / 4) * (2 : ℝ) ^ (-53 : ℤ) := by
      refine F.rn.le ⟨5, -55, by rw [hp]; norm_num, by norm_num⟩ ?_
      calc x.1 * F.rnd 1e-16 ≤ 1.1 * (9 / 8 * 1e-16) := mul_le_mul a2 hus hu2.le (by norm_num)
        _ ≤ _ := by norm_num
    have b2 : (11 / 8) * (2 : ℝ) ^ (-53 : ℤ) ≤ F.rnd (c.c01.1 * y.1) := by
      refine F.rn.ge ⟨11, -56, by rw [hp]; norm_num, by norm_num⟩ ?_
      calc (11 / 8) * (2 : ℝ) ^ (-53 : ℤ) ≤ 0.09 * 2 ^ (-49 : ℤ) := by norm_num
        _ ≤ _ := mul_le_mul h01 a3 (z2 _).le (by linarith)
    have : (0 : ℝ) < 2 ^ (-53 : ℤ) := z2 _
    linarith
  -- the limited step
  have pre_eq : ∀ s : Rs F.T, (2 : ℝ) ^ (-49 : ℤ) ≤ s.h.1 → (Fwd.pre c s).1 = 2 ^ (-49 : ℤ) := by
    intro s a1
    have h0 : (0 : ℝ) < 2 ^ (-49 : ℤ) := z2 _
    unfold Fwd.pre
    rw [W.min, W.abs, if_neg, hm, abs_of_nonneg (by linarith), min_eq_right a1]
    rw [lt_val, W.abs, abs_of_nonneg (by linarith)]
    linarith
  have hc1 := W.c1
  have hc2 : c.c10001.1 ≤ 1.5 := by
    rw [W.c10001]; exact F.rn.le ⟨3, -1, by rw [hp]; norm_num, by norm_num⟩ (by norm_num)
  have mulc : ∀ s : Rs F.T, (2 : ℝ) ^ (-49 : ℤ) ≤ s.h.1 →
      (2 : ℝ) ^ (-49 : ℤ) ≤ (Fwd.pre c s * c.c10001).1 ∧
      (Fwd.pre c s * c.c10001).1 ≤ (2 : ℝ) ^ (-49 : ℤ) * c.c10001.1 := by
    intro s a1
    rw [FP.mul_val, pre_eq s a1]
    have : Flt F.p ((2 : ℝ) ^ (-49 : ℤ) * c.c10001.1) := by
      rw [mul_comm]; exact c.c10001.2.mul_zpow _
    rw [F.rn.exact this]
    exact ⟨le_mul_of_one_le_right (z2 _).le hc1, le_rfl⟩
  have c4 : c.c10001.1 ≤ 1.0002 := by
    have := F.abs_rnd 1.0001
    have he : F.eps ≤ 1 / 2 ^ 20 := by
      unfold FP.eps; rw [hp]; norm_num
    rw [← W.c10001, abs_of_nonneg (by linarith), abs_of_pos (by norm_num)] at this
    norm_num at he this ⊢
    linarith
  have e9 : (2 : ℝ) ^ (-49 : ℤ) = 8 * 2 ^ (-52 : ℤ) := by norm_num
  have p52 : (0 : ℝ) < 2 ^ (-52 : ℤ) := z2 _
  have hp' : ((F.p : ℤ) - 1) = 52 := by rw [hp]; norm_num
  have fltE : F.rnd (1 + 2 ^ (-49 : ℤ)) = 1 + 2 ^ (-49 : ℤ) := by rw [← hxe]; exact F.rn.exact c.xend.2
  have s1e : rodas c a ⟨x0, h, false, false, false⟩ = .next ⟨x0, Fwd.pre c ⟨x0, h, false, false, false⟩,
      false, false, true⟩ := by
    unfold rodas rodasHead
    rw [if_neg (by simp), if_neg (by simp), if_neg (head _ _ (by rw [hx0]; norm_num) (by rw [hx0]; norm_num) hh)]
    rcases W.clip_eq ⟨x0, h, false, false, false⟩ with ⟨p, _⟩ | ⟨_, e⟩
    · exfalso
      have h1 := (mulc ⟨x0, h, false, false, false⟩ hh)
      rw [FP.add_val] at p
      have hr := rnd_eq F (m := 2 ^ 52 + 8) (e := -52)
        (x := x0.1 + (Fwd.pre c ⟨x0, h, false, false, false⟩ * c.c10001).1) (by rw [hp]; norm_num)
        (by
          rw [hp', hx0]
          have := le_trans (z2 (-49)).le h1.1
          have e1 : (2 : ℝ) ^ (52 : ℤ) * 2 ^ (-52 : ℤ) = 1 := by norm_num
          rw [e1]; linarith) (by
          rw [hx0]
          have e1 : (((2 ^ 52 + 8 : ℤ)) : ℝ) * 2 ^ (-52 : ℤ) = 1 + 8 * 2 ^ (-52 : ℤ) := by norm_num
          rw [e1]
          rw [e9] at h1
          exact key p52 h1.1 h1.2 c4) (by norm_num)
      rw [hr, hxe] at p
      norm_num at p
    · rw [e]
  refine ⟨_, ⟨c.xend, c.hmaxn, false, false, false⟩, _, s1e, ?_, ?_, rfl, rfl, rfl⟩
  · unfold rodas
    rw [if_pos rfl]
    congr 1
    unfold rodasBody
    simp only [ha, if_true, Bool.false_eq_true, if_false]
    have hpe := pre_eq ⟨x0, h, false, false, false⟩ hh
    set y := Fwd.pre c ⟨x0, h, false, false, false⟩
    have hx : x0 + y = c.xend := by
      apply Subtype.ext
      rw [FP.add_val, hx0, hpe, fltE, hxe]
    have hy : (2 : ℝ) ^ (-49 : ℤ) ≤ (y / a.q).1 := by
      rw [div_val]
      refine F.rn.ge (Flt.two_zpow F.hp _) ?_
      rw [hpe, le_div_iff₀ hq]
      exact mul_le_of_le_one_right (z2 _).le hq1
    rw [hx, W.posneg, one_mul']
    congr 1
    split_ifs with h1
    · rfl
    · apply Subtype.ext
      rw [lt_val, W.abs, abs_of_nonneg (le_trans (z2 _).le hy), hm, not_lt] at h1
      rw [hm]; exact le_antisymm h1 hy
  · unfold rodas rodasHead
    have hh' : (2 : ℝ) ^ (-49 : ℤ) ≤ (⟨c.xend, c.hmaxn, false, false, false⟩ : Rs F.T).h.1 := hm.ge
    rw [if_neg (by simp), if_neg (by simp), if_neg (head _ _ (by rw [hxe]; norm_num) (by rw [hxe]; norm_num) hm.ge)]
    rcases W.clip_eq ⟨c.xend, c.hmaxn, false, false, false⟩ with ⟨_, e⟩ | ⟨p, _⟩
    · rw [e]
      have hz : c.xend - c.xend = 0 := by
        apply Subtype.ext
        rw [FP.sub_val, sub_self, F.rn.exact Flt.zero, FP.zero_val]
      show Res.next (⟨c.xend, c.xend - c.xend, true, false, true⟩ : Rs F.T) = _
      rw [hz]
    · exfalso
      have h1 := (mulc ⟨c.xend, c.hmaxn, false, false, false⟩ hh').1
      rw [FP.add_val] at p
      have : (1 + 2 ^ (-48 : ℤ) : ℝ) ≤ F.rnd (c.xend.1 +
          (Fwd.pre c ⟨c.xend, c.hmaxn, false, false, false⟩ * c.c10001).1) := by
        refine F.rn.ge ⟨2 ^ 48 + 1, -48, by rw [hp]; norm_num, by norm_num⟩ ?_
        rw [hxe]
        have : (2 : ℝ) ^ (-48 : ℤ) = 2 * 2 ^ (-49 : ℤ) := by norm_num
        linarith
      have p' : F.rnd (c.xend.1 + (Fwd.pre c ⟨c.xend, c.hmaxn, false, false, false⟩ * c.c10001).1) ≤ c.xend.1 := p
      have := this.trans p'
      rw [hxe] at this
      norm_num at this
where
  key {T w q : ℝ} (h0 : 0 < T) (h1 : 8 * T ≤ w) (h2 : w ≤ 8 * T * q) (h3 : q ≤ 1.0002) :
      2 * |1 + w - (1 + 8 * T)| < T := by
    rw [abs_of_nonneg (by linarith)]
    nlinarith

/-- answers of the rest of Radau5: a repeated step is shorter (by `0.8`, `0.5`, `0.1` or `1/quot` with
`quot >= 1/0.9`), a proposed step is not zero, and Newton does not end with `didNotConverge`. -/
def RadauOk (a : Ra F.T) (s : Rs F.T) : Prop :=
  match a with
  | .redo h => 0 < h.1 ∧ 1.05 * h.1 ≤ s.h.1
  | .half _ => False
  | .acc hnew _ => hnew.1 ≠ 0

/-- invariant of Radau5. -/
structure DInv (c : Cn F.T) (x0 : F.T) (s : Rs F.T) : Prop where
  ge : x0.1 ≤ s.x.1
  lt : s.x.1 < c.xend.1
  last : s.last = true → s.h = c.xend - s.x
  step : s.last = false → 0 < s.h.1 ∧ (s.x + s.h).1 ≤ c.xend.1

theorem DInv.pos {x0 : F.T} {s : Rs F.T} (I : DInv c x0 s) : 0 < s.h.1 := by
  cases hl : s.last
  · exact (I.step hl).1
  · rw [I.last hl, sub_pos']; exact I.lt

theorem proposed_pos (W : Fwd c) {s : Rs F.T} (hs : 0 < s.h.1) {hnew : F.T} (h : hnew.1 ≠ 0) :
    0 < (radauProposed c s hnew).1 := by
  have h1 : 0 < (c.min (c.abs hnew) c.hmaxn).1 := by
    rw [W.min, W.abs]; exact lt_min (abs_pos.2 h) W.hmaxn
  unfold radauProposed
  simp only [W.posneg, one_mul']
  split_ifs
  · rw [W.min, W.abs, W.abs]; exact lt_min (abs_pos.2 h1.ne') (abs_pos.2 hs.ne')
  · exact h1

theorem DInv.next (W : Fwd c) (he : F.eps ≤ 1 / 32) {x0 : F.T} {a : Ra F.T} {s s' : Rs F.T} (I : DInv c x0 s)
    (ok : RadauOk a s) (h : radau c a s = .next s') : DInv c x0 s' := by
  have hp := I.pos
  cases a with
  | redo h' =>
    obtain ⟨o1, o2⟩ := ok
    simp only [radau, Res.next.injEq] at h
    subst h
    refine ⟨I.ge, I.lt, fun h => absurd h (by simp), fun _ => ⟨o1, ?_⟩⟩
    show (s.x + h').1 ≤ _
    cases hl : s.last
    · exact (add_mono _ (by linarith)).trans (I.step hl).2
    · exact (add_le_end he I.lt.le (by rw [← I.last hl]; exact o2)).2 o1.le
  | half h' => exact absurd ok id
  | acc hnew keep =>
    simp only [radau] at h
    split_ifs at h with h1 h2 h3
    all_goals
      injection h with h
      subst h
      rw [not_or] at h1
      obtain ⟨h1, h1'⟩ := h1
      have hl : s.last = false := by simpa using h1
      obtain ⟨p1, p2⟩ := I.step hl
      have hx : x0.1 ≤ (s.x + s.h).1 := I.ge.trans (le_add' _ p1.le)
      have hlt : (s.x + s.h).1 < c.xend.1 := by
        refine lt_of_le_of_ne p2 fun e => h1' ?_
        rw [W.dist, distF_eq p2, le_val, FP.mul_val, FP.mul_val, FP.sub_val, W.abs, e, sub_self,
          F.rn.exact Flt.zero, mul_zero, F.rn.exact Flt.zero]
        exact F.rn.ge Flt.zero (mul_nonneg (abs_nonneg _) W.uround.le)
      have hn := proposed_pos W hp ok
      try rw [W.posneg, W.quot1, W.zero, mul_one', div_one', le_val, FP.zero_val, sub_nonneg_iff, not_le] at h2
    · exact ⟨hx, hlt, fun _ => rfl, fun h => absurd h (by simp)⟩
    · refine ⟨hx, hlt, fun h => absurd h (by simp [hl]), fun _ => ⟨p1, ?_⟩⟩
      show (s.x + s.h + s.h).1 ≤ _
      refine (add_mono _ ?_).trans h2.le
      by_contra hcon
      rw [not_le] at hcon
      have h4 := h3.2
      rw [W.quot1, le_val, FP.one_val] at h4
      exact absurd h4 (not_le.2 (quot_lt hn hcon))
    · exact ⟨hx, hlt, fun h => absurd h (by simp [hl]), fun _ => ⟨hn, h2.le⟩⟩

/-- C112: Radau5 in floating point arithmetic, `x0 < xend`, as long as Newton does not end with
`didNotConverge`: all steps are positive, all `x` before the end are in `[x0, xend)`, and at the end either the
last step has added the rounded distance to `xend`, or `x <= xend` and the distance is at most
`11*uround*|x|`. -/
theorem radau_float_end (W : Fwd c) (he : F.eps ≤ 1 / 64) {x0 h : F.T} (hx : x0.1 < c.xend.1) (hh : h.1 ≠ 0)
    {s : Rs F.T} (hr : Run (radau c) RadauOk (clip c ⟨x0, h, false, false, false⟩) s) :
    (0 < s.h.1 ∧ x0.1 ≤ s.x.1 ∧ s.x.1 < c.xend.1) ∧
    ∀ a s', RadauOk a s → radau c a s = .ret s' →
      ((|s'.x.1 - c.xend.1| ≤ F.eps * |c.xend.1| + (1 + F.eps) * (F.eps * |c.xend.1 - x0.1|) ∧
        (c.xend.1 / 2 ≤ x0.1 → s'.x = c.xend)) ∨
      (s'.x.1 ≤ c.xend.1 ∧ c.xend.1 - s'.x.1 ≤ 11 * c.uround.1 * |s'.x.1|)) := by
  have e0 := F.eps_pos
  have I0 : DInv c x0 (clip c ⟨x0, h, false, false, false⟩) := by
    rcases W.clip_eq ⟨x0, h, false, false, false⟩ with ⟨p, e⟩ | ⟨p, e⟩ <;> rw [e]
    · exact ⟨le_rfl, hx, fun _ => rfl, fun h => absurd h (by simp)⟩
    · exact ⟨le_rfl, hx, fun h => absurd h (by simp), fun _ => ⟨W.pre_pos hh, W.pre_le p⟩⟩
  have I : DInv c x0 s := hr.inv I0 fun _ _ _ I ok h => I.next W (he.trans (by norm_num)) ok h
  refine ⟨⟨I.pos, I.ge, I.lt⟩, fun a s' ok h => ?_⟩
  cases a with
  | redo h' => simp [radau] at h
  | half h' => simp [radau] at h
  | acc hnew keep =>
    simp only [radau] at h
    split_ifs at h with h1
    injection h with h
    subst h
    cases hl : s.last
    · right
      obtain ⟨p1, p2⟩ := I.step hl
      rcases h1 with h1 | h1
      · rw [hl] at h1; exact absurd h1 (by decide)
      refine ⟨p2, ?_⟩
      show c.xend.1 - (s.x + s.h).1 ≤ 11 * c.uround.1 * |(s.x + s.h).1|
      rw [W.dist, distF_eq p2, le_val, FP.mul_val, FP.mul_val, W.abs] at h1
      set x := s.x + s.h
      have hu := W.uround
      have d0 : 0 ≤ c.xend.1 - x.1 := by linarith
      have a1 := F.abs_rnd (|x.1| * c.uround.1)
      rw [abs_of_nonneg (show 0 ≤ |x.1| * c.uround.1 by positivity)] at a1
      have a2 := F.err (c.xend.1 - x.1)
      rw [← FP.sub_val, abs_le, abs_of_nonneg d0] at a2
      have a3 := F.err 0.1
      rw [← W.c01, abs_le, abs_of_pos (by norm_num)] at a3
      have d1 : 0 ≤ (c.xend - x).1 := sub_nonneg' p2
      have c0 : 0.098 ≤ c.c01.1 := by linarith [a3.1]
      have a4 := F.err (c.c01.1 * (c.xend - x).1)
      rw [abs_le, abs_of_nonneg (mul_nonneg (by linarith) d1)] at a4
      have a5 : 63 / 64 * (c.xend.1 - x.1) ≤ (c.xend - x).1 := by nlinarith [a2.1]
      have a6 : 0.098 * (63 / 64 * (c.xend.1 - x.1)) ≤ c.c01.1 * (c.xend - x).1 :=
        mul_le_mul c0 a5 (by linarith) (by linarith)
      have a7 : 63 / 64 * (0.098 * (63 / 64 * (c.xend.1 - x.1))) ≤ F.rnd (c.c01.1 * (c.xend - x).1) := by
        nlinarith [a4.1]
      have a8 := (le_abs_self _).trans a1
      have a9 : (1 + F.eps) * (|x.1| * c.uround.1) ≤ 65 / 64 * (|x.1| * c.uround.1) :=
        mul_le_mul_of_nonneg_right (by linarith) (by positivity)
      have : 0 ≤ |x.1| * c.uround.1 := by positivity
      linarith
    · left
      have e : s.x + s.h = s.x + (c.xend - s.x) := by rw [← I.last hl]
      show |(s.x + s.h).1 - c.xend.1| ≤ _ ∧ (_ → s.x + s.h = c.xend)
      rw [e]
      refine ⟨(land_near _ _).trans ?_, fun h3 => land_exact (by linarith [I.ge]) I.lt.le⟩
      have : |c.xend.1 - s.x.1| ≤ |c.xend.1 - x0.1| := by
        rw [abs_of_nonneg (by linarith [I.lt]), abs_of_nonneg (by linarith)]; linarith [I.ge]
      gcongr

/-! ### Examples -/

section ex

variable (F)

/-- a rounded constant. -/
def lit (r : ℝ) : F.T := ⟨F.rnd r, F.rn.flt r⟩

/-- the constants of a call, with `uround=1.e-16`. -/
noncomputable def exCn (xend hm : F.T) : Cn F.T :=
  { xend := xend, posneg := 1, hmaxn := hm, uround := lit F 1e-16, zero := 0, c01 := lit F 0.1
    c10u := lit F (10 * F.rnd 1e-16), c1e6 := lit F 1e-6, c10001 := lit F 1.0001, quot1 := 1
    abs := ABS, min := fun x y => open Classical in if x < y then x else y, dist := distF xend }

theorem exCn_fwd (xend : F.T) {hm : F.T} (h : 0 < hm.1) : Fwd (exCn F xend hm) :=
  { posneg := rfl, zero := rfl, quot1 := rfl, abs := ABS_val
    min := fun x y => by
      show (if x < y then x else y : F.T).1 = _
      split_ifs with h
      · rw [lt_val] at h; rw [min_eq_left h.le]
      · rw [lt_val, not_lt] at h; rw [min_eq_right h]
    dist := rfl, hmaxn := h, c1e6 := rnd_pos F (by norm_num), c10001 := rfl, c01 := rfl
    uround := rnd_pos F (by norm_num) }

/-- the witness of `rodas_float_zero_step` exists. -/
example : ∃ (F : FP) (c : Cn F.T) (x0 h : F.T) (a : An F.T) (s1 s2 s3 : Rs F.T), Fwd c ∧ x0.1 < c.xend.1 ∧
    RodasOk a s1 ∧ rodas c a ⟨x0, h, false, false, false⟩ = .next s1 ∧ rodas c a s1 = .next s2 ∧
    rodas c a s2 = .next s3 ∧ s3 = ⟨c.xend, 0, true, false, true⟩ := by
  obtain ⟨F, hF⟩ := exists_fp 53 (by norm_num)
  have f1 : Flt F.p (1 + 2 ^ (-49 : ℤ)) := ⟨2 ^ 49 + 1, -49, by rw [hF]; norm_num, by norm_num⟩
  have f2 : Flt F.p ((2 : ℝ) ^ (-49 : ℤ)) := Flt.two_zpow F.hp _
  have W := exCn_fwd F ⟨_, f1⟩ (hm := ⟨_, f2⟩) (z2 _)
  obtain ⟨s1, s2, s3, h1, h2, h3, h4, -⟩ := rodas_float_zero_step W hF (x0 := 1) (h := 1) rfl rfl rfl rfl rfl
    (show (2 : ℝ) ^ (-49 : ℤ) ≤ 1 by norm_num) (a := ⟨true, 1⟩) rfl (show (0 : ℝ) < 1 by norm_num) le_rfl ⟨true, 1⟩
  refine ⟨F, _, 1, 1, ⟨true, 1⟩, s1, s2, s3, W, ?_, ⟨(by norm_num : (0 : ℝ) < 1), fun h => absurd h (by simp)⟩,
    h1, h2, h3, h4⟩
  show (1 : ℝ) < 1 + 2 ^ (-49 : ℤ)
  norm_num

theorem exClip (hm : F.T) (h : hm.1 = 1) (he : F.p = 53) :
    clip (exCn F 1 hm) ⟨0, 1, false, false, false⟩ = ⟨0, 1, true, false, false⟩ := by
  have W := exCn_fwd F 1 (hm := hm) (by rw [h]; norm_num)
  have hu : (exCn F 1 hm).c10u.1 ≤ 1 := by
    refine F.rn.le (Flt.one F.hp) ?_
    have : F.rnd 1e-16 ≤ 1 / 16 := F.rn.le ⟨1, -4, by rw [he]; norm_num, by norm_num⟩ (by norm_num)
    linarith
  have hpre : (Fwd.pre (exCn F 1 hm) ⟨0, 1, false, false, false⟩) = 1 := by
    apply Subtype.ext
    unfold Fwd.pre
    rw [W.min, W.abs, if_neg]
    · show min |(1 : ℝ)| hm.1 = 1
      rw [h]; norm_num
    · rw [lt_val, W.abs, not_lt]
      show _ ≤ |(1 : ℝ)|
      rw [abs_one]; exact hu
  rcases W.clip_eq ⟨0, 1, false, false, false⟩ with ⟨_, e⟩ | ⟨p, _⟩
  · rw [e]
    have : (1 : F.T) - 0 = 1 := by
      apply Subtype.ext
      rw [FP.sub_val, FP.one_val, FP.zero_val, sub_zero, F.rn.exact (Flt.one F.hp)]
    show (⟨0, (1 : F.T) - 0, true, false, false⟩ : Rs F.T) = _
    rw [this]
  · exfalso
    rw [hpre, one_mul', FP.add_val] at p
    have h1 : F.rnd ((0 : F.T).1 + (exCn F 1 hm).c10001.1) = F.rnd 1.0001 := by
      rw [FP.zero_val, zero_add]
      exact F.rn.exact (F.rn.flt _)
    have h2 : F.rnd ((0 : F.T).1 + (exCn F 1 hm).c10001.1) ≤ 1 := p
    rw [h1] at h2
    have h3 : (1 + 2 ^ (-14 : ℤ) : ℝ) ≤ F.rnd 1.0001 :=
      F.rn.ge ⟨2 ^ 14 + 1, -14, by rw [he]; norm_num, by norm_num⟩ (by norm_num)
    norm_num at h3
    linarith

/-- a run of Rodas which satisfies the hypotheses of the theorems and returns: one step from 0 to 1. -/
example : ∃ (F : FP) (c : Cn F.T) (s s' : Rs F.T), F.eps ≤ 1 / 2 ^ 20 ∧ Fwd c ∧
    Run (rodas c) (NotTiny c) ⟨0, 1, false, false, false⟩ s ∧ (0 : F.T).1 < c.xend.1 ∧
    rodas c ⟨true, 1⟩ s = .ret s' ∧ s'.x = c.xend := by
  obtain ⟨F, hF⟩ := exists_fp 53 (by norm_num)
  have W := exCn_fwd F 1 (hm := 1) (show (0 : ℝ) < 1 by norm_num)
  have he : F.eps = 1 / 2 ^ 53 := by unfold FP.eps; rw [hF]
  have ok : ∀ s : Rs F.T, s.inner = false ∨ s.h = 1 → NotTiny (exCn F 1 1) ⟨true, 1⟩ s := by
    intro s hs
    refine ⟨⟨show (0 : ℝ) < 1 by norm_num, fun h => absurd h (by simp)⟩, fun _ hi => ?_⟩
    rcases hs with hs | hs
    · rw [hs] at hi; simp at hi
    · rw [hs, he]
      show _ * |(1 : ℝ)| ≤ (1 : ℝ)
      norm_num
  have e1 : rodas (exCn F 1 1) ⟨true, 1⟩ ⟨0, 1, false, false, false⟩ = .next ⟨0, 1, true, false, true⟩ := by
    unfold rodas rodasHead
    rw [if_neg (by simp), if_neg (by simp), if_neg, exClip F 1 rfl hF]
    rw [le_val, FP.mul_val, FP.mul_val, W.abs, W.abs, FP.zero_val, abs_zero, zero_mul, F.rn.exact Flt.zero, not_le]
    refine rnd_pos F (mul_pos (rnd_pos F (by norm_num)) ?_)
    show 0 < |(1 : ℝ)|
    norm_num
  have e2 : ∃ h', rodas (exCn F 1 1) ⟨true, 1⟩ ⟨0, 1, true, false, true⟩ = .next ⟨0 + 1, h', true, false, false⟩ :=
    ⟨_, by unfold rodas rodasBody; simp only [if_true, Bool.false_eq_true, if_false]; rfl⟩
  obtain ⟨h', e2⟩ := e2
  refine ⟨F, exCn F 1 1, _, ⟨0 + 1, h', true, false, false⟩, by rw [he]; norm_num, W,
    (Run.start.next (ok _ (Or.inl rfl)) e1).next (ok _ (Or.inr rfl)) e2, ?_, ?_, ?_⟩
  · show (0 : ℝ) < 1; norm_num
  · unfold rodas
    simp
  · apply Subtype.ext
    show (0 + 1 : F.T).1 = 1
    rw [FP.add_val, FP.zero_val, FP.one_val, zero_add, F.rn.exact (Flt.one F.hp)]

/-- the same for Radau5. -/
example : ∃ (F : FP) (c : Cn F.T) (s s' : Rs F.T), F.eps ≤ 1 / 64 ∧ Fwd c ∧
    Run (radau c) RadauOk (clip c ⟨0, 1, false, false, false⟩) s ∧ (0 : F.T).1 < c.xend.1 ∧
    RadauOk (.acc 1 true) s ∧ radau c (.acc 1 true) s = .ret s' ∧ s'.x = c.xend := by
  obtain ⟨F, hF⟩ := exists_fp 53 (by norm_num)
  have W := exCn_fwd F 1 (hm := 1) (show (0 : ℝ) < 1 by norm_num)
  refine ⟨F, exCn F 1 1, _, ⟨0 + 1, 1, true, false, false⟩, ?_, W, Run.start, ?_, ?_, ?_, ?_⟩
  · unfold FP.eps; rw [hF]; norm_num
  · show (0 : ℝ) < 1; norm_num
  · show (1 : ℝ) ≠ 0; norm_num
  · rw [exClip F 1 rfl hF]
    simp [radau]
  · apply Subtype.ext
    show (0 + 1 : F.T).1 = 1
    rw [FP.add_val, FP.zero_val, FP.one_val, zero_add, F.rn.exact (Flt.one F.hp)]

end ex

end Odes.EndLoop
