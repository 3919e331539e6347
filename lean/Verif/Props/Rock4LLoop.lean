import Verif.Lemmas.Rock4LLoop

/-!
# Rock4-L: the time loop (C61, C62)
-/

namespace Odes.Rock4L

open Matrix
open Classical

variable {n : ℕ}

/-- number of full steps taken on an interval of length `L`. -/
noncomputable def fullSteps (L h : ℝ) : ℕ := ⌈L / h - 1.01⌉₊

/-- length of the last step. -/
noncomputable def lastStep (L h : ℝ) : ℝ := L - fullSteps L h * h

theorem fullSteps_lt {L h : ℝ} (hh : 0 < h) {k : ℕ} (hk : k < fullSteps L h) :
    1.01 * h < L - k * h := by
  have := Nat.lt_ceil.1 hk
  have h2 : ((k : ℝ) + 1.01) * h < L / h * h := mul_lt_mul_of_pos_right (by linarith) hh
  rw [div_mul_cancel₀ _ hh.ne'] at h2
  linarith

/-- The last step is positive, at most `1.01 h`, and more than `0.01 h` unless it is the only
one; with the full steps it makes up the interval. -/
theorem lastStep_bounds {L h : ℝ} (hh : 0 < h) (hL : 0 < L) :
    0 < lastStep L h ∧ lastStep L h ≤ 1.01 * h ∧ (0 < fullSteps L h → 0.01 * h < lastStep L h) ∧
    fullSteps L h * h + lastStep L h = L := by
  have h1 : lastStep L h ≤ 1.01 * h := by
    have := Nat.le_ceil (L / h - 1.01)
    have h2 : L / h * h ≤ ((fullSteps L h : ℝ) + 1.01) * h :=
      mul_le_mul_of_nonneg_right (by unfold fullSteps; linarith) hh.le
    rw [div_mul_cancel₀ _ hh.ne'] at h2
    unfold lastStep
    linarith
  have h2 : 0 < fullSteps L h → 0.01 * h < lastStep L h := by
    intro hm
    have := fullSteps_lt (L := L) (k := fullSteps L h - 1) hh (by omega)
    rw [Nat.cast_sub (by omega)] at this
    push_cast at this
    unfold lastStep
    linarith
  refine ⟨?_, h1, h2, by unfold lastStep; ring⟩
  rcases Nat.eq_zero_or_pos (fullSteps L h) with h0 | h0
  · unfold lastStep
    rw [h0]
    simpa using hL
  · have := h2 h0
    nlinarith

variable {aff : Bool} {O : Oper X n} {T : Tab X} {A : Matrix (Fin n) (Fin n) ℝ} {R : Tab ℝ}

/-- the steps of length `h`. -/
theorem run_full (hok : Ok aff O T A R) {te t0 h ρ : ℝ} {y b : Fin n → ℝ} {p q : ℕ} {s : St n}
    (hi : LInv aff ρ t0 h y b p q s) (hh : 0 < h) (hρ : 0 ≤ ρ)
    (hbig : 1.01 * h * ρ ≤ 1e18) {a b' c : ℤ} :
    ∀ m : ℕ, m ≤ fullSteps (te - t0) h → (0 < m → 1e-15 ≤ h ∧ Chosen ρ h a b' c ∧
      need ρ h ≤ 152) →
      ∃ s' h', run (step aff O T (X.fin te)) m s = .next s' ∧
        LInv aff ρ (t0 + m * h) h'
          ((Spec.Gen.step (formulaOf R a b' c) (rhs aff A b) h)^[m] y) b p q s' ∧
        (h' = h ∨ h' = te - (t0 + m * h) ∧ te < t0 + m * h + h) ∧
        (∀ i, 4 ≤ i → i ≠ p → s'.heap i = s.heap i) ∧
        s'.nsteps = s.nsteps + m ∧ s'.calls = s.calls + m * (a + 4) ∧
        s'.funccal = s.funccal + m * (a + 5) ∧
        s'.nstagesmax = if m = 0 then s.nstagesmax else max s.nstagesmax (a + 4)
  | 0, _, _ => ⟨s, h, rfl, by simpa using hi, Or.inl rfl, fun _ _ _ => rfl, by simp, by simp,
      by simp, by simp⟩
  | m + 1, hm, hc => by
    obtain ⟨c1, c2, c3⟩ := hc (by omega)
    obtain ⟨s1, h1, e1, e2, e3, e4, e5, e6, e7, e8⟩ := run_full (te := te) hok hi hh hρ hbig m
      (by omega)
      (fun _ => ⟨c1, c2, c3⟩)
    have hl := fullSteps_lt (L := te - t0) hh (k := m) (by omega)
    have hh1 : h1 = h := by
      rcases e3 with h | ⟨-, h⟩
      · exact h
      · linarith
    subst hh1
    have hcap : cap te (t0 + m * h1) h1 = h1 := by
      unfold cap
      rw [if_neg (by linarith)]
    have hlt : t0 + m * h1 < te := by linarith
    obtain ⟨a2, b2, d2, s2, f1, f2, f3, f4⟩ := step_real hok e2 hlt (by rw [hcap]; exact c1)
      (by rw [hcap]; positivity) (by rw [hcap]; nlinarith) (by rw [hcap]; exact c3)
    rw [hcap] at f2 f3
    obtain ⟨rfl, rfl, rfl⟩ := f2.unique c2
    refine ⟨s2, if te < t0 + m * h1 + h1 + h1 then te - (t0 + m * h1 + h1) else h1,
      ?_, ?_, ?_, ?_, ?_, ?_, ?_, ?_⟩
    · rw [run_add m 1, e1]
      simp [run, f1]
    · have et : t0 + (m + 1 : ℕ) * h1 = t0 + m * h1 + h1 := by push_cast; ring
      rw [et, Function.iterate_succ_apply']
      exact f3
    · push_cast
      by_cases hcc : te < t0 + m * h1 + h1 + h1
      · right
        rw [if_pos hcc]
        constructor <;> linarith
      · left
        rw [if_neg hcc]
    · intro i hi4 hne
      rw [f4.frame i hi4 (by rw [e2.py]; exact hne), e4 i hi4 hne]
    · rw [f4.nsteps, e5]; push_cast; ring
    · rw [f4.calls, e6]; push_cast; ring
    · rw [f4.funccal, e7]; push_cast; ring
    · rw [f4.stages, e8, if_neg (Nat.succ_ne_zero m)]
      rcases Nat.eq_zero_or_pos m with h0 | h0
      · rw [if_pos h0]
      · rw [if_neg h0.ne', max_assoc, max_self]

/-- conditions under which all full steps are possible. -/
def FullOk (ρ h : ℝ) (m : ℕ) : Prop := 0 < m → 1e-15 ≤ h ∧ need ρ h ≤ 152

theorem chosen_exists {ρ h : ℝ} (h2 : need ρ h ≤ 152) : ∃ a b c, Chosen ρ h a b c := by
  obtain ⟨q1, q2, q3⟩ := Rock4.mdegre_spec (max (need ρ h) 5 - 4) 0 (by omega) (by omega)
  refine ⟨_, _, _, q1, by omega, fun d hd hd' => q3 d hd ?_⟩
  have := MS_pos d hd
  omega

theorem start_inv {t0 h ρ : ℝ} (o : St n) (hu : o.uround = 1.0e-16) (p q : ℕ) (hp : 4 ≤ p)
    (hq : 4 ≤ q) (y b : Fin n → ℝ) (hy : o.heap p = up y)
    (hb : aff = true → o.heap q = up b ∧ q ≠ p) :
    LInv aff ρ t0 h y b p q (start o (X.fin ρ) p q (X.fin t0) (X.fin h)) :=
  ⟨rfl, rfl, hu, rfl, Or.inl rfl, rfl, rfl, hp, hq, hy, hb⟩

theorem cap_last {te t0 h h' : ℝ} (hh : 0 < h) (hL : t0 < te)
    (hc : h' = h ∨ h' = te - (t0 + fullSteps (te - t0) h * h) ∧
      te < t0 + fullSteps (te - t0) h * h + h) :
    cap te (t0 + fullSteps (te - t0) h * h) h' = lastStep (te - t0) h ∧
    t0 + fullSteps (te - t0) h * h < te := by
  obtain ⟨b1, b2, -, b4⟩ := lastStep_bounds hh (sub_pos.2 hL)
  have e : te - (t0 + fullSteps (te - t0) h * h) = lastStep (te - t0) h := by linarith
  refine ⟨?_, by linarith⟩
  unfold cap
  rw [e]
  rcases hc with rfl | ⟨h1, h2⟩
  · rw [if_pos b2]
  · rw [h1, e, if_pos (by linarith)]

/-- **C61** (successful runs) On an interval of positive length `L = tend - t0`, with a step
`h > 0` and spectral radius `ρ ≥ 0`, if the step sizes are neither too small nor too large the
solver returns at `tend` exactly, after `fullSteps L h` steps of length `h` and one of length
`lastStep L h` (see `lastStep_bounds`); the value computed is the composition of the steps of
the ROCK4 formulas with the smallest sufficient degree, for `y' = A y` or `y' = A y + b`;
other arrays are untouched; **C62** (the part that holds) the operator is applied
`degree + 4` times per step and the number reported exceeds this number by the number of
steps. -/
theorem rock4l_run (hok : Ok aff O T A R) {te t0 h ρ : ℝ} (hL : t0 < te) (hh : 0 < h)
    (hρ : 0 ≤ ρ) (hbig : 1.01 * h * ρ ≤ 1e18) (o : St n) (hu : o.uround = 1.0e-16) (p q : ℕ)
    (hp : 4 ≤ p) (hq : 4 ≤ q) (y b : Fin n → ℝ) (hy : o.heap p = up y)
    (hb : aff = true → o.heap q = up b ∧ q ≠ p)
    (hf : FullOk ρ h (fullSteps (te - t0) h)) (hs : 1e-15 ≤ lastStep (te - t0) h)
    (hn : need ρ (lastStep (te - t0) h) ≤ 152) :
    ∃ s' a b1 c a' b1' c',
      Returns (step aff O T (X.fin te)) (start o (X.fin ρ) p q (X.fin t0) (X.fin h)) s' ∧
      (0 < fullSteps (te - t0) h → Chosen ρ h a b1 c) ∧
      Chosen ρ (lastStep (te - t0) h) a' b1' c' ∧
      s'.t = X.fin te ∧ s'.nsteps = fullSteps (te - t0) h + 1 ∧
      s'.heap p = up (Spec.Gen.step (formulaOf R a' b1' c') (rhs aff A b) (lastStep (te - t0) h)
        ((Spec.Gen.step (formulaOf R a b1 c) (rhs aff A b) h)^[fullSteps (te - t0) h] y)) ∧
      (∀ i, 4 ≤ i → i ≠ p → s'.heap i = o.heap i) ∧
      s'.calls = fullSteps (te - t0) h * (a + 4) + (a' + 4) ∧
      s'.funccal = s'.calls + s'.nsteps ∧
      s'.nstagesmax = if fullSteps (te - t0) h = 0 then a' + 4 else max (a + 4) (a' + 4) := by
  obtain ⟨a, b1, c, hch⟩ : ∃ a b1 c, 0 < fullSteps (te - t0) h → Chosen ρ h a b1 c := by
    by_cases hm : 0 < fullSteps (te - t0) h
    · obtain ⟨a, b1, c, h⟩ := chosen_exists (hf hm).2
      exact ⟨a, b1, c, fun _ => h⟩
    · exact ⟨0, 0, 0, fun h => absurd h hm⟩
  have hi := start_inv (t0 := t0) (h := h) (ρ := ρ) (aff := aff) o hu p q hp hq y b hy hb
  obtain ⟨s1, h1, e1, e2, e3, e4, e5, e6, e7, e8⟩ := run_full hok hi hh hρ hbig
    (fullSteps (te - t0) h) le_rfl (fun hm => ⟨(hf hm).1, hch hm, (hf hm).2⟩)
  obtain ⟨hcap, hlt⟩ := cap_last hh hL e3
  obtain ⟨l1, l2, -, l4⟩ := lastStep_bounds hh (sub_pos.2 hL)
  obtain ⟨a', b1', c', s2, f1, f2, f3, f4⟩ := step_real hok e2 hlt (by rw [hcap]; exact hs)
    (by rw [hcap]; positivity) (by rw [hcap]; nlinarith) (by rw [hcap]; exact hn)
  rw [hcap] at f2 f3
  have et : t0 + fullSteps (te - t0) h * h + lastStep (te - t0) h = te := by linarith
  rw [et] at f3
  have ha' : 1 ≤ a' := f2.1.bounds.1
  refine ⟨s2, a, b1, c, a', b1', c', ?_, hch, f2, f3.ht, ?_, f3.hy, ?_, ?_, ?_, ?_⟩
  · refine Reach.returns (t := s2) ⟨fullSteps (te - t0) h + 1, ?_⟩ ?_
    · rw [run_add, e1]
      simp [run, f1]
    · unfold step
      rw [f3.ht, if_neg (by rw [X.fin_lt]; exact lt_irrefl _)]
  · rw [f4.nsteps, e5]
    show (0 : ℤ) + _ + 1 = _
    ring
  · intro i h4 hne
    rw [f4.frame i h4 (by rw [e2.py]; exact hne), e4 i h4 hne]
    rfl
  · rw [f4.calls, e6]
    show (0 : ℤ) + _ + _ = _
    ring
  · rw [f4.funccal, f4.calls, f4.nsteps, e7, e6, e5]
    show (0 : ℤ) + _ + _ = 0 + _ + _ + (0 + _ + _)
    ring
  · rw [f4.stages, e8]
    have e0 : (start o (X.fin ρ) p q (X.fin t0) (X.fin h)).nstagesmax = 0 := rfl
    rw [e0]
    by_cases hm : fullSteps (te - t0) h = 0
    · rw [if_pos hm, if_pos hm]; omega
    · rw [if_neg hm, if_neg hm]
      have := (hch (by omega)).1.bounds.1
      omega

theorem step_throw {te t : ℝ} {s : St n} {e : Exn} (ht : s.t = X.fin t) (hlt : t < te)
    (hc : choose (X.fin te) s = .throw e) : step aff O T (X.fin te) s = .throw e := by
  unfold step
  rw [ht, if_pos (by rw [X.fin_lt]; exact hlt), hc]

theorem throws_of_run {k : ℕ} {s s' : St n} {tend : X} {e : Exn}
    (h : run (step aff O T tend) k s = .next s') (h' : step aff O T tend s' = .throw e) :
    Throws (step aff O T tend) s e :=
  ⟨k + 1, by rw [run_add, h]; simp [run, h']⟩

/-- **C61** (exceptions) A step below `1e-15` raises "step too small": either the given step at
once, or the last one after all the others. -/
theorem rock4l_too_small (hok : Ok aff O T A R) {te t0 h ρ : ℝ} (hL : t0 < te) (hh : 0 < h)
    (hρ : 0 ≤ ρ) (hbig : 1.01 * h * ρ ≤ 1e18) (o : St n) (hu : o.uround = 1.0e-16) (p q : ℕ)
    (hp : 4 ≤ p) (hq : 4 ≤ q) (y b : Fin n → ℝ) (hy : o.heap p = up y)
    (hb : aff = true → o.heap q = up b ∧ q ≠ p)
    (hc : (0 < fullSteps (te - t0) h ∧ h < 1e-15) ∨
      (FullOk ρ h (fullSteps (te - t0) h) ∧ lastStep (te - t0) h < 1e-15)) :
    Throws (step aff O T (X.fin te)) (start o (X.fin ρ) p q (X.fin t0) (X.fin h))
      .stepTooSmall := by
  have hi := start_inv (t0 := t0) (h := h) (ρ := ρ) (aff := aff) o hu p q hp hq y b hy hb
  rcases hc with ⟨hm, hs⟩ | ⟨hf, hs⟩
  · have := fullSteps_lt hh hm
    refine throws_of_run (k := 0) rfl (step_throw hi.ht hL
      (choose_small te t0 h _ hi.ht hi.hh hi.hu hL ?_))
    unfold cap
    rw [if_neg (by simp at this; linarith)]
    exact hs
  · obtain ⟨a, b1, c, hch⟩ : ∃ a b1 c, 0 < fullSteps (te - t0) h → Chosen ρ h a b1 c := by
      by_cases hm : 0 < fullSteps (te - t0) h
      · obtain ⟨a, b1, c, h⟩ := chosen_exists (hf hm).2
        exact ⟨a, b1, c, fun _ => h⟩
      · exact ⟨0, 0, 0, fun h => absurd h hm⟩
    obtain ⟨s1, h1, e1, e2, e3, -⟩ := run_full hok hi hh hρ hbig
      (fullSteps (te - t0) h) le_rfl (fun hm => ⟨(hf hm).1, hch hm, (hf hm).2⟩)
    obtain ⟨hcap, hlt⟩ := cap_last hh hL e3
    exact throws_of_run e1 (step_throw e2.ht hlt
      (choose_small te _ h1 _ e2.ht e2.hh e2.hu hlt (by rw [hcap]; exact hs)))

/-- **C61** (exceptions) A step needing more than 152 stages raises "degree limited". -/
theorem rock4l_too_large_partial (hok : Ok aff O T A R) {te t0 h ρ : ℝ} (hL : t0 < te)
    (hh : 0 < h) (hρ : 0 ≤ ρ) (hbig : 1.01 * h * ρ ≤ 1e18) (o : St n) (hu : o.uround = 1.0e-16)
    (p q : ℕ) (hp : 4 ≤ p) (hq : 4 ≤ q) (y b : Fin n → ℝ) (hy : o.heap p = up y)
    (hb : aff = true → o.heap q = up b ∧ q ≠ p)
    (hc : (0 < fullSteps (te - t0) h ∧ 1e-15 ≤ h ∧ 152 < need ρ h) ∨
      (FullOk ρ h (fullSteps (te - t0) h) ∧ 1e-15 ≤ lastStep (te - t0) h ∧
        152 < need ρ (lastStep (te - t0) h))) :
    Throws (step aff O T (X.fin te)) (start o (X.fin ρ) p q (X.fin t0) (X.fin h))
      .degreeTooLarge := by
  have hi := start_inv (t0 := t0) (h := h) (ρ := ρ) (aff := aff) o hu p q hp hq y b hy hb
  rcases hc with ⟨hm, hs, hn⟩ | ⟨hf, hs, hn⟩
  · have := fullSteps_lt hh hm
    have hcap : cap te t0 h = h := by
      unfold cap
      rw [if_neg (by simp at this; linarith)]
    exact throws_of_run (k := 0) rfl (step_throw hi.ht hL
      (choose_large te t0 h ρ _ hi.ht hi.hh hi.hu hi.he hL (by rw [hcap]; exact hs)
        (by rw [hcap]; positivity) (by rw [hcap]; nlinarith) (by rw [hcap]; exact hn)))
  · obtain ⟨a, b1, c, hch⟩ : ∃ a b1 c, 0 < fullSteps (te - t0) h → Chosen ρ h a b1 c := by
      by_cases hm : 0 < fullSteps (te - t0) h
      · obtain ⟨a, b1, c, h⟩ := chosen_exists (hf hm).2
        exact ⟨a, b1, c, fun _ => h⟩
      · exact ⟨0, 0, 0, fun h => absurd h hm⟩
    obtain ⟨s1, h1, e1, e2, e3, -⟩ := run_full hok hi hh hρ hbig
      (fullSteps (te - t0) h) le_rfl (fun hm => ⟨(hf hm).1, hch hm, (hf hm).2⟩)
    obtain ⟨hcap, hlt⟩ := cap_last hh hL e3
    obtain ⟨l1, l2, -, l4⟩ := lastStep_bounds hh (sub_pos.2 hL)
    exact throws_of_run e1 (step_throw e2.ht hlt
      (choose_large te _ h1 ρ _ e2.ht e2.hh e2.hu e2.he hlt (by rw [hcap]; exact hs)
        (by rw [hcap]; positivity) (by rw [hcap]; nlinarith) (by rw [hcap]; exact hn)))

/-- **C61** A step that is not positive raises "step too small", before anything is written. -/
theorem rock4l_nonpositive {te t0 h : ℝ} (hL : t0 < te) (hh : h ≤ 0) (ρ : X) (o : St n)
    (hu : o.uround = 1.0e-16) (p q : ℕ) :
    step aff O T (X.fin te) (start o ρ p q (X.fin t0) (X.fin h)) = .throw .stepTooSmall := by
  refine step_throw (t := t0) rfl hL (choose_small te t0 h _ rfl rfl hu hL ?_)
  unfold cap
  rw [if_neg (by linarith)]
  norm_num
  linarith

/-- An interval that is empty is returned from at once, with nothing changed. -/
theorem rock4l_empty {te t0 : ℝ} (hL : te ≤ t0) (h ρ : X) (o : St n) (p q : ℕ) :
    step aff O T (X.fin te) (start o ρ p q (X.fin t0) h)
      = .ret (start o ρ p q (X.fin t0) h) := by
  unfold step
  rw [if_neg]
  show ¬ (X.fin t0 < X.fin te)
  rw [X.fin_lt]
  exact not_lt.2 hL

/-- **C61** (negation) "Too large steps raise an exception" fails when the product of step and
spectral radius is so large that the number of stages does not fit an `int`: the conversion
is undefined behaviour. Witness: `h = 1`, `ρ = 2e19`. -/
theorem rock4l_huge_step_ub (o : St n) (hu : o.uround = 1.0e-16) (p q : ℕ) :
    step aff O T (X.fin 1) (start o (X.fin 2e19) p q (X.fin 0) (X.fin 1))
      = .ub .intConversion := by
  unfold step
  rw [if_pos (show (start o (X.fin 2e19) p q (X.fin 0) (X.fin 1)).t < X.fin 1 by
    show X.fin 0 < X.fin 1
    rw [X.fin_lt]; norm_num)]
  have hc : choose (X.fin 1) (start o (X.fin 2e19) p q (X.fin 0) (X.fin 1))
      = .ub .intConversion := by
    unfold choose
    have hcap : cap 1 0 1 = 1 := by
      unfold cap
      rw [if_pos (by norm_num)]; norm_num
    have e1 : (start o (X.fin 2e19) p q (X.fin 0) (X.fin 1)).uround = 1.0e-16 := hu
    have e2 : (start o (X.fin 2e19) p q (X.fin 0) (X.fin 1)).t = X.fin 0 := rfl
    have e3 : (start o (X.fin 2e19) p q (X.fin 0) (X.fin 1)).h = X.fin 1 := rfl
    have e4 : (start o (X.fin 2e19) p q (X.fin 0) (X.fin 1)).eigmax = X.fin 2e19 := rfl
    simp only [e1, e2, e3, e4, cap_X 1 0 1 one_pos, hcap]
    rw [if_neg (by rw [X.ofSci_eq, X.ofSci_eq, X.fin_mul, X.fin_lt]; norm_num)]
    have e5 : ((3.0 : X) + X.fin 1 * X.fin 2e19) / 0.353 = X.fin ((3 + 2e19) / 0.353) := by
      rw [X.fin_mul, X.ofSci_eq, X.ofSci_eq, X.fin_add, X.fin_div _ _ (by norm_num)]
      norm_num
    rw [e5, X.sqrt_fin_nonneg (by norm_num), X.one_eq, X.fin_add]
    have hs : (2147483648 : ℝ) ≤ Real.sqrt ((3 + 2e19) / 0.353) := by
      apply Real.le_sqrt_of_sq_le
      norm_num
    have : X.toInt (X.fin (Real.sqrt ((3 + 2e19) / 0.353) + 1)) = none := by
      unfold X.toInt
      simp only
      rw [if_pos (show (0 : ℝ) ≤ Real.sqrt ((3 + 2e19) / 0.353) + 1 by linarith), if_neg]
      rintro ⟨-, h2⟩
      have : (2147483648 : ℤ) ≤ ⌊Real.sqrt ((3 + 2e19) / 0.353) + 1⌋ := by
        rw [Int.le_floor]; push_cast; linarith
      omega
    rw [this]
  rw [hc]

/-- **C62** (negation) After every successful run on a nonempty interval the number of right
hand sides reported differs from the number of applications of the operator. -/
theorem rock4l_count_wrong (hok : Ok aff O T A R) {te t0 h ρ : ℝ} (hL : t0 < te) (hh : 0 < h)
    (hρ : 0 ≤ ρ) (hbig : 1.01 * h * ρ ≤ 1e18) (o : St n) (hu : o.uround = 1.0e-16) (p q : ℕ)
    (hp : 4 ≤ p) (hq : 4 ≤ q) (y b : Fin n → ℝ) (hy : o.heap p = up y)
    (hb : aff = true → o.heap q = up b ∧ q ≠ p)
    (hf : FullOk ρ h (fullSteps (te - t0) h)) (hs : 1e-15 ≤ lastStep (te - t0) h)
    (hn : need ρ (lastStep (te - t0) h) ≤ 152) :
    ∃ s', Returns (step aff O T (X.fin te)) (start o (X.fin ρ) p q (X.fin t0) (X.fin h)) s' ∧
      s'.calls < s'.funccal := by
  obtain ⟨s', a, b1, c, a', b1', c', h1, -, -, -, h2, -, -, -, h3, -⟩ := rock4l_run hok hL hh hρ
    hbig o hu p q hp hq y b hy hb hf hs hn
  exact ⟨s', h1, by rw [h3, h2]; omega⟩

/-- a number as a real (arbitrary for non finite ones). -/
def down : X → ℝ
  | .fin r => r
  | _ => 0

/-- the shipped kind of operator, extended to non finite numbers in some way. -/
noncomputable def extOp (A : Matrix (Fin n) (Fin n) ℝ) : Oper X n where
  op5 v s a b := up ((shipOp A).op5 (down ∘ v) (down ∘ s) (down a) (down b))
  op6 v s a b g := up ((shipOp A).op6 (down ∘ v) (down ∘ s) (down a) (down b) (down ∘ g))
  op7 v s a b c := up ((shipOp A).op7 (down ∘ v) (down ∘ s) (down a) (down b) (down c))
  op8 v s a b c g :=
    up ((shipOp A).op8 (down ∘ v) (down ∘ s) (down a) (down b) (down c) (down ∘ g))

/-- The hypotheses of `rock4l_run` are met: any matrix, any table, the interval `[0,1]` with
`h = 1/2` and `ρ = 0` (one full step and a last one of the same length). -/
example (A : Matrix (Fin n) (Fin n) ℝ) (R : Tab ℝ) :
    Ok aff (extOp A) ⟨fun i => X.fin (R.recf i), fun i j => X.fin (R.fpa i j),
      fun i j => X.fin (R.fpb i j)⟩ A R :=
  ⟨fun _ => rfl, fun _ _ => rfl, fun _ _ => rfl, fun _ _ _ _ => rfl, fun _ _ _ _ _ _ => rfl,
    fun _ _ _ _ _ _ => rfl, fun _ _ _ _ _ _ _ => rfl⟩

example : fullSteps (1 - 0) (1 / 2) = 1 ∧ lastStep (1 - 0) (1 / 2) = 1 / 2 ∧
    need 0 (1 / 2) ≤ 152 := by
  have h1 : fullSteps (1 - 0) (1 / 2) = 1 := by
    unfold fullSteps
    rw [Nat.ceil_eq_iff (by norm_num)]
    norm_num
  refine ⟨h1, ?_, ?_⟩
  · unfold lastStep
    rw [h1]
    norm_num
  · have : need 0 (1 / 2) < 153 := by
      unfold need
      rw [Int.floor_lt]
      have : Real.sqrt ((3 + 1 / 2 * 0) / 0.353) < 100 := by
        rw [Real.sqrt_lt' (by norm_num)]
        norm_num
      push_cast
      linarith
    omega

end Odes.Rock4L
