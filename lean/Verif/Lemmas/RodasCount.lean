import Verif.Lemmas.RodasLoop

/-! Counters, history of the controller, NaN, termination of Rodas. -/

namespace Odes.Rodas

open Classical

variable {n : ℕ} {L : Lin X n} {P : Prob X n} {g : Cfg n} {q : ℝ}

/-! ### counters -/

structure CInv (s : St n L.σ) : Prop where
  nstep : s.nstep = s.naccpt + s.rejs
  ndec : s.ndec = s.nstep
  naccpt : s.naccpt = s.taken.length
  njac : s.njac = s.naccpt + if s.inner then 1 else 0
  rejs : 0 ≤ s.rejs
  nrejct : 0 ≤ s.nrejct ∧ s.nrejct ≤ s.rejs
  early : s.naccpt ≤ 1 → s.nrejct = 0
  first : ∀ a ∈ s.taken.getLast?, s.firstAcceptedStep = a

theorem cinv_start (o : St n L.σ) (h x xe : X) (y : Fin n → X) : CInv (start o h x xe y) := by
  constructor <;> simp [start]

theorem cinv_accepted {s : St n L.σ} (hs : CInv s) (hi : s.inner = true) (j : L.σ)
    (Y : Fin n → X) (err : X) :
    let t := accepted g s j Y err false
    t.nstep = t.naccpt + t.rejs ∧ t.ndec = t.nstep ∧ t.naccpt = t.taken.length ∧
    t.njac = t.naccpt ∧ (∀ a ∈ t.taken.getLast?, t.firstAcceptedStep = a) := by
  refine ⟨?_, ?_, ?_, ?_, ?_⟩
  · show s.nstep + 1 = s.naccpt + 1 + s.rejs
    rw [hs.nstep]; ring
  · show s.ndec + 1 = s.nstep + 1
    rw [hs.ndec]
  · show s.naccpt + 1 = ((s.h :: s.taken).length : ℤ)
    rw [List.length_cons, hs.naccpt]; push_cast; ring
  · show s.njac = s.naccpt + 1
    rw [hs.njac, hi]; simp
  · show ∀ a ∈ (s.h :: s.taken).getLast?,
      (if s.naccpt = 0 then s.h else s.firstAcceptedStep) = a
    intro a ha
    have hn := hs.naccpt
    have hf := hs.first
    cases ht : s.taken with
    | nil =>
      rw [ht] at ha hn
      simp at ha hn
      rw [if_pos hn]; exact ha
    | cons b l =>
      rw [ht] at ha hn hf
      rw [if_neg (by rw [hn]; simp; omega)]
      rw [List.getLast?_cons_cons] at ha
      exact hf a ha

theorem cinv_step {s s' : St n L.σ} (hs : CInv s) (h : step L P g s = .next s') : CInv s' := by
  rcases step_cases h with ⟨hi, hl, -, rfl⟩ | ⟨hi, j, k, err, -, he, ⟨h1, rfl⟩ | ⟨h1, -, -, rfl⟩⟩
  · refine ⟨hs.nstep, hs.ndec, hs.naccpt, ?_, hs.rejs, hs.nrejct, hs.early, hs.first⟩
    show s.njac + 1 = s.naccpt + if true = true then 1 else 0
    rw [hs.njac, hi]; simp
  · have hrej : (rejected g s j err).nrejct = if s.naccpt > 1 then s.nrejct + 1 else s.nrejct := rfl
    have hn1 : (rejected g s j err).naccpt = s.naccpt := rfl
    have hr1 : (rejected g s j err).rejs = s.rejs + 1 := rfl
    refine ⟨?_, ?_, hs.naccpt, hs.njac, ?_, ?_, ?_, hs.first⟩
    · show s.nstep + 1 = s.naccpt + (s.rejs + 1)
      rw [hs.nstep]; ring
    · show s.ndec + 1 = s.nstep + 1
      rw [hs.ndec]
    · rw [hr1]; have := hs.rejs; omega
    · rw [hrej, hr1]; have := hs.nrejct; split_ifs <;> omega
    · rw [hrej, hn1]
      intro hc
      rw [if_neg (by omega)]
      exact hs.early hc
  · obtain ⟨a1, a2, a3, a4, a5⟩ := cinv_accepted (g := g) hs hi j k.YNEW err
    refine ⟨a1, a2, a3, ?_, hs.rejs, hs.nrejct, ?_, a5⟩
    · rw [a4]; show _ = _ + if false = true then 1 else 0; simp
    · intro hc
      have : s.naccpt + 1 ≤ 1 := hc
      exact hs.early (by omega)

theorem cinv_reach {o : St n L.σ} {h x xe : X} {y : Fin n → X} {s : St n L.σ}
    (hr : Reach (step L P g) (start o h x xe y) s) : CInv s :=
  Reach.inv (I := CInv) (fun _ _ hI hst => cinv_step hI hst) (cinv_start o h x xe y) hr

/-! ### memory of the controller -/

/-- `hacc`, `erracc` when they are used. -/
def GInv (g : Cfg n) (s : St n L.σ) : Prop :=
  g.gustafssonTest = true → ∀ a l, s.taken = a :: l →
    s.hacc = a ∧ ∃ b, s.erracc = .fin b ∧ 0.01 ≤ b

theorem le_one_fin {err : X} (he : err = .nan ∨ err = .pinf ∨ ∃ r, 0 ≤ r ∧ err = .fin r)
    (h1 : err ≤ 1.0) : ∃ e, err = .fin e ∧ 0 ≤ e ∧ e ≤ 1 := by
  rcases he with rfl | rfl | ⟨r, hr, rfl⟩
  · simp at h1
  · simp at h1
  · rw [X.ofSci_eq, X.fin_le] at h1
    exact ⟨r, rfl, hr, by norm_num at h1; exact h1⟩

theorem ginv_step {s s' : St n L.σ} (hs : GInv g s) (h : step L P g s = .next s') : GInv g s' := by
  rcases step_cases h with ⟨hi, hl, -, rfl⟩ | ⟨hi, j, k, err, -, he, ⟨h1, rfl⟩ | ⟨h1, -, -, rfl⟩⟩
  · exact hs
  · exact hs
  · intro hgu a l hal
    have h2 : s.h :: s.taken = a :: l := hal
    injection h2 with h2 h3
    refine ⟨?_, ?_⟩
    · show (if _ then _ else _) = _
      rw [if_pos hgu]; exact h2
    · obtain ⟨e, e1, e2, e3⟩ := le_one_fin (he ▸ errNorm_values _ _ _) h1
      refine ⟨max 0.01 e, ?_, le_max_left _ _⟩
      show (if _ then _ else _) = _
      rw [if_pos hgu, e1, X.ofSci_eq, X.MAX_fin]
      congr 1; norm_num

theorem ginv_reach {o : St n L.σ} {h x xe : X} {y : Fin n → X} {s : St n L.σ}
    (hr : Reach (step L P g) (start o h x xe y) s) : GInv g s :=
  Reach.inv (I := GInv g) (fun _ _ hI hst => ginv_step hI hst)
    (fun _ a l hal => by simp [start] at hal) hr

/-- the proposal after an accepted step. -/
theorem hnewAcc_range (hg : Std g q) {s : St n L.σ} (hc : CInv s) (hs : GInv g s) {hh : ℝ}
    (h : s.h = .fin hh) (h0 : hh ≠ 0) (ht : ∀ a ∈ s.taken, ∃ r, a = .fin r) {e : ℝ} (he : 0 ≤ e) :
    ∃ f, hnewAcc g s (.fin e) = .fin (hh / f) ∧ 1 / 6 ≤ f ∧ f ≤ 5 := by
  unfold hnewAcc
  have hf := facOf_fin hg he
  generalize hv : max (1 / 6) (min 5 (Real.sqrt (Real.sqrt e) / q)) = v at hf
  have v1 : 1 / 6 ≤ v := hv ▸ le_max_left _ _
  have v2 : v ≤ 5 := hv ▸ max_le (by norm_num) (min_le_left _ _)
  by_cases hb : g.gustafssonTest = true ∧ s.naccpt + 1 > 1
  · rw [if_pos hb]
    have hl := hc.naccpt
    cases htk : s.taken with
    | nil => rw [htk] at hl; simp at hl; omega
    | cons a l =>
      obtain ⟨g1, b, g2, g3⟩ := hs hb.1 a l htk
      obtain ⟨r, hr⟩ := ht a (by rw [htk]; simp)
      have hb0 : 0 < b := by norm_num at g3; linarith
      have hee : 0 ≤ e * e / b := by positivity
      rw [g1, hr, g2, h, X.fin_div _ _ h0, X.fin_mul, X.fin_div _ _ hb0.ne', X.sqrt_fin_nonneg hee,
        X.sqrt_fin_nonneg (Real.sqrt_nonneg _), X.fin_mul, hg.safe, X.fin_div _ _ hg.q0.ne',
        clampFac_fin hg, hf, X.MAX_fin]
      generalize hw : max (1 / 6) (min 5 (r / hh * Real.sqrt (Real.sqrt (e * e / b)) / q)) = w
      have w2 : w ≤ 5 := hw ▸ max_le (by norm_num) (min_le_left _ _)
      have m1 : 1 / 6 ≤ max v w := le_max_of_le_left v1
      refine ⟨max v w, X.fin_div _ _ (by linarith), m1, max_le v2 w2⟩
  · rw [if_neg hb, hf, h]
    exact ⟨v, X.fin_div _ _ (by linarith), v1, v2⟩

/-! ### NaN -/

/-- solving with a matrix whose factorisation was made with the shift NaN gives NaN. -/
def NanProp (L : Lin X n) : Prop :=
  ∀ s s', L.decomr .nan s = some s' → ∀ b, ∃ i, L.solvereal s' b i = .nan

theorem foldl_nan (f : Fin n → X) : ∀ (l : List (Fin n)),
    l.foldl (fun err i => err + f i) .nan = .nan
  | [] => rfl
  | i :: l => by rw [List.foldl_cons, X.nan_add]; exact foldl_nan f l

theorem foldl_nan_of_mem (f : Fin n → X) {i : Fin n} (hi : f i = .nan) : ∀ (l : List (Fin n)) (a : X),
    i ∈ l → l.foldl (fun err i => err + f i) a = .nan
  | [], _, h => by simp at h
  | k :: l, a, h => by
    rw [List.foldl_cons]
    rcases List.mem_cons.1 h with h | h
    · rw [← h, hi, X.add_nan]; exact foldl_nan f l
    · exact foldl_nan_of_mem f hi l _ h

theorem pow_two_nan : X.pow .nan 2 = .nan := by unfold X.pow; simp

theorem errNorm_nan {Y YNEW AK6 : Fin n → X} {i : Fin n} (h : AK6 i = .nan) :
    errNorm g Y YNEW AK6 = .nan := by
  unfold errNorm
  rw [foldl_nan_of_mem (fun i => X.pow (AK6 i / (g.atol i + g.rtol i *
    X.MAX (X.ABS (Y i)) (X.ABS (YNEW i)))) 2) (i := i) (by
      show X.pow (AK6 i / _) 2 = _
      rw [h, X.nan_div]; exact pow_two_nan) _ _ (List.mem_finRange i), X.nan_div, X.sqrt_nan]

theorem attempt_nan (hN : NanProp L) {c : Coef X} {x : X} {Y DY1 FX : Fin n → X}
    {s j : L.σ} {k : Stages X n} (h : attempt L P c x .nan Y DY1 FX s = some (j, k)) :
    ∃ i, k.AK6 i = .nan := by
  unfold attempt at h
  rw [X.nan_mul, X.div_nan] at h
  cases hd : L.decomr .nan s with
  | none => rw [hd] at h; simp at h
  | some s' =>
    rw [hd] at h
    simp only [Option.map_some, Option.some.injEq, Prod.mk.injEq] at h
    obtain ⟨-, h⟩ := h
    rw [← h]
    exact hN s s' hd _

/-- once the step size is NaN, every attempt is rejected. -/
theorem nan_step (hN : NanProp L) {s s' : St n L.σ} (hi : s.inner = true) (hh : s.h = .nan)
    (h : step L P g s = .next s') : s'.inner = true ∧ s'.h = .nan ∧ s'.x = s.x ∧
      s'.nstep = s.nstep + 1 ∧ s'.taken = s.taken := by
  rcases step_cases h with ⟨hi', -, -, rfl⟩ | ⟨-, j, k, err, ha, he, hb⟩
  · rw [hi] at hi'; simp at hi'
  · rw [hh] at ha
    obtain ⟨i, hk⟩ := attempt_nan hN ha
    rw [errNorm_nan hk] at he
    rcases hb with ⟨h1, rfl⟩ | ⟨h1, -⟩
    · refine ⟨hi, ?_, rfl, rfl, rfl⟩
      show s.h / _ = _
      rw [hh]; simp
    · rw [he] at h1; simp at h1

/-! ### termination -/

/-- attempts left before the limit. -/
def left (g : Cfg n) (s : St n L.σ) : ℕ := (g.nmax + 1 - s.nstep).toNat

theorem left_step {s s' : St n L.σ} (h : step L P g s = .next s') :
    left g s' ≤ left g s ∧ (s'.inner = false → left g s' < left g s) := by
  unfold left
  rcases step_cases h with ⟨hi, hl, -, rfl⟩ | ⟨hi, j, k, err, -, he, ⟨h1, rfl⟩ | ⟨h1, h2, -, rfl⟩⟩
  · exact ⟨le_rfl, fun hc => by simp [prepared] at hc⟩
  · have : (rejected g s j err).nstep = s.nstep + 1 := rfl
    rw [this]
    refine ⟨by omega, fun hc => ?_⟩
    have : s.inner = false := hc
    rw [hi] at this; simp at this
  · have : (accepted g s j k.YNEW err false).nstep = s.nstep + 1 := rfl
    rw [this]
    exact ⟨by omega, fun _ => by omega⟩

theorem left_run {s t : St n L.σ} : ∀ k, run (step L P g) k s = .next t →
    left g t ≤ left g s ∧ (1 ≤ k → t.inner = false → left g t < left g s) := by
  intro k
  induction k generalizing t with
  | zero =>
    intro h
    injection h with h
    subst h
    exact ⟨le_rfl, by omega⟩
  | succ k ih =>
    intro h
    rw [run_add] at h
    cases hr : run (step L P g) k s with
    | next u =>
      rw [hr] at h
      simp only [run] at h
      cases hst : step L P g u with
      | next v =>
        rw [hst] at h
        simp only [Res.next.injEq] at h
        subst h
        obtain ⟨a1, a2⟩ := left_step hst
        obtain ⟨b1, -⟩ := ih hr
        exact ⟨a1.trans b1, fun _ hc => (a2 hc).trans_le b1⟩
      | ret x => rw [hst] at h; simp at h
      | throw x => rw [hst] at h; simp at h
      | ub x => rw [hst] at h; simp at h
    | ret x => rw [hr] at h; simp at h
    | throw x => rw [hr] at h; simp at h
    | ub x => rw [hr] at h; simp at h

theorem Diverges.tail {σ : Type} {st : σ → Res σ} {s t : σ} (hd : Diverges st s) {k : ℕ}
    (hk : run st k s = .next t) : Diverges st t := by
  intro j
  obtain ⟨u, hu⟩ := hd (k + j)
  rw [run_add, hk] at hu
  exact ⟨u, hu⟩

/-- an infinite run stays for ever inside one `do` loop. -/
theorem diverges_inner : ∀ (a : ℕ) {s : St n L.σ}, left g s = a → Diverges (step L P g) s →
    ∃ k0, ∀ k, k0 ≤ k → ∃ t, run (step L P g) k s = .next t ∧ t.inner = true := by
  intro a
  induction a using Nat.strong_induction_on with
  | _ a ih =>
    intro s ha hd
    by_cases hall : ∀ k, 1 ≤ k → ∀ t, run (step L P g) k s = .next t → t.inner = true
    · refine ⟨1, fun k hk => ?_⟩
      obtain ⟨t, ht⟩ := hd k
      exact ⟨t, ht, hall k hk t ht⟩
    · push Not at hall
      obtain ⟨k, hk, t, ht, hti⟩ := hall
      have hlt := (left_run k ht).2 hk (by simpa using hti)
      obtain ⟨k0, h0⟩ := ih (left g t) (ha ▸ hlt) rfl (Diverges.tail hd ht)
      refine ⟨k + k0, fun m hm => ?_⟩
      obtain ⟨u, hu, hui⟩ := h0 (m - k) (by omega)
      refine ⟨u, ?_, hui⟩
      have e : m = k + (m - k) := by omega
      rw [e, run_add, ht]
      exact hu

end Odes.Rodas
