import Verif.Lemmas.RodasRuns
import Verif.Props.Vec

/-! # Rodas: properties C35 - C45, C76, C77 -/

namespace Odes.Rodas

open Classical

variable {n : ℕ} {L : Lin X n} {P : Prob X n} {g : Cfg n} {q : ℝ}

/-! ### C37: where the integration stops -/

/-- C37: when Rodas returns (one-step mode off) the time is `xend`, for every right hand side
(including one returning NaN or infinities), every starting point, end point, direction and initial
step (including NaN). -/
theorem rodas_returns_at_xend (hg : Std g q) (ho : g.onlyOneStep = false) {o : St n L.σ} {h : X}
    {x xe : ℝ} {y : Fin n → X} {s : St n L.σ}
    (hr : Returns (step L P g) (start o h (.fin x) (.fin xe) y) s) : s.x = .fin xe := by
  obtain ⟨t, h1, h2⟩ := hr.last
  rcases step_ret h2 with ⟨hi, hl, rfl⟩ | ⟨-, h3, -⟩
  · exact (inv_reach hg h1).done hi hl
  · rw [ho] at h3; simp at h3

example : ∃ (L : Lin X 1) (P : Prob X 1) (g : Cfg 1) (o : St 1 L.σ) (h : X) (y : Fin 1 → X)
    (s : St 1 L.σ), Std g 0.9 ∧ g.onlyOneStep = false ∧
    Returns (step L P g) (start o h (.fin 0) (.fin 1) y) s := by
  obtain ⟨c, hc⟩ : ∃ c, rocoe 1 = some c := ⟨_, rfl⟩
  obtain ⟨s, y, hs, -⟩ := run_const hc
  exact ⟨_, _, _, wO, .fin 0.4, fins fun _ => 0, s, wG_std c false, rfl, hs⟩

/-- a list of step sizes leads from `x0` to `x0 + Σ`. -/
theorem sumTo_eq (x0 : ℝ) (l : List ℝ) : sumTo x0 l = x0 + l.sum := by
  induction l with
  | nil => simp [sumTo]
  | cons a l ih => rw [sumTo, ih, List.sum_cons]; ring

/-- C37: forward, in every reachable state the accepted steps are positive, so accepted times are
strictly increasing, and they stay in `[x0,xend]`.  The factorisation and solve may do anything
except hide a NaN shift (`NanProp`); no hypothesis on the right hand side. -/
theorem rodas_times_in_interval (hN : NanProp L) (hg : Std g q) {o : St n L.σ} {h : X} {x0 xe : ℝ}
    (hx : x0 < xe) {y : Fin n → X} {s : St n L.σ}
    (hr : Reach (step L P g) (start o h (.fin x0) (.fin xe) y) s) :
    ∃ l : List ℝ, s.taken = l.map X.fin ∧ (∀ d ∈ l, 0 < d) ∧ s.x = .fin (x0 + l.sum) ∧
      x0 + l.sum ≤ xe := by
  have key : FInv x0 xe s ∧ s.x ≠ .nan := by
    refine Reach.inv (I := fun s => FInv x0 xe s ∧ s.x ≠ .nan) ?_
      ⟨finv_start o h hx y, by simp [start]⟩ hr
    rintro s s' ⟨h1, h2⟩ hst
    refine ⟨finv_step hg hx h1 hst, ?_⟩
    rcases h1.pos with ⟨p1, -⟩ | ⟨l, p1, p2, p3, p4, p5, p6, p7⟩
    · exact absurd p1 h2
    · rcases step_cases hst with ⟨hi, hl, hn, rfl⟩ | ⟨hi, j, k, err, -, he, ⟨-, rfl⟩ | ⟨-, -, -, rfl⟩⟩
      · exact h2
      · exact h2
      · rcases p7 hi with ⟨a1, a2, a3⟩ | ⟨hh, a1, a2, a3, a4⟩
        · rw [(nan_step hN hi a1 hst).2.2.1]; exact h2
        · show s.x + s.h ≠ _
          rw [p3, a1, X.fin_add]; simp
  obtain ⟨h1, h2⟩ := key
  rcases h1.pos with ⟨p1, -⟩ | ⟨l, p1, p2, p3, p4, p5, p6, p7⟩
  · exact absurd p1 h2
  · exact ⟨l, p1, p2, by rw [p3, sumTo_eq], by rw [← sumTo_eq]; exact p5⟩

example : NanProp (exactLinX 3) := exactLin_nan (by norm_num)

/-! ### C76, C45: backward integration and empty interval -/

/-- times and steps of a run which goes the wrong way or stays where it is. -/
structure Away (x0 xe : ℝ) (s : St n L.σ) : Prop where
  base : Inv x0 xe s
  last : s.last = false
  x : s.x = .nan ∨ ∃ r, s.x = .fin r ∧ x0 ≤ r ∧ (xe = x0 → r = x0)
  h : s.inner = true → s.h = .nan ∨ ∃ r, s.h = .fin r ∧ 0 ≤ r ∧ (xe = x0 → r = 0)

theorem away_reach (hg : Std g q) {o : St n L.σ} {h : X} {x0 xe : ℝ}
    (hx : (xe < x0 ∧ 0 ≤ x0 + xe) ∨ xe = x0) {y : Fin n → X} {s : St n L.σ}
    (hr : Reach (step L P g) (start o h (.fin x0) (.fin xe) y) s) : Away x0 xe s := by
  refine Reach.inv (I := Away x0 xe) ?_ ⟨inv_start o h x0 xe y, rfl,
    Or.inr ⟨x0, rfl, le_rfl, fun _ => rfl⟩, fun hi => by simp [start] at hi⟩ hr
  rintro s s' hs hst
  have hb := inv_step hg hs.base hst
  rcases step_cases hst with ⟨hi, hl, hn, rfl⟩ | ⟨hi, j, k, err, -, he, ⟨h1, rfl⟩ | ⟨h1, -, -, rfl⟩⟩
  · have ht : ∃ v, hTop g s = .fin v ∧ 0 ≤ v ∧ (xe = x0 → v = 0) := by
      unfold hTop
      rw [hs.base.hmaxn, hs.base.posneg]
      obtain ⟨v, v1, v2, v3, -⟩ := MIN_ABS_fin
        (if X.ABS s.h < 10.0 * g.uround then 1.0e-6 else s.h)
        (min |xe - x0| (if x0 ≤ xe then xe - x0 else -xe - x0))
      rw [v1, X.fin_mul]
      refine ⟨_, rfl, ?_, ?_⟩
      · rcases hx with ⟨hlt, hp⟩ | rfl
        · rw [if_neg (not_le.2 hlt)] at v2 ⊢
          have := v2.trans (min_le_right _ _)
          linarith
        · rw [if_pos le_rfl, sub_self, abs_zero, min_self] at v3
          rw [if_pos le_rfl, mul_one]
          exact v3 le_rfl
      · rintro rfl
        rw [if_pos le_rfl, sub_self, abs_zero, min_self] at v2 v3
        rw [if_pos le_rfl, mul_one]
        exact le_antisymm v2 (v3 le_rfl)
    obtain ⟨v, hv, v0, vz⟩ := ht
    have hO : ¬ Over g s := by
      rcases hs.x with h2 | ⟨r, h2, h3, h4⟩
      · exact not_over_nan h2
      · rw [over_iff hs.base hv h2]
        have e : v ≤ v * 1.0001 := by norm_num; linarith
        rcases hx with ⟨hlt, hp⟩ | rfl
        · rw [if_neg (not_le.2 hlt)]; linarith
        · rw [if_pos le_rfl, vz rfl, h4 rfl]; simp
    refine ⟨hb, ?_, hs.x, fun _ => ?_⟩
    · rw [prepared_last, if_neg hO]; exact hs.last
    · right; rw [prepared_h, if_neg hO]; exact ⟨v, hv, v0, vz⟩
  · refine ⟨hb, rfl, hs.x, fun _ => ?_⟩
    have hh' : (rejected g s j err).h = s.h / facOf g err := rfl
    rw [hh']
    rcases hs.h hi with h2 | ⟨r, h2, h3, h4⟩
    · left; rw [h2]; simp
    · rcases facOf_range hg (he ▸ errNorm_values _ _ _) with ⟨-, hf⟩ | ⟨f, hf, b1, b2, b3⟩
      · left; rw [hf]; simp
      · right
        have b0 : 0 < f := by linarith
        refine ⟨r / f, by rw [hf, h2, X.fin_div _ _ b0.ne'], by positivity, fun hc => ?_⟩
        rw [h4 hc, zero_div]
  · refine ⟨hb, hs.last, ?_, fun hc => by simp [accepted] at hc⟩
    have hx' : (accepted g s j k.YNEW err false).x = s.x + s.h := rfl
    rw [hx']
    rcases hs.x with h2 | ⟨r, h2, h3, h4⟩
    · left; rw [h2]; simp
    · rcases hs.h hi with h5 | ⟨r', h5, h6, h7⟩
      · left; rw [h5]; simp
      · right
        refine ⟨r + r', by rw [h2, h5, X.fin_add], by linarith, fun hc => ?_⟩
        rw [h4 hc, h7 hc, add_zero]

/-- C76 fails: backward integration from `x0 > xend` with `x0 + xend ≥ 0` never reaches `xend`: no
call returns (one-step mode off), and the time never gets below `x0`, for every right hand side and
every initial step.  (The maximal step is computed by `ABS(xend-x)`, which expands to
`-xend-x < 0`.) -/
theorem rodas_backward_never_returns (hg : Std g q) (ho : g.onlyOneStep = false) {o : St n L.σ}
    {h : X} {x0 xe : ℝ} (hx : xe < x0) (hp : 0 ≤ x0 + xe) {y : Fin n → X} :
    (∀ s, ¬ Returns (step L P g) (start o h (.fin x0) (.fin xe) y) s) ∧
    ∀ s, Reach (step L P g) (start o h (.fin x0) (.fin xe) y) s →
      s.x = .nan ∨ ∃ r, s.x = .fin r ∧ x0 ≤ r := by
  constructor
  · intro s hr
    obtain ⟨t, h1, h2⟩ := hr.last
    have ha := away_reach hg (Or.inl ⟨hx, hp⟩) h1
    rcases step_ret h2 with ⟨hi, hl, rfl⟩ | ⟨-, h3, -⟩
    · rw [ha.last] at hl; simp at hl
    · rw [ho] at h3; simp at h3
  · intro s hr
    rcases (away_reach hg (Or.inl ⟨hx, hp⟩) hr).x with h1 | ⟨r, h1, h2, -⟩
    · exact Or.inl h1
    · exact Or.inr ⟨r, h1, h2⟩

example : (1 : ℝ) < 2 ∧ (0 : ℝ) ≤ 2 + 1 := by norm_num

/-- C45 fails for Rodas: from `x` to `x` no call returns (one-step mode off): it throws or goes on
for ever, the step size being 0. -/
theorem rodas_empty_interval_never_returns (hg : Std g q) (ho : g.onlyOneStep = false)
    {o : St n L.σ} {h : X} {x : ℝ} {y : Fin n → X} :
    ∀ s, ¬ Returns (step L P g) (start o h (.fin x) (.fin x) y) s := by
  intro s hr
  obtain ⟨t, h1, h2⟩ := hr.last
  have ha := away_reach hg (Or.inr rfl) h1
  rcases step_ret h2 with ⟨hi, hl, rfl⟩ | ⟨-, h3, -⟩
  · rw [ha.last] at hl; simp at hl
  · rw [ho] at h3; simp at h3

/-! ### C38: step limit and termination -/

/-- C38: at the head of the `while` loop and at a return the number of attempts is at most `nmax`. -/
theorem rodas_step_limit (hn : 0 ≤ g.nmax) {o : St n L.σ} {h x xe : X} {y : Fin n → X} :
    (∀ s, Reach (step L P g) (start o h x xe y) s → s.inner = false → s.nstep ≤ g.nmax) ∧
    ∀ s, Returns (step L P g) (start o h x xe y) s → s.nstep ≤ g.nmax := by
  have key : ∀ s, Reach (step L P g) (start o h x xe y) s → s.inner = false → s.nstep ≤ g.nmax := by
    intro s hr
    refine Reach.inv (I := fun s => s.inner = false → s.nstep ≤ g.nmax) ?_ (fun _ => hn) hr
    rintro s s' - hst
    rcases step_cases hst with ⟨-, -, -, rfl⟩ | ⟨hi, j, k, err, -, -, ⟨-, rfl⟩ | ⟨-, h1, -, rfl⟩⟩
    · intro hc; simp [prepared] at hc
    · intro hc; simp [rejected, hi] at hc
    · intro _; exact h1
  refine ⟨key, fun s hr => ?_⟩
  obtain ⟨t, h1, h2⟩ := hr.last
  rcases step_ret h2 with ⟨hi, hl, rfl⟩ | ⟨-, -, j, k, err, -, -, -, h3, rfl⟩
  · exact key _ h1 hi
  · exact h3

/-- C38, what holds: forward integration terminates for every real right hand side which is bounded
near every point (for instance continuous, see `boundedNear_of_continuous`), every safety factor
below 1, positive absolute tolerances, linear algebra which solves the systems or throws. -/
theorem rodas_terminates_partial {Lr : Lin ℝ n} {Q : Prob ℝ n} {c : Coef ℝ} {a r : Fin n → ℝ}
    {Shape : (Fin n → Fin n → ℝ) → Prop} (hn : 0 < n) (hq : Std g q) (hq1 : q < 1)
    (hL : LinX L Lr) (hS : LinSpec Lr Shape) (hP : ProbX P Q) (hg : RealCfg g c a r)
    (hγ : 0 < c.GAMMA) (hSh : ∀ x y, Shape (jacR Q x y)) (hF : ∀ x y, Spec.BoundedNear Q.F x y)
    {x0 xe : ℝ} (hx : x0 < xe) (y0 : Fin n → ℝ) (o : St n L.σ) (h : X) :
    Terminates (step L P g) (start o h (.fin x0) (.fin xe) (fins y0)) :=
  terminates_real hn hq hq1 hL hS hP hg hγ hSh hF hx y0 o h

/-- the hypotheses are met by the default object and any continuous scalar right hand side. -/
example {meth : ℤ} {c : Coef ℚ} (hc : rocoe meth = some c) (f : ℝ → ℝ → ℝ)
    (hf : Continuous fun p : ℝ × ℝ => f p.1 p.2) (h : X) (y0 : Fin 1 → ℝ) :
    Terminates (step (exactLinX 1) (lift (wQ fun x y _ => f x (y 0))) (wG c false))
      (start wO h (.fin 0) (.fin 1) (fins y0)) := by
  refine rodas_terminates_partial one_pos (wG_std c false) (by norm_num) (exactLin_finite 1)
    (exactLin_spec 1) (lift_probX _) (wG_real hc false) ?_ (fun _ _ => trivial) ?_ one_pos y0 wO h
  · show (0 : ℝ) < ((c.GAMMA : ℚ) : ℝ)
    rw [gamma_pos hc]; norm_num
  · intro x y
    refine Spec.boundedNear_of_continuous ?_ x y
    refine continuous_pi fun i => ?_
    exact hf.comp (continuous_fst.prodMk ((continuous_apply 0).comp continuous_snd))

/-- C38 fails: with a right hand side which returns NaN the call never ends: the step limit is not
tested inside the loop of rejected attempts. -/
theorem rodas_nan_never_ends {meth : ℤ} {c : Coef ℚ} (hc : rocoe meth = some c) (one : Bool) :
    ∃ (L : Lin X 1) (P : Prob X 1) (o : St 1 L.σ) (y : Fin 1 → X), NanProp L ∧
      ¬ Terminates (step L P (wG c one)) (start o (.fin 0.5) (.fin 0) (.fin 1) y) :=
  ⟨exactLinX 1, nanProb, wO, fins fun _ => 0, exactLin_nan one_pos,
    (run_nan hc one).1.not_terminates⟩

/-- C38: an infinite run stays for ever inside one `do` loop, that is all its attempts from some
point on are rejected attempts of the same step. -/
theorem rodas_infinite_run {o : St n L.σ} {h x xe : X} {y : Fin n → X}
    (hd : Diverges (step L P g) (start o h x xe y)) :
    ∃ k0, ∀ k, k0 ≤ k → ∃ t, run (step L P g) k (start o h x xe y) = .next t ∧ t.inner = true :=
  diverges_inner _ rfl hd

/-! ### C39: step size selection -/

/-- C39: a rejected attempt divides the step size by a factor in `(1,5]`, unless the error estimate
is NaN; every safety factor in `(0,1]`. -/
theorem rodas_rejection_shrinks (hg : Std g q) {s s' : St n L.σ} (hi : s.inner = true)
    (hst : step L P g s = .next s') (hrej : s'.taken = s.taken) {hh : ℝ} (hh0 : s.h = .fin hh) :
    s'.reject = true ∧ s'.x = s.x ∧ s'.Y = s.Y ∧ s'.last = false ∧
    (s'.h = .nan ∨ ∃ f, s'.h = .fin (hh / f) ∧ 1 < f ∧ f ≤ 5) := by
  rcases step_cases hst with ⟨hi', -⟩ | ⟨-, j, k, err, -, he, ⟨h1, rfl⟩ | ⟨-, -, -, rfl⟩⟩
  · rw [hi] at hi'; simp at hi'
  · refine ⟨rfl, rfl, rfl, rfl, ?_⟩
    have e : (rejected g s j err).h = s.h / facOf g err := rfl
    rw [e, hh0]
    rcases facOf_range hg (he ▸ errNorm_values _ _ _) with ⟨-, hf⟩ | ⟨f, hf, b1, b2, b3⟩
    · left; rw [hf]; simp
    · right
      exact ⟨f, by rw [hf, X.fin_div _ _ (by linarith)], (b3 h1).1, b2⟩
  · have : s.h :: s.taken = s.taken := hrej
    simp at this

theorem limit_range {s : St n L.σ} {m v hh : ℝ} (hm : s.hmaxn = .fin m) (hp : s.posneg = .fin 1)
    (hs : s.h = .fin hh) (h0 : 0 < hh) (h1 : hh ≤ m) (hv : 0 < v) (hv1 : hh / 5 ≤ v)
    (hv2 : v ≤ 6 * hh) :
    ∃ h', limit s (.fin v) = .fin h' ∧ hh / 5 ≤ h' ∧ h' ≤ 6 * hh ∧ h' ≤ m ∧
      (s.reject = true → h' ≤ hh) := by
  have key : (if s.hmaxn < X.ABS (.fin v) then s.posneg * s.hmaxn else .fin v) = .fin (min v m) := by
    rw [hm, hp, X.ABS_fin, abs_of_pos hv]
    split_ifs with h2
    · rw [X.fin_lt] at h2
      rw [X.fin_mul, one_mul, min_eq_right h2.le]
    · rw [X.fin_lt, not_lt] at h2
      rw [min_eq_left h2]
  have m0 : 0 < min v m := lt_min hv (by linarith)
  have m1 : hh / 5 ≤ min v m := le_min hv1 (by linarith)
  unfold limit
  rw [key]
  cases hr : s.reject with
  | false =>
    rw [if_neg (by decide)]
    exact ⟨_, rfl, m1, (min_le_left _ _).trans hv2, min_le_right _ _, fun h => by simp at h⟩
  | true =>
    rw [if_pos rfl, hp, hs, X.ABS_fin, X.ABS_fin, X.MIN_fin, X.fin_mul, one_mul, abs_of_pos m0,
      abs_of_pos h0]
    refine ⟨_, rfl, le_min m1 (by linarith), (min_le_right _ _).trans (by linarith),
      (min_le_right _ _).trans h1, fun _ => min_le_right _ _⟩

/-- C39: after an accepted step `hh` of a forward run, the next step size is in `[hh/5, 6 hh]`,
at most the length of the interval, and at most `hh` if the step had been rejected before. -/
theorem rodas_step_ratio (hg : Std g q) {o : St n L.σ} {h : X} {x0 xe : ℝ} (hx : x0 < xe)
    {y : Fin n → X} {s s' : St n L.σ} (hr : Reach (step L P g) (start o h (.fin x0) (.fin xe) y) s)
    (hst : step L P g s = .next s' ∨ step L P g s = .ret s') {hh : ℝ} (hh0 : s.h = .fin hh)
    {xs : ℝ} (hxs : s.x = .fin xs)
    (hacc : s'.taken = s.h :: s.taken) :
    ∃ h', s'.h = .fin h' ∧ hh / 5 ≤ h' ∧ h' ≤ 6 * hh ∧ h' ≤ xe - x0 ∧
      (s.reject = true → h' ≤ hh) := by
  have key : s.inner = true ∧ ∃ (j : L.σ) (k : Stages X n) (err : X) (b : Bool),
      err = errNorm g s.Y k.YNEW k.AK6 ∧ err ≤ 1.0 ∧
      s' = accepted g s j k.YNEW err b := by
    rcases hst with hst | hst
    · rcases step_cases hst with ⟨-, -, -, rfl⟩ | ⟨hi, j, k, err, -, he, ⟨h1, rfl⟩ | ⟨h1, -, -, rfl⟩⟩
      · have : s.taken = s.h :: s.taken := hacc
        simp at this
      · have : s.taken = s.h :: s.taken := hacc
        simp at this
      · exact ⟨hi, j, k, err, false, he, h1, rfl⟩
    · rcases step_ret hst with ⟨-, -, rfl⟩ | ⟨hi, -, j, k, err, -, he, h1, -, rfl⟩
      · simp at hacc
      · exact ⟨hi, j, k, err, true, he, h1, rfl⟩
  obtain ⟨hi, j, k, err, b, he, h1, rfl⟩ := key
  have hf := finv_reach hg hx hr
  obtain ⟨p0, p1, p2⟩ := hf.h_pos hi hxs hh0
  obtain ⟨e, rfl, e0, e1⟩ := le_one_fin (he ▸ errNorm_values _ _ _) h1
  have htk : ∀ a ∈ s.taken, ∃ r, a = .fin r := by
    rcases hf.pos with ⟨p1, -⟩ | ⟨l, p1, -⟩
    · rw [hxs] at p1; simp at p1
    · intro a ha
      rw [p1] at ha
      obtain ⟨r, -, rfl⟩ := List.mem_map.1 ha
      exact ⟨r, rfl⟩
  obtain ⟨f, f1, f2, f3⟩ := hnewAcc_range hg (cinv_reach hr) (ginv_reach hr) hh0 p0.ne' htk e0
  have hm : s.hmaxn = .fin (xe - x0) := by
    rw [hf.base.hmaxn, if_pos hx.le, abs_of_nonneg (by linarith), min_self]
  have hp : s.posneg = .fin 1 := by rw [hf.base.posneg, if_pos hx.le]
  have hfp : 0 < f := by linarith
  have e' : (accepted g s j k.YNEW (.fin e) b).h = limit s (hnewAcc g s (.fin e)) := rfl
  rw [e', f1]
  refine limit_range hm hp hh0 p0 (by linarith) (by positivity) ?_ ?_
  · exact div_le_div_of_nonneg_left p0.le hfp f3
  · rw [div_le_iff₀ hfp]; nlinarith

/-- C39 fails for a NaN estimate: the step size becomes NaN. -/
theorem rodas_nan_step_size {meth : ℤ} {c : Coef ℚ} (hc : rocoe meth = some c) :
    ∃ (L : Lin X 1) (P : Prob X 1) (o s : St 1 L.σ) (y : Fin 1 → X),
      Reach (step L P (wG c false)) (start o (.fin 0.5) (.fin 0) (.fin 1) y) s ∧
      s.inner = true ∧ s.h = .nan := by
  obtain ⟨-, s, h1, h2, h3⟩ := run_nan hc false
  exact ⟨exactLinX 1, nanProb, wO, s, fins fun _ => 0, h1, h2, h3⟩

/-! ### C40, C41: the method -/

/-- C40: factorisation and stages compute a step of the six-stage Rosenbrock method, over any
field, for any number of components and right hand side; the linear algebra solves the systems it
factorises (`LinSpec`). -/
theorem rodas_stages {K : Type} [Field K] {L : Lin K n} {Shape : (Fin n → Fin n → K) → Prop}
    (hL : LinSpec L Shape) (P : Prob K n) (c : Coef K) (x h : K) (Y FX : Fin n → K)
    {J : Fin n → Fin n → K} {s j : L.σ} {k : Stages K n} (hJ : hL.R J s)
    (ha : attempt L P c x h Y (P.F x Y) FX s = some (j, k)) :
    hL.R J j ∧ (method c).Step P.F (Matrix.of J) (if P.autonms then 0 else FX) x h Y
      ![k.AK1, k.AK2, k.AK3, k.AK4, k.AK5, k.AK6] k.YNEW := by
  unfold attempt at ha
  cases hd : L.decomr (1 / (h * c.GAMMA)) s with
  | none => rw [hd] at ha; simp at ha
  | some s' =>
    rw [hd] at ha
    simp only [Option.map_some, Option.some.injEq, Prod.mk.injEq] at ha
    obtain ⟨rfl, rfl⟩ := ha
    obtain ⟨h1, h2⟩ := hL.decomr J s _ _ hJ hd
    exact ⟨h1, stages_solve h2 (stages_chain L P c x h Y (P.F x Y) FX s')⟩

/-- C40: a run on real data which returns has performed a sequence of Rosenbrock steps of positive
sizes from the initial value to `xend`, with the Jacobian and time derivative computed by the code
at the beginning of each step, each of them with weighted error estimate at most 1; the solution
held by the object is the result of the last one, and the sizes are those the object records for its
accepted steps. -/
theorem rodas_run_is_rosenbrock {Lr : Lin ℝ n} {Q : Prob ℝ n} {c : Coef ℝ} {a r : Fin n → ℝ}
    {Shape : (Fin n → Fin n → ℝ) → Prop} (hn : 0 < n) (hq : Std g q)
    (hL : LinX L Lr) (hS : LinSpec Lr Shape) (hP : ProbX P Q) (hg : RealCfg g c a r)
    (hSh : ∀ x y, Shape (jacR Q x y)) (ho : g.onlyOneStep = false)
    {x0 xe : ℝ} (hx : x0 < xe) {y0 : Fin n → ℝ} {o : St n L.σ} {h : X} {s : St n L.σ}
    (hr : Returns (step L P g) (start o h (.fin x0) (.fin xe) (fins y0)) s) :
    ∃ (y : Fin n → ℝ) (l : List ℝ), s.x = .fin xe ∧ s.Y = fins y ∧ s.taken = l.map X.fin ∧
      Spec.StepList (fun x h y ynew => ∃ k, (method c).Step Q.F (Matrix.of (jacR Q x y))
        (dfxR Q x y) x h y k ynew ∧ Spec.wrms a r y ynew (k 5) ≤ 1) x0 y0 l xe y := by
  have hxe := rodas_returns_at_xend hq ho hr
  obtain ⟨t, h1, h2⟩ := hr.last
  rcases step_ret h2 with ⟨hi, hl, rfl⟩ | ⟨-, h3, -⟩
  · obtain ⟨-, x, y, hR⟩ := rinv_reach hn hq hL hS hP hg hSh hx h1
    have : x = xe := X.fin_inj.1 (hR.time.symm.trans hxe)
    subst this
    obtain ⟨l, l1, l2⟩ := hR.list
    exact ⟨y, l, hR.time, hR.Y, l1, l2⟩
  · rw [ho] at h3; simp at h3

example {meth : ℤ} {c : Coef ℚ} (hc : rocoe meth = some c) :
    ∃ s y, Returns (step (exactLinX 1) (lift (wQ fun _ _ _ => 1)) (wG c false))
      (start wO (.fin 0.4) (.fin 0) (.fin 1) (fins fun _ => 0)) s ∧ s.Y = fins y := by
  obtain ⟨s, y, hs, -, -, -, hy, -⟩ := run_const hc
  exact ⟨s, _, hs, hy⟩

/-- C41: each of the three coefficient sets is the implementation form of a Rosenbrock method
(the relation between `a`, `c`, `gamma`, `m` and the classical coefficients holds exactly), whose
nodes `alpha_i`, `gamma_i` are the row sums, which is of order 4 and whose embedded method is of
order 3, all up to `1e-14`. -/
theorem rodas_tables {meth : ℤ} {c : Coef ℚ} (hc : rocoe meth = some c) :
    ∃ M : Spec.Classic ℚ 6, (method c).SameAs M ∧ M.Nodes (method c) 1e-14 ∧
      M.Order4 M.b 1e-14 ∧ M.Order3 (fun j => ∑ k, (method c).a 5 k * M.gam k j) 1e-14 ∧
      (∀ i, M.gam i i = (method c).gamma) ∧
      (∀ i j, ¬ j < i → M.alpha i j = 0) ∧ (∀ i j, i < j → M.gam i j = 0) := by
  have hg := good hc
  have key : ∀ m ∈ [(1 : ℤ), 2, 3], ∀ c ∈ rocoe m, (∀ i, (classic c).gam i i = (method c).gamma) ∧
      (∀ i j, ¬ j < i → (classic c).alpha i j = 0) ∧ (∀ i j, i < j → (classic c).gam i j = 0) := by
    decide +kernel
  obtain ⟨k1, k2, k3⟩ := key meth (by rcases rocoe_cases hc with h | h | h <;> simp [h]) c hc
  exact ⟨classic c, method_same hc, hg.2.1, hg.2.2.1, hg.2.2.2, k1, k2, k3⟩

/-- C41: the methods exist exactly for the numbers 1, 2, 3. -/
theorem rodas_methods (meth : ℤ) : (∃ c, rocoe meth = some c) ↔ meth = 1 ∨ meth = 2 ∨ meth = 3 := by
  constructor
  · rintro ⟨c, hc⟩; exact rocoe_cases hc
  · rintro (rfl | rfl | rfl) <;> exact ⟨_, rfl⟩

/-- C41: every step of the implementation form is a step of the classical form of the same
coefficients. -/
theorem rodas_step_classic {meth : ℤ} {c : Coef ℚ} (hc : rocoe meth = some c) {h : ℝ} (h0 : h ≠ 0)
    {F : ℝ → (Fin n → ℝ) → Fin n → ℝ} {J : Matrix (Fin n) (Fin n) ℝ} {ft : Fin n → ℝ} {x : ℝ}
    {y : Fin n → ℝ} {u : Fin 6 → Fin n → ℝ} {ynew : Fin n → ℝ}
    (hs : (method c.real).Step F J ft x h y u ynew) :
    ∃ k : Fin 6 → Fin n → ℝ, (classicR c).Step (method c.real).alpha (method c.real).d F J ft x h y
      k ynew := by
  obtain ⟨l1, l2⟩ := method_lower c.real
  obtain ⟨k, -, hk⟩ := Spec.Rosenbrock.step_classic (method_same_real hc) l1 l2 h0 hs
  exact ⟨k, hk⟩

/-! ### C43, C77: counters -/

/-- C43, what holds: in every reachable state and at every return the number of attempts is the
number of accepted steps plus the number of rejected attempts, each attempt factorises once, and
`getNrejct` is between 0 and the number of rejected attempts; it is 0 as long as at most one step
was accepted (so always, in one-step mode). -/
theorem rodas_counters_partial {o : St n L.σ} {h x xe : X} {y : Fin n → X} {s : St n L.σ}
    (hr : Reach (step L P g) (start o h x xe y) s ∨ Returns (step L P g) (start o h x xe y) s) :
    s.nstep = s.naccpt + s.rejs ∧ s.ndec = s.nstep ∧ s.naccpt = s.taken.length ∧
    0 ≤ s.nrejct ∧ s.nrejct ≤ s.rejs ∧ (s.naccpt ≤ 1 → s.nrejct = 0) := by
  rcases hr with hr | hr
  · have hc := cinv_reach hr
    exact ⟨hc.nstep, hc.ndec, hc.naccpt, hc.nrejct.1, hc.nrejct.2, hc.early⟩
  · obtain ⟨t, h1, h2⟩ := hr.last
    have hc := cinv_reach h1
    rcases step_ret h2 with ⟨-, -, rfl⟩ | ⟨hi, -, j, k, err, -, -, -, -, rfl⟩
    · exact ⟨hc.nstep, hc.ndec, hc.naccpt, hc.nrejct.1, hc.nrejct.2, hc.early⟩
    · obtain ⟨a1, a2, a3, -⟩ := cinv_accepted (g := g) hc hi j k.YNEW err
      refine ⟨a1, a2, a3, hc.nrejct.1, hc.nrejct.2, fun hle => ?_⟩
      have : t.naccpt + 1 ≤ 1 := hle
      exact hc.early (by omega)

/-- C43 fails: two attempts, one accepted step, no rejection reported. -/
theorem rodas_counters_wrong {meth : ℤ} {c : Coef ℚ} (hc : rocoe meth = some c) :
    ∃ (L : Lin X 1) (P : Prob X 1) (o s : St 1 L.σ) (y : Fin 1 → X),
      Returns (step L P (wG c true)) (start o (.fin 1) (.fin 0) (.fin 2) y) s ∧
      s.nstep ≠ s.naccpt + s.nrejct := by
  obtain ⟨s, h1, h2, h3, h4, -⟩ := run_spike hc
  exact ⟨_, _, wO, s, _, h1, by rw [h2, h3, h4]; decide⟩

/-- C77: at every return `getfirstAcceptedStep` is the size of the first accepted step, provided a
step was accepted (forward, with `rodas_returns_at_xend`, this is always the case). -/
theorem rodas_first_step {o : St n L.σ} {h x xe : X} {y : Fin n → X} {s : St n L.σ}
    (hr : Returns (step L P g) (start o h x xe y) s) (hne : s.taken ≠ []) :
    s.firstAcceptedStep = s.taken.getLast hne := by
  obtain ⟨t, h1, h2⟩ := hr.last
  have hc := cinv_reach h1
  rcases step_ret h2 with ⟨-, -, rfl⟩ | ⟨hi, -, j, k, err, -, -, -, -, rfl⟩
  · exact hc.first _ (by rw [List.getLast?_eq_getLast_of_ne_nil hne]; rfl)
  · obtain ⟨-, -, -, -, a5⟩ := cinv_accepted (g := g) hc hi j k.YNEW err
    exact a5 _ (by
      have e : (accepted g t j k.YNEW err false).taken = (accepted g t j k.YNEW err true).taken := rfl
      rw [e, List.getLast?_eq_getLast_of_ne_nil hne]; rfl)

example {meth : ℤ} {c : Coef ℚ} (hc : rocoe meth = some c) :
    ∃ s, Returns (step (exactLinX 1) (lift (wQ fun _ _ _ => 1)) (wG c false))
      (wStart 0.4 0 1) s ∧ s.taken ≠ [] := by
  obtain ⟨s, y, hs, -, ht, -⟩ := run_const hc
  exact ⟨s, hs, by rw [ht]; simp⟩

/-! ### C44: the reported last step -/

/-- C44 fails: `y' = 1` on `[0,1]` with first step 0.4: the last step taken is 0.6,
`getLastTimeStep` (the member `h`) returns 1. -/
theorem rodas_lastTimeStep_wrong {meth : ℤ} {c : Coef ℚ} (hc : rocoe meth = some c) :
    ∃ (L : Lin X 1) (P : Prob X 1) (o s : St 1 L.σ) (y : Fin 1 → X),
      Returns (step L P (wG c false)) (start o (.fin 0.4) (.fin 0) (.fin 1) y) s ∧
      s.taken.head? = some (.fin 0.6) ∧ s.h = .fin 1 := by
  obtain ⟨s, y, h1, h2, h3, h4, -⟩ := run_const hc
  exact ⟨_, _, wO, s, _, h1, by rw [h3]; rfl, h4⟩

/-- invariant: `h` is the proposal computed from the last step taken. -/
theorem proposal_reach (hN : NanProp L) (hg : Std g q) {o : St n L.σ} {h : X} {x0 xe : ℝ}
    (hx : x0 < xe) {y : Fin n → X} {s : St n L.σ}
    (hr : Reach (step L P g) (start o h (.fin x0) (.fin xe) y) s) :
    s.inner = false → ∀ a ∈ s.taken.head?, ∃ d h', a = .fin d ∧ s.h = .fin h' ∧ d / 5 ≤ h' ∧
      h' ≤ 6 * d ∧ h' ≤ xe - x0 := by
  have key : Reach (step L P g) (start o h (.fin x0) (.fin xe) y) s ∧ (s.inner = false →
      ∀ a ∈ s.taken.head?, ∃ d h', a = .fin d ∧ s.h = .fin h' ∧ d / 5 ≤ h' ∧ h' ≤ 6 * d ∧
        h' ≤ xe - x0) := by
    refine Reach.inv (I := fun s => Reach (step L P g) (start o h (.fin x0) (.fin xe) y) s ∧
      (s.inner = false → ∀ a ∈ s.taken.head?, ∃ d h', a = .fin d ∧ s.h = .fin h' ∧ d / 5 ≤ h' ∧
        h' ≤ 6 * d ∧ h' ≤ xe - x0)) ?_
      ⟨Reach.refl _ _, fun _ a ha => by simp [start] at ha⟩ hr
    rintro s s' ⟨hr, hI⟩ hst
    refine ⟨hr.tail hst, fun hi' a ha => ?_⟩
    rcases step_cases hst with ⟨-, -, -, rfl⟩ | ⟨hi, j, k, err, -, he, ⟨h1, rfl⟩ | ⟨h1, -, -, rfl⟩⟩
    · simp [prepared] at hi'
    · simp [rejected, hi] at hi'
    · obtain ⟨l, -, -, hl, -⟩ := rodas_times_in_interval hN hg hx hr
      have hf := finv_reach hg hx hr
      have hh : ∃ hh, s.h = .fin hh := by
        rcases hf.pos with ⟨p1, -⟩ | ⟨l, p1, p2, p3, p4, p5, p6, p7⟩
        · rw [hl] at p1; simp at p1
        · rcases p7 hi with ⟨a1, -⟩ | ⟨hh, a1, -⟩
          · have h2 := (nan_step hN hi a1 hst).2.2.2.2
            have : s.h :: s.taken = s.taken := h2
            simp at this
          · exact ⟨hh, a1⟩
      obtain ⟨hh, hh1⟩ := hh
      obtain ⟨h', b1, b2, b3, b4, -⟩ := rodas_step_ratio hg hx hr (Or.inl hst) hh1 hl rfl
      refine ⟨hh, h', ?_, b1, b2, b3, b4⟩
      have : a ∈ (s.h :: s.taken).head? := ha
      simp at this
      rw [← this, hh1]
  exact key.2

/-- C44, what holds: the value reported is the proposal for a next step: between 1/5 and 6 times
the last step taken and at most the length of the interval. -/
theorem rodas_lastTimeStep_partial (hN : NanProp L) (hg : Std g q) (ho : g.onlyOneStep = false)
    {o : St n L.σ} {h : X} {x0 xe : ℝ} (hx : x0 < xe) {y : Fin n → X} {s : St n L.σ}
    (hr : Returns (step L P g) (start o h (.fin x0) (.fin xe) y) s) :
    ∃ d h', s.taken.head? = some (.fin d) ∧ s.h = .fin h' ∧ d / 5 ≤ h' ∧ h' ≤ 6 * d ∧
      h' ≤ xe - x0 := by
  have hxe := rodas_returns_at_xend hg ho hr
  obtain ⟨t, h1, h2⟩ := hr.last
  rcases step_ret h2 with ⟨hi, hl, rfl⟩ | ⟨-, h3, -⟩
  · obtain ⟨l, l1, -, l3, -⟩ := rodas_times_in_interval hN hg hx h1
    cases l with
    | nil =>
      rw [hxe] at l3
      simp at l3
      exact absurd l3 hx.ne'
    | cons d l =>
      have hh : s.taken.head? = some (.fin d) := by rw [l1]; rfl
      obtain ⟨d', h', b1, b2, b3⟩ := proposal_reach hN hg hx h1 hi _ hh
      rw [X.fin_inj] at b1
      subst b1
      exact ⟨d, h', hh, b2, b3⟩
  · rw [ho] at h3; simp at h3

end Odes.Rodas
