import Verif.Lemmas.RadauLoop

/-! Radau5: the invariant of backward integration with `x0 + xend < 0`, where the macro `ABS` applied
to `xend - x` gives a positive value.  It mirrors `Run` of `RadauLoop.lean`; `m` is the value of
`hmaxn`. -/

namespace Odes.Radau

open Classical

variable {n : ℕ} {L : Lin X n} {P : Prob X n} {g : Cfg n} {sf u : ℝ}

/-- states of a backward integration: `l` lists the lengths of the accepted steps, `hh` the length of
the current one. -/
structure BRun (g : Cfg n) (sf x0 xe m : ℝ) (s : St n L.σ) : Prop where
  phase : s.phase ≠ .init
  posneg : s.posneg = .fin (-1)
  hmaxn : s.hmaxn = .fin m
  xend : s.xend = .fin xe
  facr : s.facr = .fin (1 / 8)
  facl : s.facl = .fin 5
  cfac : s.cfac = .fin (sf * (1 + 2 * g.nit))
  newt0 : s.phase = .newton ∨ s.phase = .tail → 0 ≤ s.newt
  newt1 : s.phase = .newton ∨ s.phase = .tail → s.newt ≤ g.nit
  newt2 : s.phase = .newton → s.newt < g.nit
  naccpt : 0 ≤ s.naccpt
  gus : g.gustafssonTest = true → 1 ≤ s.naccpt → ∃ a e, s.hacc = .fin (-a) ∧ 0 < a ∧
    s.erracc = .fin e ∧ 0.01 ≤ e
  cap : 0 < m ∧ m ≤ x0 - xe
  pos : ∃ (l : List ℝ) (hh : ℝ), s.taken = l.map (fun d => X.fin (-d)) ∧ (∀ d ∈ l, 0 < d) ∧
    (l.length : ℤ) = s.naccpt ∧ s.x = .fin (x0 - l.sum) ∧ xe < x0 - l.sum ∧
    s.h = .fin (-hh) ∧ 0 < hh ∧ xe ≤ x0 - l.sum - hh ∧
    (s.last = false → xe < x0 - l.sum - hh) ∧
    (s.phase = .check ∨ s.phase = .attempt →
      s.last = true → s.dnc = false → x0 - l.sum - hh = xe) ∧
    (s.phase = .newton ∨ s.phase = .tail → ∃ w, s.hnewt = .fin (-w) ∧
      s.xph = .fin (x0 - l.sum - w) ∧ hh ≤ w ∧ xe ≤ x0 - l.sum - w ∧
      (s.last = false → xe < x0 - l.sum - w) ∧
      (s.last = true → s.dnc = false → x0 - l.sum - w = xe) ∧
      (s.phase = .newton ∨ s.dnc = false → hh = w))

/-- the limit `hmaxn`, smaller than the length of the interval if `x0 > 0`. -/
def bcap (x0 xe : ℝ) : ℝ := min (x0 - xe) (-xe - x0)

theorem bentered_dir {x0 xe : ℝ} (hx : xe < x0) {s : St n L.σ} (hs : AtInit x0 xe s) :
    X.SIGN (s.xend - s.x) = .fin (-1) ∧
    X.MIN (X.ABS (s.xend - s.x)) (X.ABSsub s.xend s.x) = .fin (bcap x0 xe) := by
  rw [hs.x, hs.xend, X.fin_sub]
  constructor
  · unfold X.SIGN
    rw [X.zero_eq, X.fin_le, if_neg (by linarith), X.one_eq, X.fin_neg]
  · rw [X.ABS_fin, X.ABSsub_fin, if_neg (by linarith), X.MIN_fin, abs_of_neg (by linarith), neg_sub]
    rfl

theorem brun_init (hg : Std g sf u) {x0 xe : ℝ} (hx : xe < x0) (h0 : x0 + xe < 0) {s t : St n L.σ}
    (hs : AtInit x0 xe s) (h : init L P g s = .next t) :
    BRun g sf x0 xe (bcap x0 xe) t := by
  obtain ⟨j, rfl⟩ := init_next h
  obtain ⟨ep, em⟩ := bentered_dir hx hs
  have hp : 0 < bcap x0 xe := lt_min (by linarith) (by linarith)
  have hp2 : bcap x0 xe ≤ x0 - xe := min_le_left _ _
  have e10 : (10.0 : X) = .fin 10 := (X.ofSci_eq _ _ _).trans (by norm_num)
  have e6 : (1.0e-6 : X) = .fin 1.0e-6 := X.ofSci_eq _ _ _
  have e0 : (0.0 : X) = .fin 0 := (X.ofSci_eq _ _ _).trans (by norm_num)
  have e11 : (1.0001 : X) = .fin 1.0001 := X.ofSci_eq _ _ _
  obtain ⟨v, ev, vpos, vle⟩ : ∃ v, X.MIN (X.ABS (if X.ABS s.h < 10.0 * g.uround then 1.0e-6 else s.h))
      (.fin (bcap x0 xe)) * .fin (-1) = .fin (-v) ∧ 0 < v ∧ v ≤ bcap x0 xe := by
    rw [hg.uround, e10, X.fin_mul, e6]
    obtain ⟨v, e1, e2, e3, e4, e5⟩ := MIN_ABS_fin (if X.ABS s.h < X.fin (10 * u)
      then X.fin 1.0e-6 else s.h) (bcap x0 xe)
    refine ⟨v, by rw [e1, X.fin_mul, mul_neg_one], ?_, e2⟩
    by_cases hh : X.ABS s.h < X.fin (10 * u)
    · rw [if_pos hh] at e4
      rw [e4 _ rfl]
      exact lt_min (by norm_num) hp
    · rw [if_neg hh] at e4 e5
      by_cases hr : ∃ r, s.h = .fin r
      · obtain ⟨r, hr⟩ := hr
        rw [e4 _ hr]
        rw [hr, X.ABS_fin, X.fin_lt] at hh
        have := hg.uround_pos
        exact lt_min (by linarith) hp
      · rw [e5 (fun r hr' => hr ⟨r, hr'⟩)]
        exact hp
  obtain ⟨hh, el, eh, hpos, hle, h1, h2⟩ : ∃ hh : ℝ, (begun L P g s j).last =
      (if 0.0 < (s.x + .fin (-v) * 1.0001 - s.xend) * .fin (-1) then true else false) ∧
      (begun L P g s j).h = .fin (-hh) ∧ 0 < hh ∧
      xe ≤ x0 - hh ∧ ((begun L P g s j).last = false → xe < x0 - hh) ∧
      ((begun L P g s j).last = true → x0 - hh = xe) := by
    have el : (begun L P g s j).last =
      (if 0.0 < (s.x + .fin (-v) * 1.0001 - s.xend) * .fin (-1) then true else false) := by
      rw [← ev, ← em, ← ep]; rfl
    have eh : (begun L P g s j).h =
      (if 0.0 < (s.x + .fin (-v) * 1.0001 - s.xend) * .fin (-1) then s.xend - s.x else .fin (-v)) := by
      rw [← ev, ← em, ← ep]; rfl
    have eo : (0.0 < (s.x + .fin (-v) * 1.0001 - s.xend) * .fin (-1)) ↔ x0 - v * 1.0001 < xe := by
      rw [hs.x, hs.xend, e0, e11, X.fin_mul, X.fin_add, X.fin_sub, X.fin_mul, X.fin_lt]
      constructor <;> intro h <;> linarith
    by_cases ho : x0 - v * 1.0001 < xe
    · refine ⟨x0 - xe, el, ?_, by linarith, by linarith, ?_, fun _ => by ring⟩
      · rw [eh, if_pos (eo.mpr ho), hs.x, hs.xend, X.fin_sub, neg_sub]
      · intro hl; rw [el, if_pos (eo.mpr ho)] at hl; cases hl
    · refine ⟨v, el, ?_, vpos, by linarith, ?_, ?_⟩
      · rw [eh, if_neg (fun h => ho (eo.mp h))]
      · intro _; nlinarith
      · intro hl; rw [el, if_neg (fun h => ho (eo.mp h))] at hl; cases hl
  refine
    { phase := by intro h; cases h
      posneg := ep
      hmaxn := em
      xend := hs.xend
      facr := ?_
      facl := ?_
      cfac := ?_
      newt0 := by rintro (h | h) <;> cases h
      newt1 := by rintro (h | h) <;> cases h
      newt2 := by intro h; cases h
      naccpt := le_rfl
      gus := ?_
      cap := ⟨hp, hp2⟩
      pos := ⟨[], hh, rfl, by simp, rfl, ?_, ?_, eh, hpos, ?_, ?_, ?_, ?_⟩ }
  · show (1.0e+0 / 8.0e+0 : X) = _
    have a1 : (1.0e+0 : X) = .fin 1 := (X.ofSci_eq _ _ _).trans (by norm_num)
    have a2 : (8.0e+0 : X) = .fin 8 := (X.ofSci_eq _ _ _).trans (by norm_num)
    rw [a1, a2, X.fin_div _ _ (by norm_num)]
  · show (5.0e+0 : X) = _
    exact (X.ofSci_eq _ _ _).trans (by norm_num)
  · show g.safe * X.ofInt (1 + 2 * g.nit) = _
    rw [hg.safe]
    show X.fin sf * X.fin _ = _
    rw [X.fin_mul]; push_cast; rfl
  · intro _ h; exact absurd h (by show ¬ (1 : ℤ) ≤ 0; decide)
  · show s.x = _; rw [hs.x]; simp
  · simpa using hx
  · simpa using hle
  · simpa using h1
  · intro _ hl _; simpa using h2 hl
  · rintro (h | h) <;> cases h

/-- the invariant is about the fields of the controller only. -/
theorem BRun.congr {x0 xe m : ℝ} {s t : St n L.σ} (hs : BRun g sf x0 xe m s)
    (h1 : t.phase = s.phase) (h2 : t.posneg = s.posneg) (h3 : t.hmaxn = s.hmaxn)
    (h4 : t.xend = s.xend) (h5 : t.facr = s.facr) (h6 : t.facl = s.facl) (h7 : t.cfac = s.cfac)
    (h8 : t.newt = s.newt) (h9 : t.naccpt = s.naccpt) (h10 : t.hacc = s.hacc)
    (h11 : t.erracc = s.erracc) (h12 : t.taken = s.taken) (h13 : t.x = s.x) (h14 : t.h = s.h)
    (h15 : t.last = s.last) (h16 : t.dnc = s.dnc) (h17 : t.hnewt = s.hnewt) (h18 : t.xph = s.xph) :
    BRun g sf x0 xe m t := by
  obtain ⟨a1, a2, a3, a4, a5, a6, a7, a8, a9, a10, a11, a12, a13, a14⟩ := hs
  constructor
  all_goals try simp only [h1, h2, h3, h4, h5, h6, h7, h8, h9, h10, h11, h12, h13, h14, h15, h16, h17, h18]
  all_goals assumption

theorem BRun.newJac {x0 xe m : ℝ} {s : St n L.σ} (hs : BRun g sf x0 xe m s) :
    BRun g sf x0 xe m (newJac L P g s) :=
  hs.congr rfl rfl rfl rfl rfl rfl rfl rfl rfl rfl rfl rfl rfl rfl rfl rfl rfl rfl

theorem brun_check {x0 xe m : ℝ} {s : St n L.σ} (hs : BRun g sf x0 xe m s) (hp : s.phase = .check) :
    BRun g sf x0 xe m { s with phase := .attempt } := by
  obtain ⟨a1, a2, a3, a4, a5, a6, a7, a8, a9, a10, a11, a12, am, l, hh, b1, b2, b3, b4, b5, b6, b7, b8,
    b9, b10, b11⟩ := hs
  exact ⟨(by intro h; cases h), a2, a3, a4, a5, a6, a7, (by rintro (h | h) <;> cases h),
    (by rintro (h | h) <;> cases h), (by intro h; cases h), a11, a12, am, l, hh, b1, b2, b3, b4, b5, b6,
    b7, b8, b9, fun _ => b10 (Or.inl hp), (by rintro (h | h) <;> cases h)⟩

theorem brun_attempt (hg : Std g sf u) {x0 xe m : ℝ} {s : St n L.σ} (hs : BRun g sf x0 xe m s)
    (hp : s.phase = .attempt) : BRun g sf x0 xe m (attempt g s) := by
  obtain ⟨a1, a2, a3, a4, a5, a6, a7, a8, a9, a10, a11, a12, am, l, hh, b1, b2, b3, b4, b5, b6, b7, b8,
    b9, b10, b11⟩ := hs
  refine ⟨(by intro h; cases h), a2, a3, a4, a5, a6, a7, fun _ => le_rfl,
    fun _ => le_trans (by decide : (0 : ℤ) ≤ 1) hg.nit, fun _ => lt_of_lt_of_le (by decide : (0 : ℤ) < 1) hg.nit,
    a11, a12, am, l, hh, b1, b2, b3, b4, b5, b6,
    b7, b8, b9, (by rintro (h | h) <;> cases h), fun _ => ⟨hh, b6, ?_, le_rfl, b8, b9,
      b10 (Or.inr hp), fun _ => rfl⟩⟩
  show s.x + s.h = _
  rw [b4, b6, X.fin_add, ← sub_eq_add_neg]

theorem brun_newton (hg : Std g sf u) {x0 xe m : ℝ} {s t : St n L.σ} (hs : BRun g sf x0 xe m s)
    (hp : s.phase = .newton) (h : newton L P g s = .next t) : BRun g sf x0 xe m t := by
  have hs' := hs
  obtain ⟨a1, a2, a3, a4, a5, a6, a7, a8, a9, a10, a11, a12, am, l, hh, b1, b2, b3, b4, b5, b6, b7, b8,
    b9, b10, b11⟩ := hs
  obtain ⟨w, c1, c2, c3, c4, c5, c6, c7⟩ := b11 (Or.inl hp)
  have hw := c7 (Or.inl hp)
  have hn0 := a8 (Or.inl hp)
  have hn1 := a10 hp
  rcases newtonStep_cases (L := L) (P := P) (g := g) s with
    ⟨r, fc, th, tq, e, hr, -⟩ | ⟨n1, n2, fc, th, tq, h', e, hh'⟩
  · rcases hr with ⟨rfl, hnit⟩ | ⟨hnit, rfl, -⟩ | ⟨hnit, rfl, -⟩
    · -- did not converge
      rw [newton_some e] at h
      obtain ⟨v, j, hv, rfl⟩ := afterNewton_dnc h
      have eh : s.h * 0.5 = .fin (-(hh / 2)) := by
        have e5 : (0.5 : X) = .fin (1 / 2) := (X.ofSci_eq _ _ _).trans (by norm_num)
        rw [b6, e5, X.fin_mul]; congr 1; ring
      have key : BRun g sf x0 xe m { pass L P g s fc th tq with
          h := s.h * 0.5, dnc := true, reason := .didNotConverge, jac := j, newt := 0
          phase := if s.redonewton then .attempt else .tail } := by
        refine ⟨?_, a2, a3, a4, a5, a6, a7, fun _ => le_rfl,
          fun _ => le_trans (by decide : (0 : ℤ) ≤ 1) hg.nit, ?_, a11, a12, am, l, hh / 2, b1, b2, b3, b4, b5, eh,
          by linarith, by linarith, ?_, ?_, ?_⟩
        · cases s.redonewton <;> (intro h; cases h)
        · cases s.redonewton <;> (intro h; cases h)
        · intro _; linarith
        · intro _ _ hd; cases hd
        · intro _
          refine ⟨w, c1, c2, by linarith, c4, c5, ?_, ?_⟩
          · intro _ hd; cases hd
          · rintro (h | h)
            · revert h; cases s.redonewton <;> (intro h; cases h)
            · cases h
      rcases hv with rfl | ⟨-, rfl⟩
      · exact key.congr rfl rfl rfl rfl rfl rfl rfl rfl rfl rfl rfl rfl rfl rfl rfl rfl rfl rfl
      · exact key.congr rfl rfl rfl rfl rfl rfl rfl rfl rfl rfl rfl rfl rfl rfl rfl rfl rfl rfl
    · -- converged
      rw [newton_some e] at h
      rw [afterNewton_converged h]
      refine ⟨(by intro h; cases h), a2, a3, a4, a5, a6, a7, fun _ => ?_, fun _ => ?_,
        (by intro h; cases h), a11, a12, am, l, hh, b1, b2, b3, b4, b5, b6, b7, b8, b9,
        (by rintro (h | h) <;> cases h), fun _ => ⟨w, c1, c2, c3, c4, c5, c6, fun _ => hw⟩⟩
      · show 0 ≤ s.newt + 1; omega
      · show s.newt + 1 ≤ g.nit; omega
    · -- next iteration
      rw [newton_none e] at h
      injection h with h
      rw [← h]
      refine ⟨?_, a2, a3, a4, a5, a6, a7, fun _ => ?_, fun _ => ?_, fun _ => ?_, a11, a12, am, l, hh, b1,
        b2, b3, b4, b5, b6, b7, b8, b9, b10, b11⟩
      · show s.phase ≠ _; rw [hp]; intro h; cases h
      · show 0 ≤ s.newt + 1; omega
      · show s.newt + 1 ≤ g.nit; omega
      · show s.newt + 1 < g.nit; omega
  · -- will not converge
    rw [newton_some e] at h
    obtain ⟨v, j, hv, rfl⟩ := afterNewton_wnc h
    obtain ⟨k, ek, kpos, kle⟩ : ∃ k, h' = .fin (-k) ∧ 0 < k ∧ k < hh := by
      rcases hh' with ⟨hd, rfl⟩ | rfl
      · obtain ⟨f, ef, f1, f2⟩ := hhfac_range n2 hd
        refine ⟨hh * f, by rw [b6, ef, X.fin_mul, neg_mul], mul_pos b7 (lt_of_lt_of_le (by positivity) f1), ?_⟩
        nlinarith
      · have e2 : (2.0 : X) = .fin 2 := (X.ofSci_eq _ _ _).trans (by norm_num)
        exact ⟨hh / 2, by rw [b6, e2, X.fin_div _ _ (by norm_num), neg_div], by linarith, by linarith⟩
    have key : BRun g sf x0 xe m { fail L P g s fc th tq h' with
          newt := 0, redonewton := true, reason := .willNotConverge, jac := j, phase := .attempt } := by
      refine ⟨(by intro h; cases h), a2, a3, a4, a5, a6, a7, (by rintro (h | h) <;> cases h),
        (by rintro (h | h) <;> cases h), (by intro h; cases h), a11, a12, am, l, k, b1, b2, b3, b4, b5,
        ek, kpos, by linarith, fun _ => by linarith, ?_, (by rintro (h | h) <;> cases h)⟩
      intro _ hl; cases hl
    rcases hv with rfl | ⟨-, rfl⟩
    · exact key.congr rfl rfl rfl rfl rfl rfl rfl rfl rfl rfl rfl rfl rfl rfl rfl rfl rfl rfl
    · exact key.congr rfl rfl rfl rfl rfl rfl rfl rfl rfl rfl rfl rfl rfl rfl rfl rfl rfl rfl

/-- the new step size computed for an accepted step. -/
theorem bhnewNow_range (hg : Std g sf u) {x0 xe m : ℝ} {s : St n L.σ} (hs : BRun g sf x0 xe m s)
    (hp : s.phase = .tail) {hh : ℝ} (eh : s.h = .fin (-hh)) (hpos : 0 < hh)
    (he : errNow L P g s < 1.0) :
    ∃ v, hnewNow L P g s = .fin (-v) ∧ hh / 5 ≤ v ∧ v ≤ 8 * hh := by
  have key : ∀ q : ℝ, 1 / 8 ≤ q → q ≤ 5 → hh / 5 ≤ hh / q ∧ hh / q ≤ 8 * hh := by
    intro q h1 h2
    have hq : 0 < q := by linarith
    constructor
    · exact div_le_div_of_nonneg_left hpos.le hq h2
    · rw [div_le_iff₀ hq]; nlinarith
  obtain ⟨q, eq, q1, q2, -⟩ := quotOf_range (s := counted L P g s) hg hs.facr hs.facl hs.cfac
    (hs.newt0 (Or.inr hp)) (errNow_values (L := L) (P := P) (g := g) s)
  unfold hnewNow hnewAcc
  have e0 : (counted L P g s).h = .fin (-hh) := eh
  by_cases hG : g.gustafssonTest = true ∧ (counted L P g s).naccpt + 1 > 1
  · rw [if_pos hG]
    obtain ⟨a, e, ea, apos, ee, epos⟩ := hs.gus hG.1 (by have := hG.2; show 1 ≤ s.naccpt
                                                         change s.naccpt + 1 > 1 at this; omega)
    have ea' : (counted L P g s).hacc = .fin (-a) := ea
    have ee' : (counted L P g s).erracc = .fin e := ee
    have hepos : (0 : ℝ) < e := lt_of_lt_of_le (by norm_num) epos
    rcases errNow_values (L := L) (P := P) (g := g) s with hE | ⟨r, hr, hE⟩
    · rw [hE] at he; simp at he
    · have hr0 : (0 : ℝ) < r := lt_of_lt_of_le (by norm_num) hr
      rw [eq, hE, ea', ee', e0, X.fin_div _ _ (neg_ne_zero.2 hpos.ne'), X.fin_mul, X.fin_div _ _ hepos.ne',
        sqrt_sqrt_fin (by positivity), X.fin_mul, hg.safe, X.fin_div _ _ hg.safe_pos.ne',
        clampFac_fin (s := counted L P g s) hs.facr hs.facl, X.MAX_fin]
      generalize -a / -hh * Real.sqrt (Real.sqrt (r * r / e)) / sf = m
      have h1 : 1 / 8 ≤ max q (max (1 / 8) (min 5 m)) := le_max_of_le_left q1
      have h2 : max q (max (1 / 8) (min 5 m)) ≤ 5 :=
        max_le q2 (max_le (by norm_num) (min_le_left _ _))
      have hne : max q (max (1 / 8) (min 5 m)) ≠ 0 := by
        have : (0 : ℝ) < 1 / 8 := by norm_num
        exact (lt_of_lt_of_le this h1).ne'
      rw [X.fin_div _ _ hne, neg_div]
      exact ⟨_, rfl, key _ h1 h2⟩
  · rw [if_neg hG, eq, e0, X.fin_div _ _ (by linarith), neg_div]
    exact ⟨_, rfl, key _ q1 q2⟩

theorem bproposed_range {m : ℝ} (hm : 0 < m) {s : St n L.σ} (h1 : s.posneg = .fin (-1))
    (h2 : s.hmaxn = .fin m) {hh v : ℝ} (eh : s.h = .fin (-hh)) (hpos : 0 < hh) (hv : 0 < v) :
    limited s (.fin (-v)) = .fin (-(min v m)) ∧
    proposed s (.fin (-v)) = .fin (-(if s.reject then min (min v m) hh else min v m)) := by
  have e1 : limited s (.fin (-v)) = .fin (-(min v m)) := by
    unfold limited
    rw [h1, h2, X.ABS_fin, X.MIN_fin, X.fin_mul, neg_one_mul, abs_neg, abs_of_pos hv]
  refine ⟨e1, ?_⟩
  unfold proposed
  rw [e1, h1, eh, X.ABS_fin, X.ABS_fin, X.MIN_fin, X.fin_mul, neg_one_mul, abs_neg, abs_neg,
    abs_of_pos hpos, abs_of_pos (lt_min hv hm)]
  split <;> rfl

theorem brun_tail (hg : Std g sf u) {x0 xe m : ℝ} {s t : St n L.σ} (hs : BRun g sf x0 xe m s)
    (hp : s.phase = .tail) (h : tail L P g s = .next t) : BRun g sf x0 xe m t := by
  have hs' := hs
  obtain ⟨a1, a2, a3, a4, a5, a6, a7, a8, a9, a10, a11, a12, am, l, hh, b1, b2, b3, b4, b5, b6, b7, b8,
    b9, b10, b11⟩ := hs
  obtain ⟨w, c1, c2, c3, c4, c5, c6, c7⟩ := b11 (Or.inr hp)
  have hx : xe < x0 := by linarith [sum_nonneg b2]
  rcases tail_next h with ⟨he, ho, hE, h⟩ | ⟨he, h⟩
  · -- accepted
    obtain ⟨v, ev, v1, v2⟩ := bhnewNow_range hg hs' hp b6 b7 he
    have hv : 0 < v := by linarith
    have hl : s.last = false := by
      by_contra hl
      exact hE (Or.inl (by simpa using hl))
    obtain ⟨-, epr⟩ := bproposed_range (s := acc L P g s) am.1 a2 a3 (hh := hh) b6 b7 hv
    have hdpos : ∀ d ∈ w :: l, (0 : ℝ) < d := by
      intro d hd
      rcases List.mem_cons.mp hd with rfl | hd
      · linarith
      · exact b2 d hd
    have htk : (acc L P g s).taken = (w :: l).map fun d => X.fin (-d) := by
      show (s.xph - s.x) :: s.taken = _
      rw [c2, b4, X.fin_sub, b1, List.map_cons]; congr 2; ring
    have hsum : x0 - (w :: l).sum = x0 - l.sum - w := by rw [List.sum_cons]; ring
    have hax : (acc L P g s).x = .fin (x0 - (w :: l).sum) := by rw [hsum]; exact c2
    have hgus : g.gustafssonTest = true → 1 ≤ (acc L P g s).naccpt → ∃ a e,
        (acc L P g s).hacc = .fin (-a) ∧ 0 < a ∧ (acc L P g s).erracc = .fin e ∧ 0.01 ≤ e := by
      intro hG _
      rcases errNow_values (L := L) (P := P) (g := g) s with hE' | ⟨r, hr, hE'⟩
      · rw [hE'] at he; simp at he
      · refine ⟨hh, max 0.01 r, ?_, b7, ?_, le_max_left _ _⟩
        · show (if g.gustafssonTest then s.h else s.hacc) = _
          rw [if_pos hG, b6]
        · show (if g.gustafssonTest then X.MAX 0.01 (errNow L P g s) else s.erracc) = _
          have e01 : (0.01 : X) = .fin 0.01 := X.ofSci_eq _ _ _
          rw [if_pos hG, hE', e01, X.MAX_fin]
    have hna : 0 ≤ (acc L P g s).naccpt := by show 0 ≤ s.naccpt + 1; omega
    have hlen : (((w :: l).length : ℕ) : ℤ) = (acc L P g s).naccpt := by
      show _ = s.naccpt + 1
      rw [← b3]; simp
    have hlt := c5 hl
    rw [ev] at h
    -- the three ways to go on
    generalize hq : proposed (acc L P g s) (.fin (-v)) = q at h epr
    obtain ⟨p, hp1, hp2⟩ : ∃ p, q = .fin (-p) ∧ 0 < p := by
      refine ⟨_, epr, ?_⟩
      have hp' := am.1
      split
      · exact lt_min (lt_min hv hp') b7
      · exact lt_min hv hp'
    have etest : (0.0 ≤ ((acc L P g s).x + q / g.quot1 - (acc L P g s).xend) * (acc L P g s).posneg)
        ↔ x0 - l.sum - w - p ≤ xe := by
      have e0 : (0.0 : X) = .fin 0 := (X.ofSci_eq _ _ _).trans (by norm_num)
      have a4' : (acc L P g s).xend = .fin xe := a4
      have a2' : (acc L P g s).posneg = .fin (-1) := a2
      rw [hax, hsum, hp1, hg.quot1, X.fin_div _ _ one_ne_zero, X.fin_add, a4', a2', X.fin_sub,
        X.fin_mul, e0, X.fin_le, div_one, mul_neg_one]
      constructor <;> intro h <;> linarith
    have hq' : proposed (acc L P g s) (X.fin (-v)) = q := hq
    rcases nextStep_next h with ⟨h1, y, j, hy, rfl⟩ | ⟨h1, h2, h3, h4, rfl⟩ | ⟨h1, y, j, hy, rfl⟩
    · have key : BRun g sf x0 xe m { evaluated P (acc L P g s) (.fin (-v)) with
          h := (acc L P g s).xend - (acc L P g s).x, last := true, jac := j } := by
        refine ⟨(by intro h; cases h), a2, a3, a4, a5, a6, a7, (by rintro (h | h) <;> cases h),
          (by rintro (h | h) <;> cases h), (by intro h; cases h), hna, hgus, am, w :: l,
          x0 - l.sum - w - xe, htk, hdpos, hlen, hax, by rw [hsum]; exact hlt, ?_, by linarith,
          by rw [hsum]; linarith, (by intro h; cases h), fun _ _ _ => by rw [hsum]; ring,
          (by rintro (h | h) <;> cases h)⟩
        show (acc L P g s).xend - (acc L P g s).x = _
        rw [hax, hsum]
        show s.xend - _ = _
        rw [a4, X.fin_sub]; congr 1; ring
      rcases hy with rfl | ⟨-, rfl⟩
      · exact key.congr rfl rfl rfl rfl rfl rfl rfl rfl rfl rfl rfl rfl rfl rfl rfl rfl rfl rfl
      · exact key.congr rfl rfl rfl rfl rfl rfl rfl rfl rfl rfl rfl rfl rfl rfl rfl rfl rfl rfl
    · rw [hq'] at h1 h3 h4
      rw [etest] at h1
      have hph : hh ≤ p := by
        have b6' : (acc L P g s).h = .fin (-hh) := b6
        rw [hp1, b6', X.fin_div _ _ (neg_ne_zero.2 b7.ne'), hg.quot1, X.fin_le, neg_div_neg_eq,
          le_div_iff₀ b7] at h3
        linarith
      exact ⟨(by intro h; cases h), a2, a3, a4, a5, a6, a7, (by rintro (h | h) <;> cases h),
          (by rintro (h | h) <;> cases h), (by intro h; cases h), hna, hgus, am, w :: l,
          hh, htk, hdpos, hlen, hax, by rw [hsum]; exact hlt, b6, b7, by rw [hsum]; linarith,
          fun _ => by rw [hsum]; linarith, (fun _ h => by
            have h' : s.last = true := h
            rw [hl] at h'; cases h'),
          (by rintro (h | h) <;> cases h)⟩
    · rw [hq'] at h1
      rw [etest] at h1
      have key : BRun g sf x0 xe m { evaluated P (acc L P g s) (.fin (-v)) with
          h := proposed (acc L P g s) (X.fin (-v)), jac := j } := by
        exact ⟨(by intro h; cases h), a2, a3, a4, a5, a6, a7, (by rintro (h | h) <;> cases h),
          (by rintro (h | h) <;> cases h), (by intro h; cases h), hna, hgus, am, w :: l,
          p, htk, hdpos, hlen, hax, by rw [hsum]; exact hlt, hq'.trans hp1, hp2,
          by rw [hsum]; linarith, fun _ => by rw [hsum]; linarith, (fun _ h => by
            have h' : s.last = true := h
            rw [hl] at h'; cases h'),
          (by rintro (h | h) <;> cases h)⟩
      rcases hy with rfl | ⟨-, rfl⟩
      · exact key.congr rfl rfl rfl rfl rfl rfl rfl rfl rfl rfl rfl rfl rfl rfl rfl rfl rfl rfl
      · exact key.congr rfl rfl rfl rfl rfl rfl rfl rfl rfl rfl rfl rfl rfl rfl rfl rfl rfl rfl
  · -- rejected
    obtain ⟨y, j, hy, rfl⟩ := rejected_next h
    obtain ⟨q, eq, q1, q2, q3⟩ := quotOf_range (s := counted L P g s) hg a5 a6 a7
      (a8 (Or.inr hp)) (errNow_values (L := L) (P := P) (g := g) s)
    obtain ⟨k, ek, kpos, kle⟩ : ∃ k, (rejectState g (counted L P g s) (errNow L P g s)).h = .fin (-k) ∧
        0 < k ∧ k < hh := by
      have q3 := q3 he
      show ∃ k, (if s.first then s.h * 0.1 else s.h / quotOf g (counted L P g s) (errNow L P g s))
        = .fin (-k) ∧ 0 < k ∧ k < hh
      by_cases hf : s.first = true
      · have e1 : (0.1 : X) = .fin 0.1 := X.ofSci_eq _ _ _
        rw [if_pos hf, b6, e1, X.fin_mul, neg_mul]
        exact ⟨_, rfl, mul_pos b7 (by norm_num), by linarith⟩
      · rw [if_neg hf, eq, b6, X.fin_div _ _ (by linarith), neg_div]
        refine ⟨_, rfl, div_pos b7 (by linarith), ?_⟩
        rw [div_lt_iff₀ (by linarith)]
        nlinarith
    have key : BRun g sf x0 xe m { rejectState g (counted L P g s) (errNow L P g s) with jac := j } := by
      refine ⟨(by intro h; cases h), a2, a3, a4, a5, a6, a7, (by rintro (h | h) <;> cases h),
        (by rintro (h | h) <;> cases h), (by intro h; cases h), a11, a12, am, l, k, b1, b2, b3, b4, b5,
        ek, kpos, by linarith, fun _ => by linarith, ?_, (by rintro (h | h) <;> cases h)⟩
      intro _ hl; cases hl
    rcases hy with rfl | ⟨-, rfl⟩
    · exact key.congr rfl rfl rfl rfl rfl rfl rfl rfl rfl rfl rfl rfl rfl rfl rfl rfl rfl rfl
    · exact key.congr rfl rfl rfl rfl rfl rfl rfl rfl rfl rfl rfl rfl rfl rfl rfl rfl rfl rfl

/-- the state of a backward integration. -/
def Bwd (g : Cfg n) (sf x0 xe : ℝ) (s : St n L.σ) : Prop :=
  AtInit x0 xe s ∨ BRun g sf x0 xe (bcap x0 xe) s

theorem bwd_step (hg : Std g sf u) {x0 xe : ℝ} (hx : xe < x0) (h0 : x0 + xe < 0) {s t : St n L.σ}
    (hs : Bwd g sf x0 xe s) (h : step L P g s = .next t) : BRun g sf x0 xe (bcap x0 xe) t := by
  rcases hs with hs | hs
  · rw [step_init hs.phase] at h
    exact brun_init hg hx h0 hs h
  · cases hp : s.phase with
    | init => exact absurd hp hs.phase
    | check =>
      rw [step_check hp] at h
      split at h
      · injection h
      · injection h with h
        rw [← h]; exact brun_check hs hp
    | attempt =>
      rw [step_attempt hp] at h
      injection h with h
      rw [← h]; exact brun_attempt hg hs hp
    | newton => rw [step_newton hp] at h; exact brun_newton hg hs hp h
    | tail => rw [step_tail hp] at h; exact brun_tail hg hs hp h

theorem bwd_reach (hg : Std g sf u) {x0 xe : ℝ} (hx : xe < x0) (h0 : x0 + xe < 0) {o s : St n L.σ}
    {h : X} {y : Fin n → X} (hr : Reach (step L P g) (call o h (.fin x0) (.fin xe) y) s) :
    Bwd g sf x0 xe s :=
  Reach.inv (I := Bwd g sf x0 xe) (fun _ _ hI hst => Or.inr (bwd_step hg hx h0 hI hst))
    (Or.inl (atInit_call o h x0 xe y)) hr

end Odes.Radau
