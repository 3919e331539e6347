import Verif.Model.Rodas
import Verif.Lemmas.XFin

/-! Step size control of Rodas: case analysis of one transition, basic facts. -/

namespace Odes.Rodas

open Classical

variable {n : ℕ} {L : Lin X n} {P : Prob X n} {g : Cfg n}

/-- state after a rejected attempt. -/
noncomputable def rejected (g : Cfg n) (s : St n L.σ) (j : L.σ) (err : X) : St n L.σ :=
  { s with
    jac := j, ndec := s.ndec + 1, nstep := s.nstep + 1
    reject := true, last := false, h := s.h / facOf g err
    nrejct := if s.naccpt > 1 then s.nrejct + 1 else s.nrejct
    rejs := s.rejs + 1 }

/-- state after an accepted attempt. -/
noncomputable def accepted (g : Cfg n) (s : St n L.σ) (j : L.σ) (YNEW : Fin n → X) (err : X)
    (b : Bool) : St n L.σ :=
  { s with
    jac := j, ndec := s.ndec + 1, nstep := s.nstep + 1
    firstAcceptedStep := if s.naccpt = 0 then s.h else s.firstAcceptedStep
    naccpt := s.naccpt + 1
    hacc := if g.gustafssonTest then s.h else s.hacc
    erracc := if g.gustafssonTest then X.MAX 1.0e-02 err else s.erracc
    Y := YNEW, xold := s.x, x := s.x + s.h
    h := limit s (hnewAcc g s err)
    reject := false, taken := s.h :: s.taken, inner := b }

/-- outcome of one pass through the `do` loop. -/
theorem body_eq (s : St n L.σ) (hi : s.inner = true) :
    (attempt L P g.coef s.x s.h s.Y s.DY1 s.FX s.jac = none ∧
      body L P g s = .throw .factorisation) ∨
    ∃ j k err, attempt L P g.coef s.x s.h s.Y s.DY1 s.FX s.jac = some (j, k) ∧
      err = errNorm g s.Y k.YNEW k.AK6 ∧
      ((¬ err ≤ 1.0 ∧ body L P g s = .next (rejected g s j err)) ∨
       (err ≤ 1.0 ∧ s.nstep + 1 > g.nmax ∧ body L P g s = .throw .nstepTooLarge) ∨
       (err ≤ 1.0 ∧ s.nstep + 1 ≤ g.nmax ∧ g.onlyOneStep = true ∧
         body L P g s = .ret (accepted g s j k.YNEW err true)) ∨
       (err ≤ 1.0 ∧ s.nstep + 1 ≤ g.nmax ∧ g.onlyOneStep = false ∧
         body L P g s = .next (accepted g s j k.YNEW err false))) := by
  cases ha : attempt L P g.coef s.x s.h s.Y s.DY1 s.FX s.jac with
  | none => left; refine ⟨rfl, ?_⟩; unfold body; rw [ha]
  | some jk =>
    obtain ⟨j, k⟩ := jk
    right
    refine ⟨j, k, _, rfl, rfl, ?_⟩
    have hb : body L P g s =
      (let s1 := control g { s with jac := j, ndec := s.ndec + 1, nstep := s.nstep + 1 } k.YNEW
          (errNorm g s.Y k.YNEW k.AK6)
       if s1.reject then .next s1
       else if s1.nstep > g.nmax then .throw .nstepTooLarge
       else if g.onlyOneStep then .ret s1
       else .next { s1 with inner := false }) := by
      unfold body; rw [ha]
    rw [hb]
    generalize errNorm g s.Y k.YNEW k.AK6 = err
    by_cases he : err ≤ 1.0
    · right
      unfold control
      rw [if_pos he]
      dsimp only
      rw [if_neg (by decide)]
      by_cases hn : s.nstep + 1 > g.nmax
      · left; exact ⟨he, hn, by rw [if_pos hn]⟩
      · right
        rw [if_neg hn]
        cases ho : g.onlyOneStep with
        | true =>
          left
          refine ⟨he, by omega, rfl, ?_⟩
          rw [if_pos rfl]
          unfold accepted
          rw [← hi]
          rfl
        | false =>
          right
          refine ⟨he, by omega, rfl, ?_⟩
          rw [if_neg (by decide)]
          rfl
    · left
      refine ⟨he, ?_⟩
      unfold control
      rw [if_neg he]
      dsimp only
      rw [if_pos rfl]
      rfl

/-- the step size chosen at the head of the `while` loop. -/
noncomputable def hTop (g : Cfg n) (s : St n L.σ) : X :=
  X.MIN (X.ABS (if X.ABS s.h < 10.0 * g.uround then 1.0e-6 else s.h)) s.hmaxn * s.posneg

/-- the test `(x+h*1.0001-xend)*posneg>0.0`. -/
def Over (g : Cfg n) (s : St n L.σ) : Prop :=
  (0.0 : X) < (s.x + hTop g s * 1.0001 - s.xend) * s.posneg

/-- state after the head of the `while` loop. -/
noncomputable def prepared (L : Lin X n) (P : Prob X n) (g : Cfg n) (s : St n L.σ) : St n L.σ :=
  { s with
    h := if Over g s then s.xend - s.x else hTop g s
    last := if Over g s then true else s.last
    hopt := if Over g s then s.hopt else hTop g s
    xold := s.x
    DY1 := P.F s.x s.Y
    jac := L.load (if P.computeJacobianNumerically then numJac P g.uround s.x s.Y (P.F s.x s.Y)
      else P.jac s.x s.Y (P.F s.x s.Y))
    njac := s.njac + 1
    FX := if P.autonms then s.FX else dfx P g.uround s.x s.Y (P.F s.x s.Y)
    inner := true }

theorem prepared_h (s : St n L.σ) : (prepared L P g s).h =
    if Over g s then s.xend - s.x else hTop g s := rfl

theorem prepared_last (s : St n L.σ) : (prepared L P g s).last =
    if Over g s then true else s.last := rfl

theorem prepare_eq (s : St n L.σ) :
    prepare L P g s = if 0.1e0 * X.ABS s.h ≤ X.ABS s.x * g.uround then .throw .stepTooSmall
      else .next (prepared L P g s) := rfl

/-- case analysis of one transition. -/
theorem step_cases {s s' : St n L.σ} (h : step L P g s = .next s') :
    (s.inner = false ∧ s.last = false ∧ ¬ 0.1e0 * X.ABS s.h ≤ X.ABS s.x * g.uround ∧
      s' = prepared L P g s) ∨
    (s.inner = true ∧ ∃ j k err, attempt L P g.coef s.x s.h s.Y s.DY1 s.FX s.jac = some (j, k) ∧
      err = errNorm g s.Y k.YNEW k.AK6 ∧
      ((¬ err ≤ 1.0 ∧ s' = rejected g s j err) ∨
       (err ≤ 1.0 ∧ s.nstep + 1 ≤ g.nmax ∧ g.onlyOneStep = false ∧
         s' = accepted g s j k.YNEW err false))) := by
  unfold step at h
  cases hi : s.inner with
  | false =>
    rw [hi, if_neg (by decide)] at h
    cases hl : s.last with
    | true => rw [hl, if_pos rfl] at h; simp at h
    | false =>
      rw [hl, if_neg (by decide), prepare_eq] at h
      by_cases hc : 0.1e0 * X.ABS s.h ≤ X.ABS s.x * g.uround
      · rw [if_pos hc] at h; simp at h
      · rw [if_neg hc] at h
        injection h with h
        exact Or.inl ⟨rfl, rfl, hc, h.symm⟩
  | true =>
    rw [hi, if_pos rfl] at h
    right
    refine ⟨rfl, ?_⟩
    rcases body_eq (P := P) (g := g) s hi with ⟨-, hb⟩ | ⟨j, k, err, ha, he, hb⟩
    · rw [hb] at h; simp at h
    · refine ⟨j, k, err, ha, he, ?_⟩
      rcases hb with ⟨h1, hb⟩ | ⟨-, -, hb⟩ | ⟨-, -, -, hb⟩ | ⟨h1, h2, h3, hb⟩
      · rw [hb] at h; injection h with h; exact Or.inl ⟨h1, h.symm⟩
      · rw [hb] at h; simp at h
      · rw [hb] at h; simp at h
      · rw [hb] at h; injection h with h; exact Or.inr ⟨h1, h2, h3, h.symm⟩

/-- how a run returns. -/
theorem step_ret {s t : St n L.σ} (h : step L P g s = .ret t) :
    (s.inner = false ∧ s.last = true ∧ t = s) ∨
    (s.inner = true ∧ g.onlyOneStep = true ∧
      ∃ j k err, attempt L P g.coef s.x s.h s.Y s.DY1 s.FX s.jac = some (j, k) ∧
      err = errNorm g s.Y k.YNEW k.AK6 ∧ err ≤ 1.0 ∧ s.nstep + 1 ≤ g.nmax ∧
      t = accepted g s j k.YNEW err true) := by
  unfold step at h
  cases hi : s.inner with
  | false =>
    rw [hi, if_neg (by decide)] at h
    cases hl : s.last with
    | true => rw [hl, if_pos rfl] at h; injection h with h; exact Or.inl ⟨rfl, rfl, h.symm⟩
    | false =>
      rw [hl, if_neg (by decide), prepare_eq] at h
      split_ifs at h
  | true =>
    rw [hi, if_pos rfl] at h
    right
    rcases body_eq (P := P) (g := g) s hi with ⟨-, hb⟩ | ⟨j, k, err, ha, he, hb⟩
    · rw [hb] at h; simp at h
    · rcases hb with ⟨h1, hb⟩ | ⟨-, -, hb⟩ | ⟨h1, h2, h3, hb⟩ | ⟨h1, h2, h3, hb⟩
      · rw [hb] at h; simp at h
      · rw [hb] at h; simp at h
      · rw [hb] at h; injection h with h; exact ⟨rfl, h3, j, k, err, ha, he, h1, h2, h.symm⟩
      · rw [hb] at h; simp at h

/-! ### the error estimate and the factor -/

/-- values of a square root. -/
theorem sqrt_values (a : X) : X.sqrt a = .nan ∨ X.sqrt a = .pinf ∨
    ∃ r, 0 ≤ r ∧ X.sqrt a = .fin r := by
  cases a with
  | nan => simp
  | pinf => simp
  | ninf => simp
  | fin r =>
    rw [X.sqrt_fin]
    split_ifs
    · simp
    · right; right; exact ⟨_, Real.sqrt_nonneg r, rfl⟩

theorem errNorm_values (Y YNEW AK6 : Fin n → X) :
    errNorm g Y YNEW AK6 = .nan ∨ errNorm g Y YNEW AK6 = .pinf ∨
    ∃ r, 0 ≤ r ∧ errNorm g Y YNEW AK6 = .fin r := sqrt_values _

/-- the parameters of the constructor (any safety factor in `(0,1]`). -/
structure Std (g : Cfg n) (q : ℝ) : Prop where
  uround : g.uround = .fin 1.0e-16
  fac1 : g.fac1 = .fin 5
  fac2 : g.fac2 = .fin (1 / 6)
  safe : g.safe = .fin q
  q0 : 0 < q
  q1 : q ≤ 1

theorem std_default (c : Coef ℚ) (atol rtol : Fin n → X) :
    Std (Cfg.default c atol rtol) 0.9 := by
  refine ⟨rfl, ?_, ?_, rfl, by norm_num, by norm_num⟩
  · simp only [Cfg.default, X.ofSci_eq]; norm_num
  · simp only [Cfg.default, X.ofSci_eq]
    rw [X.fin_div _ _ (by norm_num)]
    norm_num

variable {q : ℝ}

theorem clampFac_fin (hg : Std g q) (r : ℝ) :
    clampFac g (.fin r) = .fin (max (1 / 6) (min 5 r)) := by
  unfold clampFac
  rw [hg.fac1, hg.fac2, X.MIN_fin, X.MAX_fin]

theorem clampFac_nan (hg : Std g q) : clampFac g .nan = .nan := by
  unfold clampFac X.MIN X.MAX
  rw [hg.fac1, hg.fac2]; simp

/-- `fac` for every value of the error estimate. -/
theorem facOf_nan (hg : Std g q) : facOf g .nan = .nan := by
  unfold facOf; rw [X.sqrt_nan, X.sqrt_nan, X.nan_div, clampFac_nan hg]

theorem facOf_fin (hg : Std g q) {e : ℝ} (he : 0 ≤ e) :
    facOf g (.fin e) = .fin (max (1 / 6) (min 5 (Real.sqrt (Real.sqrt e) / q))) := by
  unfold facOf
  rw [X.sqrt_fin_nonneg he, X.sqrt_fin_nonneg (Real.sqrt_nonneg e), hg.safe,
    X.fin_div _ _ hg.q0.ne', clampFac_fin hg]

theorem facOf_pinf (hg : Std g q) : facOf g .pinf = .fin 5 := by
  unfold facOf clampFac
  rw [X.sqrt_pinf, X.sqrt_pinf, hg.safe, X.pinf_div_fin, if_pos hg.q0.le, hg.fac1, hg.fac2]
  unfold X.MIN
  rw [if_pos (by simp), X.MAX_fin]
  norm_num

/-- `fac` is in `[1/6,5]` unless the error estimate is NaN; it exceeds 1 (by the safety factor)
after a failure. -/
theorem facOf_range (hg : Std g q) {err : X}
    (he : err = .nan ∨ err = .pinf ∨ ∃ r, 0 ≤ r ∧ err = .fin r) :
    (err = .nan ∧ facOf g err = .nan) ∨ ∃ f, facOf g err = .fin f ∧ 1 / 6 ≤ f ∧ f ≤ 5 ∧
      (¬ err ≤ 1.0 → 1 < f ∧ min 5 (1 / q) ≤ f) := by
  rcases he with rfl | rfl | ⟨r, hr, rfl⟩
  · exact Or.inl ⟨rfl, facOf_nan hg⟩
  · right
    exact ⟨5, facOf_pinf hg, by norm_num, le_rfl, fun _ => ⟨by norm_num, min_le_left _ _⟩⟩
  · right
    refine ⟨_, facOf_fin hg hr, le_max_left _ _, max_le (by norm_num) (min_le_left _ _), ?_⟩
    intro h1
    have h2 : 1 < r := by
      rw [X.ofSci_eq, X.fin_le] at h1
      norm_num at h1
      exact h1
    have h3 : 1 < Real.sqrt (Real.sqrt r) := by
      rw [Real.lt_sqrt (by norm_num), Real.lt_sqrt (by norm_num)]
      norm_num
      exact h2
    have h4 : 1 / q < Real.sqrt (Real.sqrt r) / q := (div_lt_div_iff_of_pos_right hg.q0).2 h3
    have h5 : 1 ≤ 1 / q := by rw [le_div_iff₀ hg.q0]; linarith [hg.q1]
    refine ⟨lt_max_of_lt_right (lt_min (by norm_num) (by linarith)), ?_⟩
    exact le_max_of_le_right (min_le_min le_rfl h4.le)

end Odes.Rodas
