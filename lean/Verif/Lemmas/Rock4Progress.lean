import Verif.Lemmas.Rock4Loop

/-! When a ROCK4 iteration can be performed. -/

namespace Odes.Rock4

open Classical

variable {n : ℕ}

/-- the spectral radius used by the next attempt. -/
noncomputable def eigUsed (P : Problem n) (s : St n) : X :=
  if s.nrho = 0 then P.rho s.rhoCalls else s.eigmax

/-- the step size compared with the limit, Rock4.hpp 208-213. -/
noncomputable def hCapped (te : X) (s : St n) : X :=
  if X.ABSsub te s.t ≤ 1.01 * s.h then X.ABSsub te s.t else s.h

theorem choose_of_toInt (P : Problem n) (te : X) (s : St n)
    (h1 : ¬ hCapped te s < 10.0 * s.uround) (md : ℤ)
    (h2 : X.toInt (X.sqrt ((3.0 + hCapped te s * eigUsed P s) / 0.353) + 1) = some md) :
    ∃ s1, choose P te s = .next s1 ∧ s1.eigmax = eigUsed P s ∧
      (md ≤ 152 → s1.h = hCapped te s) ∧ (md ≤ 5 → s1.mdeg = 1) := by
  unfold choose
  unfold hCapped at h1 h2
  unfold eigUsed at h2
  simp only [h1, if_false, h2]
  by_cases hc : max (if md > 152 then 152 else md) 5 - 4 ≠ s.mdego
  · simp only [hc, ne_eq, not_false_eq_true, if_true]
    refine ⟨_, rfl, rfl, ?_, ?_⟩
    · intro h; simp only [show ¬ md > 152 by omega, if_false]; rfl
    · intro h
      have e : max md 5 - 4 = 1 := by omega
      simp only [show ¬ md > 152 by omega, if_false, e]
      rfl
  · simp only [hc, if_false]
    refine ⟨_, rfl, rfl, ?_, ?_⟩
    · intro h; simp only [show ¬ md > 152 by omega, if_false]; rfl
    · intro h
      have e : max md 5 - 4 = 1 := by omega
      simp only [show ¬ md > 152 by omega, if_false, e]

theorem choose_throw (P : Problem n) (te : X) (s : St n)
    (h1 : hCapped te s < 10.0 * s.uround) : choose P te s = .throw .stepTooSmall := by
  unfold hCapped at h1
  unfold choose
  simp only [h1, if_true]

theorem choose_ub (P : Problem n) (te : X) (s : St n)
    (h1 : ¬ hCapped te s < 10.0 * s.uround)
    (h2 : X.toInt (X.sqrt ((3.0 + hCapped te s * eigUsed P s) / 0.353) + 1) = none) :
    choose P te s = .ub .intConversion := by
  unfold hCapped at h1 h2
  unfold eigUsed at h2
  unfold choose
  simp only [h1, if_false, h2]

/-- the only outcomes of the choice. -/
theorem choose_cases (P : Problem n) (te : X) (s : St n) :
    choose P te s = .throw .stepTooSmall ∨ choose P te s = .ub .intConversion ∨
    ∃ s1, choose P te s = .next s1 := by
  by_cases h1 : hCapped te s < 10.0 * s.uround
  · left; exact choose_throw P te s h1
  · right
    cases h2 : X.toInt (X.sqrt ((3.0 + hCapped te s * eigUsed P s) / 0.353) + 1) with
    | none => left; exact choose_ub P te s h1 h2
    | some md =>
      right
      obtain ⟨s1, h, -⟩ := choose_of_toInt P te s h1 md h2
      exact ⟨s1, h⟩

/-- conversion of `sqrt((3+h*eig)/0.353)+1` for moderate values. -/
theorem toInt_stage {r e : ℝ} (h0 : 0 ≤ 3 + r * e) (h1 : r * e ≤ 1e18) :
    ∃ md, X.toInt (X.sqrt ((3.0 + X.fin r * X.fin e) / 0.353) + 1) = some md ∧
      (r * e = 0 → md = 3) := by
  have e3 : ((3.0 : X) + X.fin r * X.fin e) / 0.353 = X.fin ((3 + r * e) / 0.353) := by
    rw [X.fin_mul, X.ofSci_eq, X.ofSci_eq, X.fin_add, X.fin_div _ _ (by norm_num)]
    norm_num
  have hnn : 0 ≤ (3 + r * e) / 0.353 := div_nonneg h0 (by norm_num)
  rw [e3, X.sqrt_fin_nonneg hnn, X.one_eq, X.fin_add]
  have hs := Real.sqrt_nonneg ((3 + r * e) / 0.353)
  have hs2 := Real.sq_sqrt hnn
  set q := Real.sqrt ((3 + r * e) / 0.353) with hq
  have hqhi : q + 1 < 2147483648 := by
    have : q ^ 2 ≤ (2e9 : ℝ) ^ 2 := by
      rw [hs2, div_le_iff₀ (by norm_num)]
      norm_num at h1 ⊢; linarith
    have : q ≤ 2e9 := le_of_sq_le_sq this (by norm_num)
    norm_num at this ⊢; linarith
  refine ⟨⌊q + 1⌋, ?_, ?_⟩
  · unfold X.toInt
    simp only
    rw [if_pos (by linarith : (0:ℝ) ≤ q + 1), if_pos]
    constructor
    · have : (0 : ℤ) ≤ ⌊q + 1⌋ := Int.floor_nonneg.2 (by linarith)
      omega
    · have : ⌊q + 1⌋ < 2147483648 := by
        rw [Int.floor_lt]; push_cast; exact hqhi
      omega
  · intro hz
    rw [hz] at hs2
    norm_num at hs2
    rw [Int.floor_eq_iff]
    push_cast
    constructor
    · by_contra hc
      push Not at hc
      nlinarith
    · by_contra hc
      push Not at hc
      nlinarith

theorem step_exists (P : Problem n) (T : Tables) (te t0 : ℝ) (y0 : Vec n) (s0 s s1 : St n)
    (I : Inv P T te t0 y0 s0 s) (t : ℝ) (ht : s.t = X.fin t) (hlt : t < te)
    (hc : choose P (X.fin te) s = .next s1) : ∃ s', step P T (X.fin te) s = .next s' := by
  have C := choose_next P te t s s1 ht hlt I.uround (I.sel.imp id And.left) hc
  obtain ⟨b1, b2, b3, b4, b5, b6⟩ := C.sel.bounds
  obtain ⟨s2, err, hk⟩ := kernel_isSome P T s1 s1.h b1 b3 b4 b5 b6
  exact ⟨_, by rw [step, if_pos (by rw [ht]; exact hlt), hc]; simp only [hk]; rfl⟩

/-- the only undefined behaviour is the conversion of the number of stages. -/
theorem step_ub (P : Problem n) (T : Tables) (te t0 : ℝ) (y0 : Vec n) (s0 s : St n)
    (I : Inv P T te t0 y0 s0 s) (u : Ub) (h : step P T (X.fin te) s = .ub u) :
    u = .intConversion ∧ choose P (X.fin te) s = .ub .intConversion := by
  obtain ⟨t, ht, -, -, -⟩ := I.time
  by_cases hlt : t < te
  · rcases choose_cases P (X.fin te) s with hc | hc | ⟨s1, hc⟩
    · rw [step, if_pos (by rw [ht]; exact hlt), hc] at h; cases h
    · rw [step, if_pos (by rw [ht]; exact hlt), hc] at h; injection h with h; exact ⟨h.symm, hc⟩
    · obtain ⟨s', hs'⟩ := step_exists P T te t0 y0 s0 s s1 I t ht hlt hc
      rw [hs'] at h; cases h
  · rw [step, ht, if_neg (by simpa using hlt)] at h; cases h

/-- the only exception is "step too small". -/
theorem step_throw (P : Problem n) (T : Tables) (te t0 : ℝ) (y0 : Vec n) (s0 s : St n)
    (I : Inv P T te t0 y0 s0 s) (e : Exn) (h : step P T (X.fin te) s = .throw e) :
    e = .stepTooSmall ∧ hCapped (X.fin te) s < 1.0e-15 := by
  obtain ⟨t, ht, -, -, -⟩ := I.time
  by_cases hlt : t < te
  · rcases choose_cases P (X.fin te) s with hc | hc | ⟨s1, hc⟩
    · rw [step, if_pos (by rw [ht]; exact hlt), hc] at h; injection h with h
      refine ⟨h.symm, ?_⟩
      by_contra hn
      have hu : (10.0 : X) * s.uround = 1.0e-15 := by
        rw [I.uround]; simp; norm_num
      rw [← hu] at hn
      cases h2 : X.toInt (X.sqrt ((3.0 + hCapped (X.fin te) s * eigUsed P s) / 0.353) + 1) with
      | none => rw [choose_ub P _ s hn h2] at hc; cases hc
      | some md =>
        obtain ⟨s1, h3, -⟩ := choose_of_toInt P _ s hn md h2
        rw [h3] at hc; cases hc
    · rw [step, if_pos (by rw [ht]; exact hlt), hc] at h; cases h
    · obtain ⟨s', hs'⟩ := step_exists P T te t0 y0 s0 s s1 I t ht hlt hc
      rw [hs'] at h; cases h
  · rw [step, ht, if_neg (by simpa using hlt)] at h; cases h

theorem step_ret (P : Problem n) (T : Tables) (te t0 : ℝ) (y0 : Vec n) (s0 s s' : St n)
    (I : Inv P T te t0 y0 s0 s) (h : step P T (X.fin te) s = .ret s') :
    s' = s ∧ s.t = X.fin te := by
  obtain ⟨t, ht, h1, h2, -⟩ := I.time
  by_cases hlt : t < te
  · rcases choose_cases P (X.fin te) s with hc | hc | ⟨s1, hc⟩
    · rw [step, if_pos (by rw [ht]; exact hlt), hc] at h; cases h
    · rw [step, if_pos (by rw [ht]; exact hlt), hc] at h; cases h
    · obtain ⟨s', hs'⟩ := step_exists P T te t0 y0 s0 s s1 I t ht hlt hc
      rw [hs'] at h; cases h
  · rw [step, ht, if_neg (by simpa using hlt)] at h
    injection h with h
    exact ⟨h.symm, by rw [ht]; congr 1; linarith⟩

/-! ### a family of concrete runs: scalar problems whose stages vanish -/

/-- all tabulated numbers are finite. -/
structure Tables.Finite (T : Tables) : Prop where
  recf : ∀ i, (T.recf i).IsFin
  fpa : ∀ i j, (T.fpa i j).IsFin
  fpb : ∀ i j, (T.fpb i j).IsFin
  fpbe : ∀ i j, (T.fpbe i j).IsFin

theorem mul_zero_add (g : X) (a b : ℝ) : g + X.fin a * X.fin b * X.fin 0 = g := by
  cases g <;> simp

/-- scalar problem: if the derivative vanishes at the end of the recurrence, the step ends there
and the error estimate is zero. -/
theorem stages_zero (F : Vec 1 → Vec 1) (R : Spec.Formula) (h : ℝ) (y : Vec 1) (g a r : ℝ)
    (ha : 0 < a) (hr : 0 ≤ r)
    (hg : Spec.gRec F R.mu R.kap (X.fin h) y R.deg = fun _ => X.fin g)
    (hF : F (fun _ => X.fin g) = fun _ => X.fin 0)
    (f1 : R.a21.IsFin) (f2 : R.a31.IsFin) (f3 : R.a32.IsFin) (f4 : R.a41.IsFin)
    (f5 : R.a42.IsFin) (f6 : R.a43.IsFin) (f7 : ∀ i, (R.b i).IsFin) (f8 : ∀ i, (R.be i).IsFin) :
    (Spec.stages R F (X.fin h) y).ynew = (fun _ => X.fin g) ∧
    Spec.scaledRms (Spec.errVec R (X.fin h) (Spec.stages R F (X.fin h) y))
      (Spec.stages R F (X.fin h) y).ynew (X.fin a) (X.fin r) = X.fin 0 := by
  obtain ⟨a21, e1⟩ := f1
  obtain ⟨a31, e2⟩ := f2
  obtain ⟨a32, e3⟩ := f3
  obtain ⟨a41, e4⟩ := f4
  obtain ⟨a42, e5⟩ := f5
  obtain ⟨a43, e6⟩ := f6
  choose b hb using f7
  choose be hbe using f8
  have hS : Spec.stages R F (X.fin h) y = ⟨fun _ => X.fin 0, fun _ => X.fin 0, fun _ => X.fin 0,
      fun _ => X.fin 0, fun _ => X.fin g, fun _ => X.fin 0⟩ := by
    simp only [Spec.stages, hg, hF, e1, e2, e3, e4, e5, e6, hb, X.fin_mul, X.fin_add, mul_zero,
      add_zero]
  rw [hS]
  refine ⟨rfl, ?_⟩
  have hpos : 0 < |g| * r + a := by positivity
  simp only [Spec.scaledRms, Spec.errVec, hb, hbe, X.fin_mul, X.fin_sub, X.fin_add, mul_zero,
    add_zero, X.ABS_fin, X.one_eq, X.fin_div _ _ hpos.ne', zero_mul, X.zero_eq]
  have : (List.finRange 1) = [0] := rfl
  rw [this]
  simp only [List.foldl_cons, List.foldl_nil, X.fin_add, add_zero, X.ofInt]
  rw [X.fin_div _ _ (by norm_num)]
  rw [X.sqrt_fin_nonneg (by norm_num)]
  simp

/-- the same with a NaN derivative: the error estimate is NaN. -/
theorem stages_nan (F : Vec 1 → Vec 1) (R : Spec.Formula) (h : ℝ) (y : Vec 1) (g : X) (a r : X)
    (hg : Spec.gRec F R.mu R.kap (X.fin h) y R.deg = fun _ => g)
    (hF : F (fun _ => g) = fun _ => X.nan) :
    Spec.scaledRms (Spec.errVec R (X.fin h) (Spec.stages R F (X.fin h) y))
      (Spec.stages R F (X.fin h) y).ynew a r = X.nan := by
  have h1 : (Spec.stages R F (X.fin h) y).k1 = fun _ => X.nan := by
    simp only [Spec.stages, hg, hF]
  simp only [Spec.scaledRms, Spec.errVec, h1]
  have : (List.finRange 1) = [0] := rfl
  rw [this]
  simp

end Odes.Rock4
