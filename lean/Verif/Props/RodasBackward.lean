import Verif.Props.Rodas

/-! # C76: backward integration by Rodas, the part which holds -/

namespace Odes.Rodas

open Classical

variable {n : ℕ} {L : Lin X n} {P : Prob X n} {g : Cfg n} {q : ℝ}

/-- `(x, h)` of a backward run with `x0+xend < 0`: either lost in NaN, or inside. -/
structure BInv (x0 xe : ℝ) (s : St n L.σ) : Prop where
  base : Inv x0 xe s
  pos : (s.x = .nan ∧ s.last = false) ∨
    ∃ l : List ℝ, s.taken = l.map X.fin ∧ (∀ d ∈ l, d < 0) ∧ s.x = .fin (sumTo x0 l) ∧
      sumTo x0 l ≤ x0 ∧ xe ≤ sumTo x0 l ∧
      (s.inner = false → s.last = false → xe < sumTo x0 l) ∧
      (s.inner = true → (s.h = .nan ∧ s.last = false ∧ xe < sumTo x0 l) ∨
        ∃ hh, s.h = .fin hh ∧ hh < 0 ∧ xe < sumTo x0 l ∧
        (if s.last then sumTo x0 l + hh = xe else xe < sumTo x0 l + hh))

theorem binv_start (o : St n L.σ) (h : X) {x xe : ℝ} (hx : xe < x) (y : Fin n → X) :
    BInv x xe (start o h (.fin x) (.fin xe) y) where
  base := inv_start o h x xe y
  pos := Or.inr ⟨[], rfl, by simp, rfl, le_rfl, hx.le, fun _ _ => hx,
    fun hi => by simp [start] at hi⟩

theorem hTop_neg (hg : Std g q) {x0 xe : ℝ} (hx : xe < x0) (hp : x0 + xe < 0) {s : St n L.σ} (hs : Inv x0 xe s) :
    ∃ v, hTop g s = .fin v ∧ v < 0 := by
  have hp' : s.posneg = .fin (-1) := by rw [hs.posneg, if_neg (not_le.2 hx)]
  obtain ⟨m, hm, hd⟩ : ∃ m, s.hmaxn = .fin m ∧ 0 < m := by
    refine ⟨_, hs.hmaxn, ?_⟩
    rw [if_neg (not_le.2 hx)]
    exact lt_min (abs_pos.2 (by linarith)) (by linarith)
  unfold hTop
  rw [hm, hp', hg.uround]
  generalize ha : (if X.ABS s.h < 10.0 * X.fin 1.0e-16 then (1.0e-6 : X) else s.h) = a
  obtain ⟨v, h1, h2, h3, h4⟩ := MIN_ABS_fin a m
  rw [h1, X.fin_mul]
  refine ⟨_, rfl, ?_⟩
  suffices 0 < v by linarith
  cases a with
  | fin r =>
    rw [h4 r rfl]
    refine lt_min (abs_pos.2 ?_) hd
    rintro rfl
    split_ifs at ha with hc
    · rw [X.ofSci_eq, X.fin_inj] at ha; norm_num at ha
    · rw [ha, X.ABS_fin, X.ofSci_eq, X.fin_mul, X.fin_lt] at hc
      norm_num at hc
  | nan =>
    have : v = m := by
      unfold X.MIN X.ABS at h1
      simp at h1; exact h1.symm
    rw [this]; exact hd
  | pinf =>
    have : v = m := by
      unfold X.MIN X.ABS at h1
      simp at h1; exact h1.symm
    rw [this]; exact hd
  | ninf =>
    have : v = m := by
      unfold X.MIN X.ABS at h1
      simp at h1; exact h1.symm
    rw [this]; exact hd

theorem binv_step (hg : Std g q) {x0 xe : ℝ} (hx : xe < x0) (hp : x0 + xe < 0) {s s' : St n L.σ}
    (hs : BInv x0 xe s) (h : step L P g s = .next s') : BInv x0 xe s' := by
  refine ⟨inv_step hg hs.base h, ?_⟩
  rcases step_cases h with ⟨hi, hl, hn, rfl⟩ | ⟨hi, j, k, err, -, he, ⟨h1, rfl⟩ | ⟨h1, -, -, rfl⟩⟩
  · rcases hs.pos with ⟨p1, p2⟩ | ⟨l, p1, p2, p3, p4, p5, p6, p7⟩
    · left
      refine ⟨p1, ?_⟩
      rw [prepared_last, if_neg (not_over_nan p1)]; exact p2
    · right
      have h6 := p6 hi hl
      obtain ⟨v, v1, v2⟩ := hTop_neg hg hx hp hs.base
      have ho := over_iff hs.base v1 p3
      rw [if_neg (not_le.2 hx)] at ho
      refine ⟨l, p1, p2, p3, p4, p5, fun hc => by simp [prepared] at hc, fun _ => Or.inr ?_⟩
      by_cases hO : Over g s
      · refine ⟨xe - sumTo x0 l, ?_, by linarith, h6, ?_⟩
        · rw [prepared_h, if_pos hO, hs.base.xend, p3, X.fin_sub]
        · have : (prepared L P g s).last = true := by rw [prepared_last, if_pos hO]
          rw [this, if_pos rfl]; ring
      · refine ⟨v, ?_, v2, h6, ?_⟩
        · rw [prepared_h, if_neg hO, v1]
        · have : (prepared L P g s).last = false := by rw [prepared_last, if_neg hO]; exact hl
          rw [this, if_neg (by decide)]
          have h7 : (sumTo x0 l + v * 1.0001 - xe) * -1 ≤ 0 := not_lt.1 fun hc => hO (ho.2 hc)
          have : v * 1.0001 < v := by norm_num; linarith
          linarith
  · rcases hs.pos with ⟨p1, p2⟩ | ⟨l, p1, p2, p3, p4, p5, p6, p7⟩
    · left; exact ⟨p1, rfl⟩
    · right
      refine ⟨l, p1, p2, p3, p4, p5, fun hc => by simp [rejected, hi] at hc, fun _ => ?_⟩
      have hlast : (rejected g s j err).last = false := rfl
      have hh' : (rejected g s j err).h = s.h / facOf g err := rfl
      rw [hlast, hh']
      simp only [Bool.false_eq_true, if_false]
      rcases p7 hi with ⟨a1, a2, a3⟩ | ⟨hh, a1, a2, a3, a4⟩
      · left; rw [a1]; exact ⟨by simp, trivial, a3⟩
      · rcases facOf_range hg (he ▸ errNorm_values _ _ _) with ⟨-, hf⟩ | ⟨f, hf, b1, b2, b3⟩
        · left; rw [hf]; exact ⟨by simp, trivial, a3⟩
        · right
          have b4 := (b3 h1).1
          have b0 : 0 < f := by linarith
          refine ⟨hh / f, by rw [hf, a1, X.fin_div _ _ b0.ne'], div_neg_of_neg_of_pos a2 b0, a3, ?_⟩
          have b5 : hh < hh / f := by rw [lt_div_iff₀ b0]; nlinarith
          split_ifs at a4 <;> linarith
  · rcases hs.pos with ⟨p1, p2⟩ | ⟨l, p1, p2, p3, p4, p5, p6, p7⟩
    · left
      refine ⟨?_, p2⟩
      show s.x + s.h = _
      rw [p1]; simp
    · rcases p7 hi with ⟨a1, a2, a3⟩ | ⟨hh, a1, a2, a3, a4⟩
      · left
        refine ⟨?_, a2⟩
        show s.x + s.h = _
        rw [a1]; simp
      · right
        have hle : xe ≤ sumTo x0 l + hh := by
          split_ifs at a4
          · exact a4.ge
          · exact a4.le
        refine ⟨hh :: l, ?_, ?_, ?_, ?_, hle, ?_, fun hc => by simp [accepted] at hc⟩
        · show s.h :: s.taken = _
          rw [a1, p1]; rfl
        · intro d hd
          rcases List.mem_cons.1 hd with rfl | hd
          · exact a2
          · exact p2 d hd
        · show s.x + s.h = _
          rw [p3, a1, X.fin_add]; rfl
        · show sumTo x0 l + hh ≤ x0
          linarith
        · intro _ hlast
          have : s.last = false := hlast
          rw [this, if_neg (by decide)] at a4
          exact a4

/-- C76, the part which holds: from `x0` down to `xend < x0` with `x0+xend < 0`, every accepted step is negative, all
accepted times are in `[xend,x0]`, and a return (one-step mode off) is at `xend`; for every right hand side and
initial step.  The factorisation and solve may do anything except hide a NaN shift. -/
theorem rodas_backward_partial (hN : NanProp L) (hg : Std g q) {o : St n L.σ} {h : X} {x0 xe : ℝ}
    (hx : xe < x0) (hp : x0 + xe < 0) {y : Fin n → X} :
    (∀ s : St n L.σ, Reach (step L P g) (start o h (.fin x0) (.fin xe) y) s →
      ∃ l : List ℝ, s.taken = l.map X.fin ∧ (∀ d ∈ l, d < 0) ∧ s.x = .fin (x0 + l.sum) ∧ xe ≤ x0 + l.sum) ∧
    (g.onlyOneStep = false → ∀ s : St n L.σ,
      Returns (step L P g) (start o h (.fin x0) (.fin xe) y) s → s.x = .fin xe) := by
  refine ⟨fun s hr => ?_, fun ho s hr => rodas_returns_at_xend hg ho hr⟩
  have key : BInv x0 xe s ∧ s.x ≠ .nan := by
    refine Reach.inv (I := fun s => BInv x0 xe s ∧ s.x ≠ .nan) ?_
      ⟨binv_start o h hx y, by simp [start]⟩ hr
    rintro s s' ⟨h1, h2⟩ hst
    refine ⟨binv_step hg hx hp h1 hst, ?_⟩
    rcases h1.pos with ⟨p1, -⟩ | ⟨l, p1, p2, p3, p4, p5, p6, p7⟩
    · exact absurd p1 h2
    · rcases step_cases hst with ⟨hi, hl, hn, rfl⟩ | ⟨hi, j, k, err, -, he, ⟨-, rfl⟩ | ⟨-, -, -, rfl⟩⟩
      · exact h2
      · exact h2
      · rcases p7 hi with ⟨a1, a2, a3⟩ | ⟨hh, a1, a2, a3, a4⟩
        · rw [(nan_step hN hi a1 hst).2.2.1]; exact h2
        · show s.x + s.h ≠ _
          rw [p3, a1, X.fin_add]; simp
  obtain ⟨h1, h2⟩ := key
  rcases h1.pos with ⟨p1, -⟩ | ⟨l, p1, p2, p3, p4, p5, p6, p7⟩
  · exact absurd p1 h2
  · exact ⟨l, p1, p2, by rw [p3, sumTo_eq], by rw [← sumTo_eq]; exact p5⟩

/-! a backward run: `y' = 0` from -1 to -2. -/

/-- solver for matrices `fac I` (Jacobian zero), one unknown. -/
noncomputable def diagLin : Lin X 1 where
  σ := X
  load _ := .nan
  decomr fac _ := some fac
  solvereal s b i := b i / s

theorem diagLin_nan : NanProp diagLin := by
  intro s s' h b
  injection h with h
  exact ⟨0, by show b 0 / (show X from s') = _; rw [← h, X.div_nan]⟩

/-- the problem `y' = 0`. -/
noncomputable def restP : Prob X 1 where
  F _ _ _ := .fin 0
  jac _ _ _ _ _ := .fin 0
  DFt _ _ _ := .fin 0
  computeJacobianNumerically := false
  autonms := true
  useDFt := true
  stored _ _ := true

noncomputable def restO : St 1 X :=
  { x := 0, h := 0, xend := 0, posneg := 0, hmaxn := 0, hopt := 0, xold := 0, hacc := 0
    erracc := 0, firstAcceptedStep := 0, last := false, reject := false, naccpt := 0, nrejct := 0
    njac := 0, nstep := 0, ndec := 0, Y := fun _ => 0, DY1 := fun _ => 0, FX := fun _ => 0
    jac := .nan, inner := false, taken := [], rejs := 0 }

theorem rest_stages (c : Coef ℚ) (x : X) (f : ℝ) (hf : f ≠ 0) (FX : Fin 1 → X) :
    (stages diagLin restP (wG c false).coef x (.fin (-1)) (fun _ => .fin 0) (fun _ => .fin 0) FX (.fin f)).AK6 =
      (fun _ => .fin 0) ∧
    (stages diagLin restP (wG c false).coef x (.fin (-1)) (fun _ => .fin 0) (fun _ => .fin 0) FX (.fin f)).YNEW =
      (fun _ => .fin 0) := by
  have d : ∀ q : ℚ, X.fin (q : ℝ) / X.fin (-1) = .fin (-(q : ℝ)) := fun q => by
    rw [X.fin_div _ _ (by norm_num)]; congr 1; ring
  have d0 : X.fin 0 / X.fin f = .fin 0 := by rw [X.fin_div _ _ hf, zero_div]
  simp [stages, slvrod, diagLin, restP, wG, Cfg.default, Coef.map, d, d0]

theorem rest_backward {meth : ℤ} {c : Coef ℚ} (hc : rocoe meth = some c) :
    ∃ s, Returns (step diagLin restP (wG c false))
      (start restO (.fin 1) (.fin (-1)) (.fin (-2)) (fun _ => .fin 0)) s ∧ s.taken = [.fin (-1)] := by
  have hS := wG_std c false
  have I := inv_start (L := diagLin) restO (.fin 1) (-1) (-2) (fun _ => .fin 0)
  have hu : (wG c false).uround = .fin 1e-16 := hS.uround.trans (by norm_num)
  generalize hs0 : start (L := diagLin) restO (.fin 1) (.fin (-1)) (.fin (-2)) (fun _ => .fin 0) = s0 at I
  have hx0 : s0.x = .fin (-1) := by rw [← hs0]; rfl
  have hh0 : s0.h = .fin 1 := by rw [← hs0]; rfl
  have ht : hTop (wG c false) s0 = .fin (-1) := by
    unfold hTop
    rw [I.hmaxn, I.posneg, if_neg (by norm_num : ¬ (-1 : ℝ) ≤ -2), if_neg (by norm_num : ¬ (-1 : ℝ) ≤ -2), hh0, hu, X.ABS_fin, X.ofSci_eq, X.fin_mul, if_neg,
      X.ABS_fin, X.MIN_fin, X.fin_mul]
    · norm_num
    · rw [X.fin_lt]; norm_num
  have hO : Over (wG c false) s0 := by
    rw [over_iff I ht hx0, if_neg (by norm_num)]
    norm_num
  have st1 : step diagLin restP (wG c false) s0 = .next (prepared diagLin restP (wG c false) s0) := by
    unfold step
    rw [if_neg (by rw [← hs0]; simp [start]), if_neg (by rw [← hs0]; simp [start]), prepare_eq, if_neg]
    rw [hh0, hx0, hu, X.ABS_fin, X.ABS_fin, X.ofSci_eq, X.fin_mul, X.fin_mul, X.fin_le]
    norm_num
  have h1 : (prepared diagLin restP (wG c false) s0).h = .fin (-1) := by
    rw [prepared_h, if_pos hO, I.xend, hx0, X.fin_sub]; norm_num
  have l1 : (prepared diagLin restP (wG c false) s0).last = true := by rw [prepared_last, if_pos hO]
  have y1 : (prepared diagLin restP (wG c false) s0).Y = fun _ => .fin 0 := by rw [← hs0]; rfl
  have n1 : (prepared diagLin restP (wG c false) s0).nstep = 0 := by rw [← hs0]; rfl
  have t1 : (prepared diagLin restP (wG c false) s0).taken = [] := by rw [← hs0]; rfl
  have d1 : (prepared diagLin restP (wG c false) s0).DY1 = fun _ => .fin 0 := rfl
  have i1 : (prepared diagLin restP (wG c false) s0).inner = true := rfl
  generalize prepared diagLin restP (wG c false) s0 = s1 at st1 h1 l1 y1 n1 t1 d1 i1
  have ef : (1 : X) / (s1.h * (wG c false).coef.GAMMA) = .fin (-4) := by
    rw [h1]
    show (1 : X) / (X.fin (-1) * X.fin c.GAMMA) = _
    rw [X.fin_mul, X.one_eq, X.fin_div]
    · rw [gamma_pos hc]; norm_num
    · rw [gamma_pos hc]; norm_num
  obtain ⟨k1, k2⟩ := rest_stages c s1.x (-4) (by norm_num) s1.FX
  have ha : attempt diagLin restP (wG c false).coef s1.x s1.h s1.Y s1.DY1 s1.FX s1.jac =
      some (.fin (-4), stages diagLin restP (wG c false).coef s1.x (.fin (-1)) (fun _ => .fin 0) (fun _ => .fin 0) s1.FX
        (.fin (-4))) := by
    unfold attempt
    rw [ef, h1, y1, d1]
    rfl
  generalize stages diagLin restP (wG c false).coef s1.x (.fin (-1)) (fun _ => .fin 0) (fun _ => .fin 0) s1.FX
        (.fin (-4)) = k at ha k1 k2
  have he : errNorm (wG c false) s1.Y k.YNEW k.AK6 = .fin 0 := by
    rw [k1, k2, y1]
    unfold errNorm
    have a1 : (wG c false).atol = fun _ => .fin 1 := rfl
    have a2 : (wG c false).rtol = fun _ => .fin 0 := rfl
    rw [a1, a2]
    have e1 : (.fin 1 + .fin 0 * X.MAX (X.ABS (.fin 0)) (X.ABS (.fin 0)) : X) = .fin 1 := by
      rw [X.ABS_fin, X.MAX_fin, X.fin_mul, X.fin_add]; norm_num
    have e2 : X.fin 0 / X.fin 1 = .fin 0 := by rw [X.fin_div _ _ one_ne_zero]; norm_num
    have e3 : X.pow (X.fin 0) 2 = .fin 0 := by unfold X.pow; norm_num
    simp only [e1, e2, e3]
    have e4 : X.ofInt ((1 : ℕ) : ℤ) = .fin 1 := by simp [X.ofInt]
    have e5 : (0.0 : X) = .fin 0 := by rw [X.ofSci_eq]; norm_num
    rw [e4, e5]
    simp [List.finRange_succ, e2, X.sqrt_fin]
  have st2 := step_accept (P := restP) i1 ha he zero_le_one (by rw [n1]; exact (by decide : (0 : ℤ) + 1 ≤ 10000)) rfl
  generalize hs2 : accepted (wG c false) s1 (X.fin (-4)) k.YNEW (X.fin 0) false = s2 at st2
  have st3 : step diagLin restP (wG c false) s2 = .ret s2 := by
    unfold step
    rw [if_neg (by rw [← hs2]; simp [accepted]), if_pos (by rw [← hs2]; exact l1)]
  refine ⟨s2, (((Reach.refl _ _).tail st1).tail st2).returns st3, ?_⟩
  rw [← hs2]
  show s1.h :: s1.taken = _
  rw [h1, t1]

example : ∃ (o : St 1 diagLin.σ) (c : Coef ℚ) (s : St 1 diagLin.σ), Std (wG c false) 0.9 ∧ NanProp diagLin ∧
    Returns (step diagLin restP (wG c false)) (start o (.fin 1) (.fin (-1)) (.fin (-2)) (fun _ => .fin 0)) s := by
  obtain ⟨c, hc⟩ : ∃ c, rocoe 1 = some c := ⟨_, rfl⟩
  obtain ⟨s, hs, -⟩ := rest_backward hc
  exact ⟨restO, c, s, wG_std c false, diagLin_nan, hs⟩

end Odes.Rodas
