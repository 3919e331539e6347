import Verif.Props.RodasBackward
import Verif.Lemmas.RodasTerm

/-! # C76: a backward run of Rodas on real data ends, and is a sequence of Rosenbrock steps -/

namespace Odes.Spec

variable {n s : ℕ}

/-- steps of negative sizes (listed last first) from `(x0,y0)` down to `(x,y)`. -/
inductive BackList {n : ℕ} (Ok : ℝ → ℝ → (Fin n → ℝ) → (Fin n → ℝ) → Prop) (x0 : ℝ)
    (y0 : Fin n → ℝ) : List ℝ → ℝ → (Fin n → ℝ) → Prop
  | nil : BackList Ok x0 y0 [] x0 y0
  | cons {l : List ℝ} {x h : ℝ} {y ynew : Fin n → ℝ} : BackList Ok x0 y0 l x y → h < 0 →
      Ok x h y ynew → BackList Ok x0 y0 (h :: l) (x + h) ynew

/-- the stages tend to 0 with the step size, negative steps. -/
theorem stages_small_back {R : Rosenbrock ℝ s} (hγ : 0 < R.gamma) {F : ℝ → (Fin n → ℝ) → Fin n → ℝ}
    {x : ℝ} {y : Fin n → ℝ} (hF : BoundedNear F x y) (J : Matrix (Fin n) (Fin n) ℝ)
    (ft : Fin n → ℝ) : ∀ m : ℕ, ∃ K η : ℝ, 0 ≤ K ∧ 0 < η ∧ ∀ h, h < 0 → -h < η → ∀ k ynew,
      R.Step F J ft x h y k ynew → ∀ j : Fin s, j.val < m → ‖k j‖ ≤ K * -h := by
  obtain ⟨M, δ, hδ, hM⟩ := hF
  obtain ⟨N, hN, hJ⟩ := exists_mulVec_bound J
  intro m
  induction m with
  | zero => exact ⟨0, 1, le_rfl, one_pos, fun _ _ _ _ _ _ _ hj => by omega⟩
  | succ m ih =>
    obtain ⟨K, η, hK, hη, ih⟩ := ih
    by_cases hm : m < s
    swap
    · exact ⟨K, η, hK, hη, fun h h0 h1 k ynew hs j hj => ih h h0 h1 k ynew hs j (by omega)⟩
    let i : Fin s := ⟨m, hm⟩
    let A := (∑ j, |R.a i j|) * K
    let C := (∑ j, |R.c i j|) * K
    have hA : 0 ≤ A := by positivity
    have hC : 0 ≤ C := by positivity
    have hM0 : 0 ≤ M := (norm_nonneg _).trans (hM x y (by simp [hδ.le]) (by simp [hδ.le]))
    let B := M + C + |R.d i| * ‖ft‖
    have hB : 0 ≤ B := by positivity
    refine ⟨max K (2 * R.gamma * B), min (min η 1) (min (min (δ / (A + 1)) (δ / (|R.alpha i| + 1)))
      (1 / (2 * R.gamma * (N + 1)))), le_max_of_le_left hK, by positivity, ?_⟩
    intro h h0 h1 k ynew hs j hj
    have hn0 : 0 < -h := by linarith
    have l1 : -h < η := h1.trans_le ((min_le_left _ _).trans (min_le_left _ _))
    have l2 : -h < 1 := h1.trans_le ((min_le_left _ _).trans (min_le_right _ _))
    have l3 : -h < δ / (A + 1) :=
      h1.trans_le ((min_le_right _ _).trans ((min_le_left _ _).trans (min_le_left _ _)))
    have l4 : -h < δ / (|R.alpha i| + 1) :=
      h1.trans_le ((min_le_right _ _).trans ((min_le_left _ _).trans (min_le_right _ _)))
    have l5 : -h < 1 / (2 * R.gamma * (N + 1)) :=
      h1.trans_le ((min_le_right _ _).trans (min_le_right _ _))
    have hlt := ih h h0 l1 k ynew hs
    by_cases hji : j.val < m
    · exact (hlt j hji).trans (mul_le_mul_of_nonneg_right (le_max_left _ _) hn0.le)
    have hjeq : j = i := Fin.ext (by show j.val = m; omega)
    subst hjeq
    refine le_trans ?_ (mul_le_mul_of_nonneg_right (le_max_right _ _) hn0.le)
    have hKh : 0 ≤ K * -h := by positivity
    have e1 : ‖∑ j, if j < i then R.a i j • k j else 0‖ ≤ A * -h := by
      have := sum_bound Finset.univ (fun j => j < i) (R.a i) k hKh fun j hj => hlt j hj
      calc _ ≤ _ := this
        _ = _ := by ring
    have e2 : ‖∑ j, if j < i then (R.c i j / h) • k j else 0‖ ≤ C := by
      have := sum_bound Finset.univ (fun j => j < i) (fun j => R.c i j / h) k hKh
        fun j hj => hlt j hj
      refine this.trans (le_of_eq ?_)
      show _ = (∑ j, |R.c i j|) * K
      rw [Finset.sum_mul, Finset.sum_mul]
      refine Finset.sum_congr rfl fun j _ => ?_
      rw [abs_div, abs_of_neg h0]
      have hne : h ≠ 0 := h0.ne
      field_simp
    have e3 := hs.1 i
    have e4 : ‖F (x + R.alpha i * h) (y + ∑ j, if j < i then R.a i j • k j else 0)‖ ≤ M := by
      refine hM _ _ ?_ ?_
      · rw [add_sub_cancel_left, abs_mul, abs_of_neg h0]
        rw [lt_div_iff₀ (by positivity)] at l4
        nlinarith [abs_nonneg (R.alpha i)]
      · rw [add_sub_cancel_left]
        rw [lt_div_iff₀ (by positivity)] at l3
        nlinarith
    have e5 : ‖(h * R.d i) • ft‖ ≤ |R.d i| * ‖ft‖ := by
      rw [norm_smul, Real.norm_eq_abs, abs_mul, abs_of_neg h0]
      have := mul_nonneg (abs_nonneg (R.d i)) (norm_nonneg ft)
      nlinarith
    have e6 : ‖((1 / (h * R.gamma)) • (1 : Matrix (Fin n) (Fin n) ℝ) - J).mulVec (k i)‖ ≤ B := by
      rw [e3]
      exact (norm_add_le _ _).trans (add_le_add ((norm_add_le _ _).trans (add_le_add e4 e2)) e5)
    rw [Matrix.sub_mulVec, Matrix.smul_mulVec, Matrix.one_mulVec] at e6
    have e7 : ‖(1 / (h * R.gamma)) • k i‖ ≤ B + N * ‖k i‖ := by
      have := norm_sub_norm_le ((1 / (h * R.gamma)) • k i) (J.mulVec (k i))
      have := hJ (k i)
      linarith
    have hg0 : 0 < -h * R.gamma := by positivity
    rw [norm_smul, Real.norm_eq_abs, show 1 / (h * R.gamma) = -(1 / (-h * R.gamma)) by
      rw [neg_mul, one_div_neg_eq_neg_one_div, neg_neg], abs_neg, abs_of_pos (by positivity)] at e7
    have e8 : -h * R.gamma * N ≤ 1 / 2 := by
      rw [lt_div_iff₀ (by positivity)] at l5
      nlinarith
    have e9 : ‖k i‖ ≤ -h * R.gamma * B + (-h * R.gamma * N) * ‖k i‖ := by
      have := mul_le_mul_of_nonneg_left e7 hg0.le
      have e : -h * R.gamma * (1 / (-h * R.gamma) * ‖k i‖) = ‖k i‖ := by
        rw [← mul_assoc, mul_one_div_cancel hg0.ne', one_mul]
      rw [e] at this
      linarith
    have := mul_le_mul_of_nonneg_right e8 (norm_nonneg (k i))
    linarith

end Odes.Spec

namespace Odes.Rodas

open Classical

variable {n : ℕ} {L : Lin X n} {Lr : Lin ℝ n} {P : Prob X n} {Q : Prob ℝ n} {g : Cfg n} {q : ℝ}
  {c : Coef ℝ} {a r : Fin n → ℝ} {Shape : (Fin n → Fin n → ℝ) → Prop}

/-- the values held by a backward run are real. -/
structure BRInv (hL : LinX L Lr) (hS : LinSpec Lr Shape) (Q : Prob ℝ n) (c : Coef ℝ)
    (a r : Fin n → ℝ) (x0 : ℝ) (y0 : Fin n → ℝ) (s : St n L.σ) (x : ℝ) (y : Fin n → ℝ) : Prop where
  time : s.x = .fin x
  Y : s.Y = fins y
  list : ∃ l : List ℝ, s.taken = l.map X.fin ∧ Spec.BackList (StepOk c Q a r) x0 y0 l x y
  h : s.inner = true → ∃ hh, s.h = .fin hh
  DY1 : s.inner = true → s.DY1 = fins (Q.F x y)
  FX : s.inner = true → Q.autonms = false → s.FX = fins (dfxR Q x y)
  jac : s.inner = true → ∃ sr, hL.R sr s.jac ∧ hS.R (jacR Q x y) sr

theorem BInv.h_neg {x0 xe : ℝ} {s : St n L.σ} (hf : BInv x0 xe s) (hi : s.inner = true) {x hh : ℝ}
    (hx : s.x = .fin x) (h : s.h = .fin hh) : hh < 0 ∧ xe ≤ x + hh := by
  rcases hf.pos with ⟨p1, -⟩ | ⟨l, p1, p2, p3, p4, p5, p6, p7⟩
  · rw [hx] at p1; simp at p1
  · rw [hx, X.fin_inj] at p3
    rcases p7 hi with ⟨a1, -⟩ | ⟨h', a1, a2, a3, a4⟩
    · rw [h] at a1; simp at a1
    · rw [h, X.fin_inj] at a1
      subst a1
      refine ⟨a2, ?_⟩
      rw [p3]
      split_ifs at a4
      · exact a4.ge
      · exact a4.le

/-- what one pass through the `do` loop does on real data. -/
theorem body_back (hn : 0 < n) (hL : LinX L Lr) (hS : LinSpec Lr Shape) (hP : ProbX P Q)
    (hg : RealCfg g c a r) {x0 xe : ℝ} {y0 : Fin n → ℝ} {s : St n L.σ} {x : ℝ} {y : Fin n → ℝ}
    (hf : BInv x0 xe s) (hs : BRInv hL hS Q c a r x0 y0 s x y) (hi : s.inner = true)
    {j : L.σ} {k : Stages X n} (ha : attempt L P g.coef s.x s.h s.Y s.DY1 s.FX s.jac = some (j, k)) :
    ∃ hh sr' ks ynew, s.h = .fin hh ∧ hh < 0 ∧ hL.R sr' j ∧ hS.R (jacR Q x y) sr' ∧
      (method c).Step Q.F (Matrix.of (jacR Q x y)) (dfxR Q x y) x hh y ks ynew ∧
      k.YNEW = fins ynew ∧
      errNorm g s.Y k.YNEW k.AK6 = .fin (Spec.wrms a r y ynew (ks 5)) := by
  obtain ⟨hh, h1⟩ := hs.h hi
  have h2 := (hf.h_neg hi hs.time h1).1
  obtain ⟨sr, h3, h4⟩ := hs.jac hi
  rw [hs.time, h1, hs.Y, hs.DY1 hi] at ha
  rcases attempt_real hL hS hP hg h2.ne (hs.FX hi) h3 h4 with hb | ⟨j', k', sr', ks, ynew, b1, b2, b3, b4, b5, b6⟩
  · rw [hb] at ha; simp at ha
  · rw [b1] at ha
    simp only [Option.some.injEq, Prod.mk.injEq] at ha
    obtain ⟨rfl, rfl⟩ := ha
    exact ⟨hh, sr', ks, ynew, h1, h2, b2, b3, b4, b5, by rw [hs.Y, b5, b6, errNorm_fin hn hg]⟩

theorem brinv_step (hn : 0 < n) (hq : Std g q) (hL : LinX L Lr) (hS : LinSpec Lr Shape)
    (hP : ProbX P Q) (hg : RealCfg g c a r) (hSh : ∀ x y, Shape (jacR Q x y)) {x0 xe : ℝ}
    (hx : xe < x0) (hp : x0 + xe < 0) {y0 : Fin n → ℝ} {s s' : St n L.σ} (hf : BInv x0 xe s)
    (hs : ∃ x y, BRInv hL hS Q c a r x0 y0 s x y) (h : step L P g s = .next s') :
    ∃ x y, BRInv hL hS Q c a r x0 y0 s' x y := by
  obtain ⟨x, y, hs⟩ := hs
  rcases step_cases h with ⟨hi, hl, -, rfl⟩ | ⟨hi, j, k, err, ha, he, hb⟩
  · refine ⟨x, y, hs.time, hs.Y, hs.list, fun _ => ?_, fun _ => ?_, fun _ hau => ?_, fun _ => ?_⟩
    · rw [prepared_h, hs.time, hf.base.xend]
      obtain ⟨v, v1, -⟩ := hTop_neg hq hx hp hf.base
      split_ifs
      · exact ⟨_, X.fin_sub _ _⟩
      · exact ⟨v, v1⟩
    · show P.F s.x s.Y = _
      rw [hs.time, hs.Y, hP.F]
    · show (if P.autonms then s.FX else dfx P g.uround s.x s.Y (P.F s.x s.Y)) = _
      rw [hP.autonms, hau, if_neg (by decide), hs.time, hs.Y, hP.F, dfx_fin hP hq.uround x y hau]
    · refine ⟨Lr.load (jacR Q x y), ?_, hS.load _ (hSh x y)⟩
      show hL.R _ (L.load (if P.computeJacobianNumerically then
        numJac P g.uround s.x s.Y (P.F s.x s.Y) else P.jac s.x s.Y (P.F s.x s.Y)))
      rw [hs.time, hs.Y, hP.F, jac_fin hP hq.uround]
      exact hL.load _
  · obtain ⟨hh, sr', ks, ynew, c1, c2, c3, c4, c5, c6, c7⟩ := body_back hn hL hS hP hg hf hs hi ha
    rw [c7] at he
    rcases hb with ⟨h1, rfl⟩ | ⟨h1, -, -, rfl⟩
    · refine ⟨x, y, hs.time, hs.Y, hs.list, fun _ => ?_, fun _ => hs.DY1 hi, fun _ => hs.FX hi,
        fun _ => ⟨sr', c3, c4⟩⟩
      show ∃ v, s.h / facOf g err = _
      rw [he, c1]
      rcases facOf_range hq (err := .fin (Spec.wrms a r y ynew (ks 5)))
        (Or.inr (Or.inr ⟨_, Real.sqrt_nonneg _, rfl⟩)) with ⟨hf1, -⟩ | ⟨f, hf1, hf2, -⟩
      · simp at hf1
      · rw [hf1]
        exact ⟨_, X.fin_div _ _ (by linarith)⟩
    · obtain ⟨l, l1, l2⟩ := hs.list
      refine ⟨x + hh, ynew, ?_, c6, ⟨hh :: l, ?_, l2.cons c2 ⟨ks, c5, ?_⟩⟩, ?_, ?_, ?_, ?_⟩
      · show s.x + s.h = _
        rw [hs.time, c1, X.fin_add]
      · show s.h :: s.taken = _
        rw [c1, l1]; rfl
      · rw [he, X.ofSci_eq, X.fin_le] at h1
        norm_num at h1
        exact h1
      all_goals
        intro hc
        simp [accepted] at hc

theorem brinv_reach (hn : 0 < n) (hq : Std g q) (hL : LinX L Lr) (hS : LinSpec Lr Shape)
    (hP : ProbX P Q) (hg : RealCfg g c a r) (hSh : ∀ x y, Shape (jacR Q x y)) {x0 xe : ℝ}
    (hx : xe < x0) (hp : x0 + xe < 0) {y0 : Fin n → ℝ} {o : St n L.σ} {h : X} {s : St n L.σ}
    (hr : Reach (step L P g) (start o h (.fin x0) (.fin xe) (fins y0)) s) :
    BInv x0 xe s ∧ ∃ x y, BRInv hL hS Q c a r x0 y0 s x y := by
  refine Reach.inv (I := fun s => BInv x0 xe s ∧ ∃ x y, BRInv hL hS Q c a r x0 y0 s x y)
    (fun _ _ hI hst => ⟨binv_step hq hx hp hI.1 hst,
      brinv_step hn hq hL hS hP hg hSh hx hp hI.1 hI.2 hst⟩) ⟨binv_start o h hx _, ?_⟩ hr
  exact ⟨x0, y0, rfl, rfl, ⟨[], rfl, .nil⟩, fun hc => by simp [start] at hc, fun hc => by simp [start] at hc,
    fun hc => by simp [start] at hc, fun hc => by simp [start] at hc⟩

theorem terminates_back (hn : 0 < n) (hq : Std g q) (hq1 : q < 1) (hL : LinX L Lr)
    (hS : LinSpec Lr Shape) (hP : ProbX P Q) (hg : RealCfg g c a r) (hγ : 0 < c.GAMMA)
    (hSh : ∀ x y, Shape (jacR Q x y)) (hF : ∀ x y, Spec.BoundedNear Q.F x y) {x0 xe : ℝ}
    (hx : xe < x0) (hp : x0 + xe < 0) (y0 : Fin n → ℝ) (o : St n L.σ) (h : X) :
    Terminates (step L P g) (start o h (.fin x0) (.fin xe) (fins y0)) := by
  by_contra hT
  have hd := not_terminates_diverges hT
  generalize hs0 : start o h (.fin x0) (.fin xe) (fins y0) = s0 at hd
  have hreach : ∀ s, Reach (step L P g) s0 s →
      BInv x0 xe s ∧ ∃ x y, BRInv hL hS Q c a r x0 y0 s x y := fun s hr =>
    brinv_reach hn hq hL hS hP hg hSh hx hp (o := o) (h := h) (hs0 ▸ hr)
  obtain ⟨k0, hk0⟩ := diverges_inner _ rfl hd
  obtain ⟨t0, ht0, hi0⟩ := hk0 k0 le_rfl
  obtain ⟨hf0, x, y, hr0⟩ := hreach t0 ⟨k0, ht0⟩
  obtain ⟨K, η, hK, hη, hsm⟩ := Spec.stages_small_back (R := method c) hγ (hF x y)
    (Matrix.of (jacR Q x y)) (dfxR Q x y) 6
  obtain ⟨ε, hε, hw⟩ := Spec.wrms_small hn hg.a0 hg.r0
  obtain ⟨h0, hh0⟩ := hr0.h hi0
  have hh0p := (hf0.h_neg hi0 hr0.time hh0).1
  let ρ := min 5 (1 / q)
  have hρ : 1 < ρ := lt_min (by norm_num) (by rw [lt_div_iff₀ hq.q0]; linarith)
  have key : ∀ m, ∃ t hh, run (step L P g) (k0 + m) s0 = .next t ∧ t.inner = true ∧
      BInv x0 xe t ∧ BRInv hL hS Q c a r x0 y0 t x y ∧ t.h = .fin hh ∧ -hh ≤ -h0 * (1 / ρ) ^ m := by
    intro m
    induction m with
    | zero => exact ⟨t0, h0, ht0, hi0, hf0, hr0, hh0, by simp⟩
    | succ m ih =>
      obtain ⟨t, hh, b1, b2, b3, b4, b5, b6⟩ := ih
      obtain ⟨t', b1', b2'⟩ := hk0 (k0 + (m + 1)) (by omega)
      have hst : step L P g t = .next t' := by
        rw [← add_assoc, run_add, b1] at b1'
        simp only [run] at b1'
        cases hc : step L P g t with
        | next u => rw [hc] at b1'; exact b1'
        | ret u => rw [hc] at b1'; simp at b1'
        | throw u => rw [hc] at b1'; simp at b1'
        | ub u => rw [hc] at b1'; simp at b1'
      obtain ⟨j, k, err, ha, he, h1, rfl⟩ := inner_inner hst b2 b2'
      obtain ⟨f', x', y', b4'⟩ := hreach _ ⟨_, b1'⟩
      have hxx : x' = x := X.fin_inj.1 (b4'.time.symm.trans b4.time)
      have hyy : y' = y := fins_inj (b4'.Y.symm.trans b4.Y)
      subst hxx hyy
      have hhp := (b3.h_neg b2 b4.time b5).1
      obtain ⟨hh2, -, ks, ynew, c1, -, -, -, c5, -, c7⟩ := body_back hn hL hS hP hg b3 b4 b2 ha
      rcases facOf_range hq (err := err) (he ▸ errNorm_values _ _ _) with ⟨hn1, -⟩ | ⟨f, d1, d2, d3, d4⟩
      · rw [c7] at he; rw [he] at hn1; simp at hn1
      · have d5 : ρ ≤ f := (d4 h1).2
        have hf0 : 0 < f := by linarith
        refine ⟨_, hh / f, b1', b2', f', b4', ?_, ?_⟩
        · show t.h / facOf g err = _
          rw [b5, d1, X.fin_div _ _ hf0.ne']
        · rw [pow_succ, ← mul_assoc]
          have : -hh / f ≤ -hh / ρ := div_le_div_of_nonneg_left (by linarith) (by linarith) d5
          rw [← neg_div]
          refine this.trans ?_
          rw [div_eq_mul_one_div]
          exact mul_le_mul_of_nonneg_right b6 (by positivity)
  -- a step size which must be accepted
  have hlim : Filter.Tendsto (fun m : ℕ => -h0 * (1 / ρ) ^ m) Filter.atTop (nhds 0) := by
    have := (tendsto_pow_atTop_nhds_zero_of_lt_one (r := 1 / ρ) (by positivity)
      (by rw [div_lt_one (by linarith)]; exact hρ)).const_mul (-h0)
    simpa using this
  have hpos : 0 < min η (ε / (K + 1)) := by positivity
  obtain ⟨m, hm⟩ := (hlim.eventually_lt_const hpos).exists
  obtain ⟨t, hh, b1, b2, b3, b4, b5, b6⟩ := key m
  obtain ⟨t', b1', b2'⟩ := hk0 (k0 + (m + 1)) (by omega)
  have hst : step L P g t = .next t' := by
    rw [← add_assoc, run_add, b1] at b1'
    simp only [run] at b1'
    cases hc : step L P g t with
    | next u => rw [hc] at b1'; exact b1'
    | ret u => rw [hc] at b1'; simp at b1'
    | throw u => rw [hc] at b1'; simp at b1'
    | ub u => rw [hc] at b1'; simp at b1'
  obtain ⟨j, k, err, ha, he, h1, rfl⟩ := inner_inner hst b2 b2'
  obtain ⟨hh2, -, ks, ynew, c1, c2, -, -, c5, -, c7⟩ := body_back hn hL hS hP hg b3 b4 b2 ha
  rw [b5, X.fin_inj] at c1
  subst c1
  have hlt : -hh < min η (ε / (K + 1)) := b6.trans_lt hm
  have hk := hsm hh c2 (hlt.trans_le (min_le_left _ _)) ks ynew c5 5 (by decide)
  have hle : ‖ks 5‖ ≤ ε := by
    have h3 : -hh < ε / (K + 1) := hlt.trans_le (min_le_right _ _)
    rw [lt_div_iff₀ (by linarith)] at h3
    nlinarith
  apply h1
  rw [he, c7, X.ofSci_eq, X.fin_le]
  norm_num
  exact hw y ynew (ks 5) hle

/-- how a run of Rodas can stop. -/
theorem run_outcome (k : ℕ) : ∀ s : St n L.σ, (∀ u, run (step L P g) k s ≠ .ub u) ∧
    ∀ e, run (step L P g) k s = .throw e → e = .stepTooSmall ∨ e = .nstepTooLarge ∨ e = .factorisation := by
  have one : ∀ s : St n L.σ, (∀ u, step L P g s ≠ .ub u) ∧
      ∀ e, step L P g s = .throw e → e = .stepTooSmall ∨ e = .nstepTooLarge ∨ e = .factorisation := by
    intro s
    unfold step
    split_ifs
    · unfold body
      cases attempt L P g.coef s.x s.h s.Y s.DY1 s.FX s.jac with
      | none => exact ⟨fun u h => by simp at h, fun e h => by simp at h; exact Or.inr (Or.inr h.symm)⟩
      | some v =>
        simp only
        split_ifs
        · exact ⟨fun u h => by simp at h, fun e h => by simp at h⟩
        · exact ⟨fun u h => by simp at h, fun e h => by simp at h; exact Or.inr (Or.inl h.symm)⟩
        · exact ⟨fun u h => by simp at h, fun e h => by simp at h⟩
        · exact ⟨fun u h => by simp at h, fun e h => by simp at h⟩
    · exact ⟨fun u h => by simp at h, fun e h => by simp at h⟩
    · rw [prepare_eq]
      split_ifs
      · exact ⟨fun u h => by simp at h, fun e h => by simp at h; exact Or.inl h.symm⟩
      · exact ⟨fun u h => by simp at h, fun e h => by simp at h⟩
  induction k with
  | zero => exact fun s => ⟨fun u h => by simp [run] at h, fun e h => by simp [run] at h⟩
  | succ k ih =>
    intro s
    have h1 := one s
    simp only [run]
    cases hc : step L P g s with
    | next t => exact ih t
    | ret t => exact ⟨fun u h => by simp at h, fun e h => by simp at h⟩
    | throw t => rw [hc] at h1; exact h1
    | ub t => rw [hc] at h1; exact h1

/-- C76, the part which holds: from `x0` down to `xend < x0` with `x0+xend < 0`, every call on a right hand side bounded
near every point ends, either at `xend`, after Rosenbrock steps of negative sizes with error estimates at most 1, or by
one of the three exceptions (step too small, too many steps, singular matrix). -/
theorem rodas_backward_ends_partial (hn : 0 < n) (hq : Std g q) (hq1 : q < 1) (hL : LinX L Lr)
    (hS : LinSpec Lr Shape) (hP : ProbX P Q) (hg : RealCfg g c a r) (hγ : 0 < c.GAMMA)
    (hSh : ∀ x y, Shape (jacR Q x y)) (hF : ∀ x y, Spec.BoundedNear Q.F x y) (ho : g.onlyOneStep = false)
    {x0 xe : ℝ} (hx : xe < x0) (hp : x0 + xe < 0) (y0 : Fin n → ℝ) (o : St n L.σ) (h : X) :
    (∃ (s : St n L.σ) (y : Fin n → ℝ) (l : List ℝ),
      Returns (step L P g) (start o h (.fin x0) (.fin xe) (fins y0)) s ∧
      s.x = .fin xe ∧ s.Y = fins y ∧ s.taken = l.map X.fin ∧
      Spec.BackList (fun x h y ynew => ∃ k, (method c).Step Q.F (Matrix.of (jacR Q x y))
        (dfxR Q x y) x h y k ynew ∧ Spec.wrms a r y ynew (k 5) ≤ 1) x0 y0 l xe y) ∨
    Throws (step L P g) (start o h (.fin x0) (.fin xe) (fins y0)) .stepTooSmall ∨
    Throws (step L P g) (start o h (.fin x0) (.fin xe) (fins y0)) .nstepTooLarge ∨
    Throws (step L P g) (start o h (.fin x0) (.fin xe) (fins y0)) .factorisation := by
  obtain ⟨k, hk⟩ := terminates_back hn hq hq1 hL hS hP hg hγ hSh hF hx hp y0 o h
  obtain ⟨o1, o2⟩ := run_outcome (L := L) (P := P) (g := g) k (start o h (.fin x0) (.fin xe) (fins y0))
  cases hc : run (step L P g) k (start o h (.fin x0) (.fin xe) (fins y0)) with
  | next t => exact absurd hc (hk t)
  | ub u => exact absurd hc (o1 u)
  | throw e =>
    right
    rcases o2 e hc with rfl | rfl | rfl
    · exact Or.inl ⟨k, hc⟩
    · exact Or.inr (Or.inl ⟨k, hc⟩)
    · exact Or.inr (Or.inr ⟨k, hc⟩)
  | ret s =>
    left
    have hr : Returns (step L P g) (start o h (.fin x0) (.fin xe) (fins y0)) s := ⟨k, hc⟩
    have hxe := rodas_returns_at_xend hq ho hr
    obtain ⟨t, h1, h2⟩ := hr.last
    rcases step_ret h2 with ⟨hi, hl, rfl⟩ | ⟨-, h3, -⟩
    · obtain ⟨-, x, y, hR⟩ := brinv_reach hn hq hL hS hP hg hSh hx hp h1
      have : x = xe := X.fin_inj.1 (hR.time.symm.trans hxe)
      subst this
      obtain ⟨l, l1, l2⟩ := hR.list
      exact ⟨_, y, l, hr, hR.time, hR.Y, l1, l2⟩
    · rw [ho] at h3; simp at h3

/-- the hypotheses are met by the default object and any continuous scalar right hand side. -/
example {meth : ℤ} {c : Coef ℚ} (hc : rocoe meth = some c) (f : ℝ → ℝ → ℝ)
    (hf : Continuous fun p : ℝ × ℝ => f p.1 p.2) (h : X) (y0 : Fin 1 → ℝ) :
    Terminates (step (exactLinX 1) (lift (wQ fun x y _ => f x (y 0))) (wG c false))
      (start wO h (.fin 1) (.fin (-2)) (fins y0)) := by
  refine terminates_back one_pos (wG_std c false) (by norm_num) (exactLin_finite 1)
    (exactLin_spec 1) (lift_probX _) (wG_real hc false) ?_ (fun _ _ => trivial) ?_ (by norm_num) (by norm_num) y0 wO h
  · show (0 : ℝ) < ((c.GAMMA : ℚ) : ℝ)
    rw [gamma_pos hc]; norm_num
  · intro x y
    refine Spec.boundedNear_of_continuous ?_ x y
    refine continuous_pi fun i => ?_
    exact hf.comp (continuous_fst.prodMk ((continuous_apply 0).comp continuous_snd))

end Odes.Rodas
