import Verif.Lemmas.RadauReal

/-! The invariant of runs of Radau5 on real data is kept by all transitions. -/

namespace Odes.Radau

open Classical

variable {n : ℕ} {L : Lin X n} {Lr : Lin ℝ n} {P : Prob X n} {Q : Prob ℝ n} {g : Cfg n} {sf u : ℝ}
  {c : Consts ℝ} {Shape : Matrix (Fin n) (Fin n) ℝ → Prop} {hL : LinX L Lr} {hS : LinSpec Lr Shape}
  {N : ℕ} {K : Test n} {x0 x xe hh : ℝ} {y0 y : Fin n → ℝ} {p : Option (ℝ × Matrix (Fin 3) (Fin n) ℝ)}
  {J : Matrix (Fin n) (Fin n) ℝ} {s t : St n L.σ}

/-- some instance of the invariant. -/
def Inv (hL : LinX L Lr) (hS : LinSpec Lr Shape) (Q : Prob ℝ n) (c : Consts ℝ) (u : ℝ) (N : ℕ)
    (K : Test n) (x0 : ℝ) (y0 : Fin n → ℝ) (s : St n L.σ) : Prop :=
  ∃ x y p J hh, RInv hL hS Q c u N K x0 y0 s x y p J hh

theorem Run.hpos (hr : Run g sf x0 xe s) : ∃ hh, s.h = .fin hh ∧ 0 < hh := by
  obtain ⟨l, hh, -, -, -, -, -, b6, b7, -⟩ := hr.pos
  exact ⟨hh, b6, b7⟩

theorem stageValues_eq (Q : Prob ℝ n) (c : Consts ℝ) (x h : ℝ) (y : Fin n → ℝ) (Z : Tri ℝ n) :
    Spec.stageValues (newtonMethod c) Q.F x h y Z.mat = stageF Q c x (x + h) h y Z := by
  ext i k
  fin_cases i
  · rfl
  · rfl
  · show Q.F (x + 1 * h) _ k = Q.F (x + h) _ k
    rw [one_mul]
    rfl

theorem inv_init (hP : ProbX P Q) (hg : Std g sf u) (hc : g.c = c.map X.fin)
    (hSh : ∀ x y, Shape (jacM Q u x y)) (hs : AtInit x0 xe s) (hY : s.Y = fins y0)
    (h : init L P g s = .next t) (hr : Run g sf x0 xe t) : Inv hL hS Q c u N K x0 y0 t := by
  unfold init at h
  obtain ⟨j, hm, hk⟩ := withMatrices_next.mp h
  injection hk with hk
  subst hk
  obtain ⟨hh, e1, e2⟩ := hr.hpos
  have hC : Core hL hS Q c u N K x0 y0 (newJac L P g (entered P g s)) x0 y0 none (jacM Q u x0 y0) :=
    core_newJac hP hg hSh hs.x hY (by
      show P.F s.x s.Y = _
      rw [hs.x, hY, hP.F]) .refl rfl rfl (by simp)
  obtain ⟨k1, k2⟩ := hC.factored hc e2.ne' e1 hm
  exact ⟨_, _, _, _, hh, ⟨k1.congr rfl rfl rfl rfl rfl rfl rfl rfl, e1, k2, (by intro h; cases h), (by intro h; cases h)⟩⟩

theorem inv_check (hs : Inv hL hS Q c u N K x0 y0 s) : Inv hL hS Q c u N K x0 y0 { s with phase := .attempt } := by
  obtain ⟨x, y, p, J, hh, hR⟩ := hs
  exact ⟨x, y, p, J, hh, ⟨hR.toCore.congr rfl rfl rfl rfl rfl rfl rfl rfl, hR.h, hR.mats,
    (by intro h; cases h), (by intro h; cases h)⟩⟩

theorem inv_attempt (hc : g.c = c.map X.fin) (hs : Inv hL hS Q c u N K x0 y0 s) :
    Inv hL hS Q c u N K x0 y0 (attempt g s) := by
  obtain ⟨x, y, p, J, hh, hR⟩ := hs
  refine ⟨x, y, p, J, hh, ⟨hR.toCore.congr rfl rfl rfl rfl rfl rfl rfl rfl, hR.h, hR.mats,
    fun _ => ?_, (by intro h; cases h)⟩⟩
  have ef : (s.startn || s.first) = p.isNone := by rw [hR.startn, hR.first]; rfl
  unfold attempt
  dsimp only
  rw [ef, hc]
  cases p with
  | none =>
    refine ⟨Tri.ofMat 0, Tri.ofMat 0, ?_, ?_, ?_⟩
    · show ({ v1 := fun _ => 0.0, v2 := fun _ => 0.0, v3 := fun _ => 0.0 } : Tri X n) = _
      have : (0.0 : X) = .fin 0 := (X.ofSci_eq _ _ _).trans (by norm_num)
      rw [this]; rfl
    · show ({ v1 := fun _ => 0.0, v2 := fun _ => 0.0, v3 := fun _ => 0.0 } : Tri X n) = _
      have : (0.0 : X) = .fin 0 := (X.ofSci_eq _ _ _).trans (by norm_num)
      rw [this]; rfl
    · have e : (Tri.ofMat (0 : Matrix (Fin 3) (Fin n) ℝ)).mat = 0 := by
        ext i k
        fin_cases i <;> rfl
      rw [e]
      have h0 := Spec.Iterate.zero (M := newtonMethod c) (F := Q.F) (J := J) (x := x) (h := hh) (y := y)
        (Z0 := 0)
      rw [Matrix.mul_zero] at h0
      exact h0
  | some q =>
    obtain ⟨a1, a2, a3⟩ := hR.save q rfl
    have e : extrapolate (c.map X.fin) s.h s.hold s.save
        = (extrapolate c hh q.1 (saves c (Tri.ofMat q.2))).fins := by
      rw [hR.h, a1, a3, extrapolate_fins c a2.ne']
    refine ⟨extrapolate c hh q.1 (saves c (Tri.ofMat q.2)),
      forth c (extrapolate c hh q.1 (saves c (Tri.ofMat q.2))), e, ?_, ?_⟩
    · show forth (c.map X.fin) (extrapolate (c.map X.fin) s.h s.hold s.save) = _
      rw [e, forth_fins]
    · rw [forth_mat]
      exact Spec.Iterate.zero

/-- one Newton iteration. -/
theorem iterate_next (hP : ProbX P Q) (hc : g.c = c.map X.fin)
    (hR : RInv hL hS Q c u N K x0 y0 s x y p J hh) (hr : Run g sf x0 xe s) (hp : s.phase = .newton) :
    ∃ Z W : Tri ℝ n, back g.c (addTri s.FF (incr L P g s)) = Z.fins ∧
      addTri s.FF (incr L P g s) = W.fins ∧
      Spec.Iterate (newtonMethod c) Q.F J x hh y (startZ c hh p) (s.newt.toNat + 1) Z.mat W.mat := by
  obtain ⟨Z, W, e1, e2, hI⟩ := hR.newton hp
  obtain ⟨l, h', -, -, -, b4, -, b6, b7, -, -, -, b11⟩ := hr.pos
  obtain ⟨w, -, c2, -, -, -, -, c7⟩ := b11 (Or.inl hp)
  obtain rfl := c7 (Or.inl hp)
  obtain rfl : h' = hh := X.fin_inj.1 (b6.symm.trans hR.h)
  have ex : x0 + l.sum = x := X.fin_inj.1 (b4.symm.trans hR.time)
  rw [ex] at c2
  obtain ⟨sr0, sr, k1, k2, -, k4, k5, -⟩ := hR.mats
  have ei : incr L P g s = (increment Lr Q c x (x + h') h' y sr Z W).fins := by
    unfold incr
    rw [hc, hR.time, c2, hR.h, hR.Y, e1, e2]
    exact increment_fins hL hP b7.ne' y k4 k5 Z W
  have hsol := increment_solves hS (P := Q) (x := x) (xph := x + h') (Y := y) k1 k2 Z W
  refine ⟨back c (addTri W (increment Lr Q c x (x + h') h' y sr Z W)),
    addTri W (increment Lr Q c x (x + h') h' y sr Z W), ?_, ?_, ?_⟩
  · rw [ei, e2, hc]; rfl
  · rw [ei, e2]; rfl
  · rw [back_mat, addTri_mat]
    refine .succ hI ?_
    rw [stageValues_eq]
    exact hsol

theorem inv_newton (hP : ProbX P Q) (hg : Std g sf u) (hc : g.c = c.map X.fin)
    (hSh : ∀ x y, Shape (jacM Q u x y)) (hN : (N : ℤ) = g.nit) (hs : Inv hL hS Q c u N K x0 y0 s)
    (hr : Run g sf x0 xe s) (hr' : Run g sf x0 xe t) (hp : s.phase = .newton)
    (h : newton L P g s = .next t) : Inv hL hS Q c u N K x0 y0 t := by
  obtain ⟨x, y, p, J, hh, hR⟩ := hs
  obtain ⟨Z, W, z1, z2, hI⟩ := iterate_next hP hc hR hr hp
  have hn0 := hr.newt0 (Or.inl hp)
  have hn2 := hr.newt2 hp
  obtain ⟨l, h', -, -, -, b4, -, b6, b7, -, -, -, b11⟩ := hr.pos
  obtain ⟨w, c1, -, -, -, -, -, c7⟩ := b11 (Or.inl hp)
  obtain rfl := c7 (Or.inl hp)
  obtain rfl : h' = hh := X.fin_inj.1 (b6.symm.trans hR.h)
  obtain ⟨x', y', p', j1, j2, j3⟩ := hR.jac
  obtain ⟨ht, e1, e2⟩ := hr'.hpos
  rcases newtonStep_cases (L := L) (P := P) (g := g) s with
    ⟨r, fc, th, tq, e, hres, -⟩ | ⟨n1, n2, fc, th, tq, h2, e, hh2⟩
  · rcases hres with ⟨rfl, hnit⟩ | ⟨hnit, rfl, -⟩ | ⟨hnit, rfl, -⟩
    · rw [newton_some e] at h
      unfold afterNewton at h
      dsimp only at h
      obtain ⟨j, hm, hk⟩ := withMatrices_next.mp h
      injection hk with hk
      subst hk
      obtain ⟨J', hC⟩ := (hR.toCore.congr (t := { pass L P g s fc th tq with
        h := (pass L P g s fc th tq).h * 0.5, dnc := true, reason := .didNotConverge })
        rfl rfl rfl rfl rfl rfl rfl rfl).refresh hP hg hSh
      have e3 : (refreshJac L P g { pass L P g s fc th tq with
        h := (pass L P g s fc th tq).h * 0.5, dnc := true, reason := .didNotConverge }).h
          = .fin ht := e1
      have e4 : (refreshJac L P g { pass L P g s fc th tq with
          h := (pass L P g s fc th tq).h * 0.5, dnc := true, reason := .didNotConverge }).h
          = .fin (h' / 2) := by
        have : s.h * 0.5 = .fin (h' / 2) := by
          have e5 : (0.5 : X) = .fin (1 / 2) := (X.ofSci_eq _ _ _).trans (by norm_num)
          rw [b6, e5, X.fin_mul]; congr 1; ring
        rcases refreshJac_cases (L := L) (P := P) (g := g) { pass L P g s fc th tq with
          h := (pass L P g s fc th tq).h * 0.5, dnc := true, reason := .didNotConverge } with
          ⟨-, e⟩ | ⟨-, e⟩ <;> rw [e] <;> exact this
      obtain rfl : ht = h' / 2 := X.fin_inj.1 (e3.symm.trans e4)
      obtain ⟨k1, k2⟩ := hC.factored hc e2.ne' e1 hm
      refine ⟨x, y, p, J', _, ⟨k1.congr rfl rfl rfl rfl rfl rfl rfl rfl, e1, k2, ?_, ?_⟩⟩
      · intro h
        dsimp only at h
        split at h <;> cases h
      · intro _
        refine ⟨h', Z, W, s.newt.toNat + 1, x', y', p', ?_, Or.inr rfl, j1, j2, ?_, by omega, by omega,
          by rw [← j3]; exact hI⟩
        · rcases refreshJac_cases (L := L) (P := P) (g := g) { pass L P g s fc th tq with
            h := (pass L P g s fc th tq).h * 0.5, dnc := true, reason := .didNotConverge } with
            ⟨-, e⟩ | ⟨-, e⟩ <;> rw [e] <;> exact c1
        · rcases refreshJac_cases (L := L) (P := P) (g := g) { pass L P g s fc th tq with
            h := (pass L P g s fc th tq).h * 0.5, dnc := true, reason := .didNotConverge } with
            ⟨-, e⟩ | ⟨-, e⟩ <;> rw [e] <;> exact z1
    · rw [newton_some e] at h
      rw [afterNewton_converged h]
      refine ⟨x, y, p, J, h', ⟨hR.toCore.congr rfl rfl rfl rfl rfl rfl rfl rfl, hR.h, hR.mats,
        (by intro h; cases h), fun _ => ?_⟩⟩
      exact ⟨h', Z, W, s.newt.toNat + 1, x', y', p', c1, Or.inl rfl, j1, j2, z1, by omega, by omega,
        by rw [← j3]; exact hI⟩
    · rw [newton_none e] at h
      injection h with h
      subst h
      refine ⟨x, y, p, J, h', ⟨hR.toCore.congr rfl rfl rfl rfl rfl rfl rfl rfl, hR.h, hR.mats,
        fun _ => ⟨Z, W, z1, z2, ?_⟩, fun h => ?_⟩⟩
      · have : (pass L P g s fc th tq).newt.toNat = s.newt.toNat + 1 := by
          show (s.newt + 1).toNat = _
          omega
        rw [this]; exact hI
      · have : s.phase = .tail := h
        rw [hp] at this; cases this
  · rw [newton_some e] at h
    unfold afterNewton at h
    dsimp only at h
    obtain ⟨j, hm, hk⟩ := withMatrices_next.mp h
    injection hk with hk
    subst hk
    obtain ⟨J', hC⟩ := (hR.toCore.congr (t := { fail L P g s fc th tq h2 with
      newt := 0, redonewton := true, reason := .willNotConverge })
      rfl rfl rfl rfl rfl rfl rfl rfl).refresh hP hg hSh
    obtain ⟨k1, k2⟩ := hC.factored hc e2.ne' e1 hm
    refine ⟨x, y, p, J', _, ⟨k1.congr rfl rfl rfl rfl rfl rfl rfl rfl, e1, k2, ?_, ?_⟩⟩
    · intro h
      dsimp only at h
      split at h <;> cases h
    · intro h
      dsimp only at h
      have er : (refreshJac L P g { fail L P g s fc th tq h2 with
          newt := 0, redonewton := true, reason := .willNotConverge }).redonewton = true := by
        rcases refreshJac_cases (L := L) (P := P) (g := g) { fail L P g s fc th tq h2 with
          newt := 0, redonewton := true, reason := .willNotConverge } with
          ⟨-, e⟩ | ⟨-, e⟩ <;> rw [e] <;> rfl
      rw [er] at h
      simp at h

/-! ### the error test -/

/-- tolerances which are real numbers. -/
structure RealTol (g : Cfg n) (a r : Fin n → ℝ) : Prop where
  atol : g.atol = fins a
  rtol : g.rtol = fins r
  a0 : ∀ i, 0 < a i
  r0 : ∀ i, 0 ≤ r i

/-- the error test of the method. -/
abbrev passes (Q : Prob ℝ n) (c : Consts ℝ) (a r : Fin n → ℝ) : Test n :=
  Spec.Passes c.U1 ![c.DD1, c.DD2, c.DD3] a r Q.F

theorem foldl_fin (f : Fin n → ℝ) : ∀ (l : List (Fin n)) (s : ℝ),
    l.foldl (fun err i => err + X.fin (f i)) (.fin s) = .fin (s + (l.map f).sum)
  | [], s => by simp
  | i :: l, s => by
    rw [List.foldl_cons, X.fin_add, foldl_fin f l, List.map_cons, List.sum_cons]
    congr 1; ring

theorem errNorm_fin (hn : 0 < n) {a r : Fin n → ℝ} (hg : RealTol g a r) (y e : Fin n → ℝ) :
    errNorm (doScal g (fins y)) (fins e) = .fin (max (Spec.scaled a r y e) 1e-10) := by
  have h1 : ∀ i, X.pow (fins e i / doScal g (fins y) i) 2
      = .fin ((e i / (a i + r i * |y i|)) ^ 2) := by
    intro i
    have hp : 0 < a i + r i * |y i| :=
      add_pos_of_pos_of_nonneg (hg.a0 i) (mul_nonneg (hg.r0 i) (abs_nonneg _))
    unfold doScal
    rw [hg.atol, hg.rtol]
    show X.pow (X.fin (e i) / (X.fin (a i) + X.fin (r i) * X.ABS (X.fin (y i)))) 2 = _
    rw [X.ABS_fin, X.fin_mul, X.fin_add, X.fin_div _ _ hp.ne', pow_two]
  unfold errNorm
  have e0 : (0.0 : X) = .fin 0 := (X.ofSci_eq _ _ _).trans (by norm_num)
  have e1 : (1.0e0 : X) = .fin 1 := (X.ofSci_eq _ _ _).trans (by norm_num)
  have en : X.ofInt (n : ℤ) = .fin (n : ℝ) := by simp [X.ofInt]
  have hn' : (n : ℝ) ≠ 0 := by exact_mod_cast hn.ne'
  have e10 : (1.0e-10 : X) = .fin 1e-10 := (X.ofSci_eq _ _ _).trans (by norm_num)
  simp only [h1]
  rw [e0, foldl_fin, e1, en, X.fin_div _ _ hn', X.fin_mul, X.sqrt_fin_nonneg, e10, X.MAX_fin]
  · unfold Spec.scaled
    congr 3
    rw [zero_add, ← List.ofFn_eq_map, List.sum_ofFn]
    ring
  · refine mul_nonneg ?_ (by positivity)
    rw [zero_add]
    refine List.sum_nonneg fun v hv => ?_
    obtain ⟨i, -, rfl⟩ := List.mem_map.1 hv
    positivity

theorem errF2_fins {hh : ℝ} (h0 : hh ≠ 0) (Z : Tri ℝ n) :
    errF2 (c.map X.fin) (.fin hh) Z.fins = fins (errF2 c hh Z) := by
  unfold errF2
  dsimp only
  rw [show (1 : X) / X.fin hh = .fin (1 / hh) by rw [X.one_eq]; exact X.fin_div _ _ h0]
  rfl

/-- a step accepted by the code passes the error test. -/
theorem accepted_passes (hn : 0 < n) (hP : ProbX P Q) (hc : g.c = c.map X.fin) {a r : Fin n → ℝ}
    (ht : RealTol g a r) (hR : RInv hL hS Q c u N K x0 y0 s x y p J hh) (h0 : hh ≠ 0)
    (hsc : s.scal = doScal g s.Y) {Z : Tri ℝ n} (hZ : s.Z = Z.fins) (he : errNow L P g s < 1.0) :
    passes Q c a r J x hh y Z.mat := by
  obtain ⟨sr0, sr, k1, k2, -, k4, -, -⟩ := hR.mats
  have hreal : hS.real (c.U1 / hh) J sr := by
    unfold newtonMatrices at k2
    cases e : Lr.decomr (c.U1 / hh) sr0 with
    | none => rw [e] at k2; simp at k2
    | some s1 =>
      rw [e] at k2
      obtain ⟨r1, r2⟩ := hS.decomr _ _ _ _ k1 e
      exact (hS.decomc _ _ _ _ _ _ r1 r2 k2).2.1
  have hE : ∀ f, Spec.Estimate c.U1 ![c.DD1, c.DD2, c.DD3] J hh f Z.mat
      (Lr.solvereal sr fun i => errF2 c hh Z i + f i) := by
    intro f
    unfold Spec.Estimate
    rw [hS.solvereal J _ sr _ hreal]
    funext i
    show c.DD1 * (1 / hh) * Z.v1 i + c.DD2 * (1 / hh) * Z.v2 i + c.DD3 * (1 / hh) * Z.v3 i + f i
      = f i + (c.DD1 * Z.v1 i + c.DD2 * Z.v2 i + c.DD3 * Z.v3 i) / hh
    ring
  have e2 : errF2 g.c s.h s.Z = fins (errF2 c hh Z) := by rw [hc, hR.h, hZ, errF2_fins h0]
  have ev : L.solvereal s.jac (fun i => errF2 g.c s.h s.Z i + s.y0 i)
      = fins (Lr.solvereal sr fun i => errF2 c hh Z i + Q.F x y i) := by
    rw [e2, hR.F]
    exact hL.solvereal sr s.jac (fun i => errF2 c hh Z i + Q.F x y i) k4
  refine ⟨_, hE (Q.F x y), ?_⟩
  have one : (1.0 : X) = .fin 1 := (X.ofSci_eq _ _ _).trans (by norm_num)
  unfold errNow estrad at he
  dsimp only at he
  rw [ev, hsc, hR.Y, errNorm_fin hn ht] at he
  split_ifs at he with h1
  · right
    refine ⟨_, hE (Q.F x fun i => Lr.solvereal sr (fun i => errF2 c hh Z i + Q.F x y i) i + y i), ?_⟩
    dsimp only at he
    rw [show (fun i => fins (Lr.solvereal sr fun i => errF2 c hh Z i + Q.F x y i) i + fins y i)
      = fins (fun i => Lr.solvereal sr (fun i => errF2 c hh Z i + Q.F x y i) i + y i) from rfl,
      hR.time, hP.F, e2] at he
    rw [show (fun i => fins (Q.F x fun i => Lr.solvereal sr (fun i => errF2 c hh Z i + Q.F x y i) i
        + y i) i + fins (errF2 c hh Z) i) = fins (fun i => errF2 c hh Z i + Q.F x (fun i =>
        Lr.solvereal sr (fun i => errF2 c hh Z i + Q.F x y i) i + y i) i) from
        funext fun i => (X.fin_add _ _).trans (congrArg X.fin (add_comm _ _)), hL.solvereal _ _ _ k4,
        errNorm_fin hn ht, one, X.fin_lt] at he
    exact lt_of_le_of_lt (le_max_left _ _) he
  · left
    rw [one, X.fin_lt] at he
    exact lt_of_le_of_lt (le_max_left _ _) he

/-- the weights belong to the current solution. -/
theorem scal_step (hp : s.phase ≠ .init) (hs : s.scal = doScal g s.Y) (h : step L P g s = .next t) :
    t.scal = doScal g t.Y := by
  cases hp' : s.phase with
  | init => exact absurd hp' hp
  | check =>
    rw [step_check hp'] at h
    split at h
    · injection h
    · injection h with h
      rw [← h]; exact hs
  | attempt =>
    rw [step_attempt hp'] at h
    injection h with h
    rw [← h]; exact hs
  | newton =>
    rw [step_newton hp'] at h
    rcases newtonStep_cases (L := L) (P := P) (g := g) s with
      ⟨r, fc, th, tq, e, hres, -⟩ | ⟨-, -, fc, th, tq, h2, e, -⟩
    · rcases hres with ⟨rfl, -⟩ | ⟨-, rfl, -⟩ | ⟨-, rfl, -⟩
      · rw [newton_some e] at h
        obtain ⟨v, j, e1 | ⟨-, e1⟩, rfl⟩ := afterNewton_dnc h <;> subst e1 <;> rfl
      · rw [newton_some e] at h
        rw [afterNewton_converged h]; exact hs
      · rw [newton_none e] at h
        injection h with h
        rw [← h]; exact hs
    · rw [newton_some e] at h
      obtain ⟨v, j, e1 | ⟨-, e1⟩, rfl⟩ := afterNewton_wnc h <;> subst e1 <;> rfl
  | tail =>
    rw [step_tail hp'] at h
    rcases tail_next h with ⟨-, -, -, h⟩ | ⟨-, h⟩
    · generalize hnewNow L P g s = hnew at h
      unfold nextStep at h
      dsimp only at h
      split at h
      · obtain ⟨j, -, hk⟩ := withMatrices_next.mp h
        injection hk with hk
        subst hk
        rcases jacIfSlow_cases (L := L) (P := P) (g := g) { evaluated P (acc L P g s) hnew with
          h := (acc L P g s).xend - (acc L P g s).x, last := true } with ⟨-, e⟩ | ⟨-, e⟩
        all_goals
          exact (congrArg St.scal e).trans (congrArg (fun v => doScal g (St.Y v)) e).symm
      · split at h
        · injection h with h
          subst h
          rfl
        · obtain ⟨j, -, hk⟩ := withMatrices_next.mp h
          injection hk with hk
          subst hk
          rcases jacIfSlow_cases (L := L) (P := P) (g := g) (evaluated P (acc L P g s) hnew)
            with ⟨-, e⟩ | ⟨-, e⟩
          all_goals
            exact (congrArg St.scal e).trans (congrArg (fun v => doScal g (St.Y v)) e).symm
    · change withMatrices L g (refreshJac L P g (rejectState g (counted L P g s) (errNow L P g s)))
        .next = .next t at h
      obtain ⟨j, -, hk⟩ := withMatrices_next.mp h
      injection hk with hk
      subst hk
      have e1 : (refreshJac L P g (rejectState g (counted L P g s) (errNow L P g s))).scal = s.scal ∧
          (refreshJac L P g (rejectState g (counted L P g s) (errNow L P g s))).Y = s.Y := by
        rcases refreshJac_cases (L := L) (P := P) (g := g) (rejectState g (counted L P g s)
          (errNow L P g s)) with ⟨-, e⟩ | ⟨-, e⟩ <;> rw [e] <;> exact ⟨rfl, rfl⟩
      show (refreshJac L P g (rejectState g (counted L P g s) (errNow L P g s))).scal = doScal g
        (refreshJac L P g (rejectState g (counted L P g s) (errNow L P g s))).Y
      rw [e1.1, e1.2, hs]

/-- the state after the acceptance of a step. -/
theorem path_next (hn : 0 < n) (hP : ProbX P Q) (hc : g.c = c.map X.fin) {a r : Fin n → ℝ}
    (ht : RealTol g a r) (hR : RInv hL hS Q c u N (passes Q c a r) x0 y0 s x y p J hh)
    (hr : Run g sf x0 xe s) (hsc : s.scal = doScal g s.Y) (hp : s.phase = .tail)
    (he : errNow L P g s < 1.0) :
    ∃ w Z, s.xph = .fin (x + w) ∧ s.Z.v3 = fins (Z 2) ∧ s.Z = (Tri.ofMat Z).fins ∧ 0 < w ∧
      Path Q c u N (passes Q c a r) x0 y0 (x + w) (fun i => y i + Z 2 i) (some (hh, Z)) := by
  obtain ⟨h', Z, W, k, x', y', p', t1, t2, t3, t4, t5, t6, t7, t8⟩ := hR.tail hp
  obtain ⟨l, hh', -, -, -, b4, -, b6, b7, -, -, -, b11⟩ := hr.pos
  obtain ⟨w, c1, c2, c3, -, -, -, -⟩ := b11 (Or.inr hp)
  obtain rfl : hh' = hh := X.fin_inj.1 (b6.symm.trans hR.h)
  have ex : x0 + l.sum = x := X.fin_inj.1 (b4.symm.trans hR.time)
  rw [ex] at c2
  obtain rfl : w = h' := X.fin_inj.1 (c1.symm.trans t1)
  obtain ⟨x'', y'', p'', q1, q2, q3⟩ := hR.jac
  exact ⟨w, Z.mat, c2, by rw [t5]; rfl, by rw [t5]; rfl, by linarith,
    .step hR.path t3 t4 (by linarith) t2 t6 t7 t8 q1 q2
      (q3 ▸ accepted_passes hn hP hc ht hR b7.ne' hsc t5 he)⟩

theorem inv_tail (hn : 0 < n) (hP : ProbX P Q) (hg : Std g sf u) (hc : g.c = c.map X.fin)
    (hnz : Nonzero c) {a r : Fin n → ℝ} (ha : RealTol g a r) (hSh : ∀ x y, Shape (jacM Q u x y))
    (hs : Inv hL hS Q c u N (passes Q c a r) x0 y0 s) (hsc : s.scal = doScal g s.Y)
    (hr : Run g sf x0 xe s) (hr' : Run g sf x0 xe t) (hp : s.phase = .tail)
    (h : Radau.tail L P g s = .next t) : Inv hL hS Q c u N (passes Q c a r) x0 y0 t := by
  obtain ⟨x, y, p, J, hh, hR⟩ := hs
  obtain ⟨ht, e1, e2⟩ := hr'.hpos
  rcases tail_next h with ⟨he, -, -, h⟩ | ⟨-, h⟩
  · obtain ⟨w, Z, n1, n2, n3, n4, n5⟩ := path_next hn hP hc ha hR hr hsc hp he
    obtain ⟨x', y', p', j1, j2, j3⟩ := hR.jac
    obtain ⟨l, hh', -, -, -, b4, -, b6, b7, -⟩ := hr.pos
    obtain rfl : hh' = hh := X.fin_inj.1 (b6.symm.trans hR.h)
    generalize hnewNow L P g s = hnew at h
    have hC : Core hL hS Q c u N (passes Q c a r) x0 y0 (evaluated P (acc L P g s) hnew) (x + w)
        (fun i => y i + Z 2 i) (some (hh', Z)) J := by
      have eY : (acc L P g s).Y = fins fun i => y i + Z 2 i := by
        show (fun i => s.Y i + s.Z.v3 i) = _
        rw [hR.Y, n2]; rfl
      refine ⟨n1, eY, ?_, n5, ⟨x', y', p', j1, by linarith, j3⟩, hR.loaded, rfl, hR.startn, ?_⟩
      · show P.F s.xph (acc L P g s).Y = _
        rw [n1, eY, hP.F]
      · intro q hq
        injection hq with hq
        subst hq
        refine ⟨hR.h, b7, ?_⟩
        show saves g.c s.Z = _
        rw [n3, hc, saves_fins hnz]
    unfold nextStep at h
    dsimp only at h
    split at h
    · obtain ⟨j, hm, hk⟩ := withMatrices_next.mp h
      injection hk with hk
      subst hk
      obtain ⟨J', hC'⟩ := (hC.congr (t := { evaluated P (acc L P g s) hnew with
        h := (acc L P g s).xend - (acc L P g s).x, last := true })
        rfl rfl rfl rfl rfl rfl rfl rfl).slow hP hg hSh
      obtain ⟨k1, k2⟩ := hC'.factored hc e2.ne' e1 hm
      have ep : (jacIfSlow L P g { evaluated P (acc L P g s) hnew with
        h := (acc L P g s).xend - (acc L P g s).x, last := true }).phase = .check := by
        rcases jacIfSlow_cases (L := L) (P := P) (g := g) { evaluated P (acc L P g s) hnew with
          h := (acc L P g s).xend - (acc L P g s).x, last := true } with
          ⟨-, e⟩ | ⟨-, e⟩ <;> rw [e] <;> rfl
      exact ⟨_, _, _, J', _, ⟨k1.congr rfl rfl rfl rfl rfl rfl rfl rfl, e1, k2,
        fun h => absurd (ep.symm.trans h) (by decide), fun h => absurd (ep.symm.trans h) (by decide)⟩⟩
    · split at h
      · injection h with h
        subst h
        exact ⟨_, _, _, J, hh', ⟨hC.congr rfl rfl rfl rfl rfl rfl rfl rfl, hR.h, hR.mats,
          (by intro h; cases h), (by intro h; cases h)⟩⟩
      · obtain ⟨j, hm, hk⟩ := withMatrices_next.mp h
        injection hk with hk
        subst hk
        obtain ⟨J', hC'⟩ := hC.slow hP hg hSh
        obtain ⟨k1, k2⟩ := hC'.factored hc e2.ne' e1 hm
        have ep : (jacIfSlow L P g (evaluated P (acc L P g s) hnew)).phase = .check := by
          rcases jacIfSlow_cases (L := L) (P := P) (g := g) (evaluated P (acc L P g s) hnew) with
            ⟨-, e⟩ | ⟨-, e⟩ <;> rw [e] <;> rfl
        exact ⟨_, _, _, J', _, ⟨k1.congr rfl rfl rfl rfl rfl rfl rfl rfl, e1, k2,
          fun h => absurd (ep.symm.trans h) (by decide), fun h => absurd (ep.symm.trans h) (by decide)⟩⟩
  · change withMatrices L g (refreshJac L P g (rejectState g (counted L P g s) (errNow L P g s)))
      .next = .next t at h
    obtain ⟨j, hm, hk⟩ := withMatrices_next.mp h
    injection hk with hk
    subst hk
    obtain ⟨J', hC⟩ := (hR.toCore.congr (t := rejectState g (counted L P g s) (errNow L P g s))
      rfl rfl rfl rfl rfl rfl rfl rfl).refresh hP hg hSh
    obtain ⟨k1, k2⟩ := hC.factored hc e2.ne' e1 hm
    have ep : (refreshJac L P g (rejectState g (counted L P g s) (errNow L P g s))).phase = .check := by
      rcases refreshJac_cases (L := L) (P := P) (g := g) (rejectState g (counted L P g s)
        (errNow L P g s)) with ⟨-, e⟩ | ⟨-, e⟩ <;> rw [e] <;> rfl
    exact ⟨_, _, _, J', _, ⟨k1.congr rfl rfl rfl rfl rfl rfl rfl rfl, e1, k2,
      fun h => absurd (ep.symm.trans h) (by decide), fun h => absurd (ep.symm.trans h) (by decide)⟩⟩

theorem inv_reach (hn : 0 < n) (hP : ProbX P Q) (hg : Std g sf u) (hc : g.c = c.map X.fin)
    (hnz : Nonzero c) {a r : Fin n → ℝ} (ha : RealTol g a r) (hSh : ∀ x y, Shape (jacM Q u x y))
    (hN : (N : ℤ) = g.nit) (hx : x0 < xe) {o : St n L.σ} {h : X}
    (hr : Reach (step L P g) (call o h (.fin x0) (.fin xe) (fins y0)) s) :
    (AtInit x0 xe s ∧ s.Y = fins y0) ∨ (Run g sf x0 xe s ∧ s.scal = doScal g s.Y ∧
      Inv hL hS Q c u N (passes Q c a r) x0 y0 s) := by
  refine Reach.inv (I := fun s => (AtInit x0 xe s ∧ s.Y = fins y0) ∨
    (Run g sf x0 xe s ∧ s.scal = doScal g s.Y ∧ Inv hL hS Q c u N (passes Q c a r) x0 y0 s))
    (fun s t hI hst => Or.inr ?_) (Or.inl ⟨atInit_call o h x0 xe _, rfl⟩) hr
  rcases hI with ⟨h1, h2⟩ | ⟨h1, h3, h2⟩
  · have ht := fwd_step hg hx (Or.inl h1) hst
    rw [step_init h1.phase] at hst
    refine ⟨ht, ?_, inv_init hP hg hc hSh h1 h2 hst ht⟩
    obtain ⟨j, rfl⟩ := init_next hst
    rfl
  · have ht := fwd_step hg hx (Or.inr h1) hst
    refine ⟨ht, scal_step h1.phase h3 hst, ?_⟩
    cases hp : s.phase with
    | init => exact absurd hp h1.phase
    | check =>
      rw [step_check hp] at hst
      split at hst
      · injection hst
      · injection hst with hst
        rw [← hst]; exact inv_check h2
    | attempt =>
      rw [step_attempt hp] at hst
      injection hst with hst
      rw [← hst]; exact inv_attempt hc h2
    | newton => rw [step_newton hp] at hst; exact inv_newton hP hg hc hSh hN h2 h1 ht hp hst
    | tail => rw [step_tail hp] at hst; exact inv_tail hn hP hg hc hnz ha hSh h2 h3 h1 ht hp hst

end Odes.Radau
