import Verif.Lemmas.RadauLoop
import Verif.Props.RadauLin
import Verif.Spec.RadauRun

/-! Runs of Radau5 on real data: the vectors stay finite and the steps are Newton iterates. -/

namespace Odes.Radau

open Classical

variable {n : ℕ}

/-- vector of finite values. -/
def fins (y : Fin n → ℝ) : Fin n → X := fun i => .fin (y i)

/-- three vectors of finite values. -/
def Tri.fins (t : Tri ℝ n) : Tri X n :=
  { v1 := Radau.fins t.v1, v2 := Radau.fins t.v2, v3 := Radau.fins t.v3 }

/-- `L` computes on finite values what `Lr` computes in ℝ: `R` = same matrix, `Rr`, `Rc` = same
factors. -/
structure LinX (L : Lin X n) (Lr : Lin ℝ n) where
  ne : Nonempty Lr.σ
  R : Lr.σ → L.σ → Prop
  Rr : Lr.σ → L.σ → Prop
  Rc : Lr.σ → L.σ → Prop
  load : ∀ J s t, R (Lr.load J s) (L.load (fun i j => .fin (J i j)) t)
  decomr : ∀ fac s t, R s t → (Lr.decomr fac s = none ∧ L.decomr (.fin fac) t = none) ∨
    ∃ s' t', Lr.decomr fac s = some s' ∧ L.decomr (.fin fac) t = some t' ∧ R s' t' ∧ Rr s' t'
  decomc : ∀ a b s t, R s t → Rr s t →
    (Lr.decomc a b s = none ∧ L.decomc (.fin a) (.fin b) t = none) ∨
    ∃ s' t', Lr.decomc a b s = some s' ∧ L.decomc (.fin a) (.fin b) t = some t' ∧ R s' t' ∧
      Rr s' t' ∧ Rc s' t'
  solvereal : ∀ s t b, Rr s t → L.solvereal t (fins b) = fins (Lr.solvereal s b)
  solvecomplex : ∀ s t a b, Rc s t → L.solvecomplex t (fins a) (fins b)
    = (fins (Lr.solvecomplex s a b).1, fins (Lr.solvecomplex s a b).2)

/-- `P` is the real problem `Q` (a right hand side which is finite everywhere). -/
structure ProbX (P : Prob X n) (Q : Prob ℝ n) : Prop where
  F : ∀ x y, P.F (.fin x) (fins y) = fins (Q.F x y)
  jac : ∀ x y d, P.jac (.fin x) (fins y) (fins d) = fun i j => .fin (Q.jac x y d i j)
  num : P.computeJacobianNumerically = Q.computeJacobianNumerically
  stored : P.stored = Q.stored

/-- increment of the difference quotients. -/
noncomputable def deltaR (u a : ℝ) : ℝ := Real.sqrt (u * max 1e-5 |a|)

theorem deltaR_pos {u : ℝ} (hu : 0 < u) (a : ℝ) : 0 < deltaR u a :=
  Real.sqrt_pos.2 (mul_pos hu (lt_max_of_lt_left (by norm_num)))

/-- the matrix used when the Jacobian is computed at `(x,y)`. -/
noncomputable def jacR (Q : Prob ℝ n) (u x : ℝ) (y : Fin n → ℝ) (i j : Fin n) : ℝ :=
  if Q.computeJacobianNumerically then
    if Q.stored i j then
      (Q.F x (Function.update y j (y j + deltaR u (y j))) i - Q.F x y i) * (1 / deltaR u (y j))
    else 0
  else Q.jac x y (Q.F x y) i j

variable {L : Lin X n} {Lr : Lin ℝ n} {P : Prob X n} {Q : Prob ℝ n} {g : Cfg n} {sf u : ℝ}
  {c : Consts ℝ}

theorem fins_inj {a b : Fin n → ℝ} (h : fins a = fins b) : a = b := by
  funext i
  have := congrFun h i
  exact X.fin_inj.1 this

theorem fins_update (y : Fin n → ℝ) (j : Fin n) (a : ℝ) :
    Function.update (fins y) j (.fin a) = fins (Function.update y j a) := by
  funext i
  unfold fins
  by_cases h : i = j
  · subst h; simp
  · simp [h]

theorem delta_fin {u : ℝ} (hu : 0 < u) (a : ℝ) : delta (.fin u) (.fin a) = .fin (deltaR u a) := by
  unfold delta
  rw [X.ABS_fin, X.ofSci_eq, X.MAX_fin, X.fin_mul, X.sqrt_fin_nonneg
    (mul_nonneg hu.le (le_max_of_le_left (by norm_num)))]
  unfold deltaR
  norm_num

theorem jac_fin (hP : ProbX P Q) (hg : Std g sf u) (x : ℝ) (y : Fin n → ℝ) :
    (if P.computeJacobianNumerically then numJac P g.uround (.fin x) (fins y) (fins (Q.F x y))
      else P.jac (.fin x) (fins y) (fins (Q.F x y))) = fun i j => .fin (jacR Q u x y i j) := by
  rw [hP.num, hP.jac]
  unfold jacR
  by_cases h : Q.computeJacobianNumerically = true
  · rw [if_pos h]
    funext i j
    rw [if_pos h]
    unfold numJac
    rw [hP.stored]
    have e : delta g.uround (fins y j) = .fin (deltaR u (y j)) := by
      rw [hg.uround]; exact delta_fin hg.uround_pos _
    rw [e]
    have e2 : fins y j + X.fin (deltaR u (y j)) = .fin (y j + deltaR u (y j)) := rfl
    rw [e2, fins_update, hP.F]
    split_ifs
    · have e1 : (1.0e+0 : X) = .fin 1 := (X.ofSci_eq _ _ _).trans (by norm_num)
      rw [e1, X.fin_div _ _ (deltaR_pos hg.uround_pos _).ne']
      unfold fins
      rw [X.fin_sub, X.fin_mul]
    · exact X.zero_eq
  · rw [if_neg h]
    funext i j
    rw [if_neg h]

/-! ### transport of the formulas -/

theorem addTri_fins (F Z : Tri ℝ n) : addTri F.fins Z.fins = (addTri F Z).fins := rfl

theorem back_fins (c : Consts ℝ) (F : Tri ℝ n) : back (c.map X.fin) F.fins = (back c F).fins := rfl

theorem forth_fins (c : Consts ℝ) (F : Tri ℝ n) : forth (c.map X.fin) F.fins = (forth c F).fins := rfl

theorem interp_fins (c : Consts ℝ) (q : ℝ) (S : Tri ℝ n) :
    interp (c.map X.fin) (.fin q) S.fins = fins (interp c q S) := by
  funext i
  show X.fin q * (X.fin (S.v1 i) + (X.fin q - X.fin c.C2M1) * (X.fin (S.v2 i)
    + (X.fin q - X.fin c.C1M1) * X.fin (S.v3 i))) = _
  simp only [X.fin_sub, X.fin_mul, X.fin_add]
  rfl

theorem extrapolate_fins (c : Consts ℝ) {h hold : ℝ} (h0 : hold ≠ 0) (S : Tri ℝ n) :
    extrapolate (c.map X.fin) (.fin h) (.fin hold) S.fins = (extrapolate c h hold S).fins := by
  unfold extrapolate
  rw [X.fin_div _ _ h0]
  have e1 : (c.map X.fin).C1 * X.fin (h / hold) = .fin (c.C1 * (h / hold)) := rfl
  have e2 : (c.map X.fin).C2 * X.fin (h / hold) = .fin (c.C2 * (h / hold)) := rfl
  dsimp only
  rw [e1, e2, interp_fins, interp_fins, interp_fins]
  rfl

/-- the constants by which the code divides are not zero. -/
structure Nonzero (c : Consts ℝ) : Prop where
  C2 : c.C2 ≠ 0
  C1M1 : c.C1M1 ≠ 0
  C2M1 : c.C2M1 ≠ 0
  C1MC2 : c.C1MC2 ≠ 0

theorem saves_fins (hc : Nonzero c) (Z : Tri ℝ n) :
    saves (c.map X.fin) Z.fins = (saves c Z).fins := by
  have e1 : (1 : X) / (c.map X.fin).C2M1 = .fin (1 / c.C2M1) := by
    rw [X.one_eq]; exact X.fin_div _ _ hc.C2M1
  have e2 : (1 : X) / (c.map X.fin).C2 = .fin (1 / c.C2) := by
    rw [X.one_eq]; exact X.fin_div _ _ hc.C2
  have e3 : (1 : X) / (c.map X.fin).C1MC2 = .fin (1 / c.C1MC2) := by
    rw [X.one_eq]; exact X.fin_div _ _ hc.C1MC2
  have e4 : (1 : X) / (c.map X.fin).C1M1 = .fin (1 / c.C1M1) := by
    rw [X.one_eq]; exact X.fin_div _ _ hc.C1M1
  unfold saves
  dsimp only
  rw [e1, e2, e3, e4]
  unfold Tri.fins fins
  simp only [X.fin_sub, X.fin_mul, X.fin_add]

theorem increment_fins (hL : LinX L Lr) (hP : ProbX P Q) {x h : ℝ} (h0 : h ≠ 0) (y : Fin n → ℝ)
    {sr : Lr.σ} {t : L.σ} (hr : hL.Rr sr t) (hc : hL.Rc sr t) (Z F : Tri ℝ n) :
    increment L P (c.map X.fin) (.fin x) (.fin (x + h)) (.fin h) (fins y) t Z.fins F.fins
      = (increment Lr Q c x (x + h) h y sr Z F).fins := by
  have eF : ∀ a (v : Fin n → ℝ), P.F (.fin a) (fun i => fins y i + fins v i)
      = fins (Q.F a fun i => y i + v i) := fun a v => by
    rw [show (fun i => fins y i + fins v i) = fins fun i => y i + v i from rfl, hP.F]
  unfold increment slvrad
  dsimp only
  have e1 : X.fin x + (c.map X.fin).C1 * X.fin h = .fin (x + c.C1 * h) := rfl
  have e2 : X.fin x + (c.map X.fin).C2 * X.fin h = .fin (x + c.C2 * h) := rfl
  have d1 : (c.map X.fin).U1 / X.fin h = .fin (c.U1 / h) := X.fin_div _ _ h0
  have d2 : (c.map X.fin).ALPH / X.fin h = .fin (c.ALPH / h) := X.fin_div _ _ h0
  have d3 : (c.map X.fin).BETA / X.fin h = .fin (c.BETA / h) := X.fin_div _ _ h0
  rw [e1, e2, d1, d2, d3]
  simp only [Tri.fins, eF]
  have key : ∀ a b d : Fin n → X, ∀ a' b' d' : Fin n → ℝ, a = fins a' → b = fins b' → d = fins d' →
      ({ v1 := L.solvereal t a, v2 := (L.solvecomplex t b d).1, v3 := (L.solvecomplex t b d).2 } : Tri X n)
      = { v1 := fins (Lr.solvereal sr a'), v2 := fins (Lr.solvecomplex sr b' d').1
          v3 := fins (Lr.solvecomplex sr b' d').2 } := by
    intro a b d a' b' d' h1 h2 h3
    rw [h1, h2, h3, hL.solvereal _ _ _ hr, hL.solvecomplex _ _ _ _ hc]
  refine key _ _ _ _ _ _ ?_ ?_ ?_
  · funext i
    exact X.fin_sub _ _
  · funext i
    show X.fin _ + (-X.fin (F.v2 i) * _ - -X.fin (F.v3 i) * _) = _
    simp only [X.fin_neg, X.fin_mul, X.fin_sub]
    rfl
  · rfl

/-! ### the invariant -/

/-- the Jacobian as a matrix. -/
noncomputable def jacM (Q : Prob ℝ n) (u x : ℝ) (y : Fin n → ℝ) : Matrix (Fin n) (Fin n) ℝ :=
  Matrix.of (jacR Q u x y)

/-- the lines of a matrix. -/
def Tri.ofMat (Z : Matrix (Fin 3) (Fin n) ℝ) : Tri ℝ n := { v1 := Z 0, v2 := Z 1, v3 := Z 2 }

theorem ofMat_mat (Z : Tri ℝ n) : Tri.ofMat Z.mat = Z := rfl

/-- the constants in the form of the specification. -/
def newtonMethod (c : Consts ℝ) : Spec.NewtonMethod where
  T := Tm c
  TI := TIm c
  Lam := Lam c
  c := ![c.C1, c.C2, 1]

/-- the starting values after a step with increments `Z`. -/
noncomputable def ext (c : Consts ℝ) (h hold : ℝ) (Z : Matrix (Fin 3) (Fin n) ℝ) :
    Matrix (Fin 3) (Fin n) ℝ :=
  (extrapolate c h hold (saves c (Tri.ofMat Z))).mat

/-- the error test. -/
abbrev Test (n : ℕ) :=
  Matrix (Fin n) (Fin n) ℝ → ℝ → ℝ → (Fin n → ℝ) → Matrix (Fin 3) (Fin n) ℝ → Prop

/-- the path of a run. -/
abbrev Path (Q : Prob ℝ n) (c : Consts ℝ) (u : ℝ) (N : ℕ) (K : Test n) (x0 : ℝ) (y0 : Fin n → ℝ) :=
  Spec.RadauPath (newtonMethod c) Q.F (jacM Q u) N (ext c) K x0 y0

/-- the starting values of a step. -/
noncomputable def startZ (c : Consts ℝ) (h : ℝ) (p : Option (ℝ × Matrix (Fin 3) (Fin n) ℝ)) :
    Matrix (Fin 3) (Fin n) ℝ :=
  p.elim 0 fun q => ext c h q.1 q.2

/-- the object holds the factors for the step size `h` of the matrix `J`. -/
def Mats (hL : LinX L Lr) {Shape : Matrix (Fin n) (Fin n) ℝ → Prop} (hS : LinSpec Lr Shape)
    (c : Consts ℝ) (J : Matrix (Fin n) (Fin n) ℝ) (h : ℝ) (t : L.σ) : Prop :=
  ∃ sr0 sr, hS.R J sr0 ∧ newtonMatrices Lr c h sr0 = some sr ∧ hL.R sr t ∧ hL.Rr sr t ∧
    hL.Rc sr t ∧ hS.R J sr

variable {Shape : Matrix (Fin n) (Fin n) ℝ → Prop}

theorem mats_of (hL : LinX L Lr) (hS : LinSpec Lr Shape) {J : Matrix (Fin n) (Fin n) ℝ} {h : ℝ}
    (h0 : h ≠ 0) {sr : Lr.σ} {t t' : L.σ} (hR : hL.R sr t) (hJ : hS.R J sr)
    (hm : newtonMatrices L (c.map X.fin) (.fin h) t = some t') : Mats hL hS c J h t' := by
  unfold newtonMatrices at hm
  have d1 : (c.map X.fin).U1 / X.fin h = .fin (c.U1 / h) := X.fin_div _ _ h0
  have d2 : (c.map X.fin).ALPH / X.fin h = .fin (c.ALPH / h) := X.fin_div _ _ h0
  have d3 : (c.map X.fin).BETA / X.fin h = .fin (c.BETA / h) := X.fin_div _ _ h0
  rw [d1, d2, d3] at hm
  rcases hL.decomr (c.U1 / h) sr t hR with ⟨-, e⟩ | ⟨s1, t1, e1, e2, r1, r2⟩
  · rw [e] at hm; simp at hm
  rw [e2] at hm
  rcases hL.decomc (c.ALPH / h) (c.BETA / h) s1 t1 r1 r2 with ⟨-, e⟩ | ⟨s2, t2, e3, e4, r3, r4, r5⟩
  · rw [Option.bind_some, e] at hm; simp at hm
  rw [Option.bind_some, e4] at hm
  injection hm with hm
  subst hm
  obtain ⟨k1, k2⟩ := hS.decomr _ _ _ _ hJ e1
  obtain ⟨k3, -⟩ := hS.decomc _ _ _ _ _ _ k1 k2 e3
  refine ⟨sr, s2, hJ, ?_, r3, r4, r5, k3⟩
  unfold newtonMatrices
  rw [e1, Option.bind_some, e3]

/-- what holds at all times after the entry. -/
structure Core (hL : LinX L Lr) (hS : LinSpec Lr Shape) (Q : Prob ℝ n) (c : Consts ℝ) (u : ℝ) (N : ℕ)
    (K : Test n) (x0 : ℝ) (y0 : Fin n → ℝ) (s : St n L.σ) (x : ℝ) (y : Fin n → ℝ)
    (p : Option (ℝ × Matrix (Fin 3) (Fin n) ℝ)) (J : Matrix (Fin n) (Fin n) ℝ) : Prop where
  time : s.x = .fin x
  Y : s.Y = fins y
  F : s.y0 = fins (Q.F x y)
  path : Path Q c u N K x0 y0 x y p
  jac : ∃ x' y' p', Path Q c u N K x0 y0 x' y' p' ∧ x' ≤ x ∧ J = jacM Q u x' y'
  loaded : ∃ sr, hL.R sr s.jac ∧ hS.R J sr
  first : s.first = p.isNone
  startn : s.startn = false
  save : ∀ q, p = some q → s.hold = .fin q.1 ∧ 0 < q.1 ∧ s.save = (saves c (Tri.ofMat q.2)).fins

variable {hL : LinX L Lr} {hS : LinSpec Lr Shape} {N : ℕ} {K : Test n} {x0 x : ℝ} {y0 y : Fin n → ℝ}
  {p : Option (ℝ × Matrix (Fin 3) (Fin n) ℝ)} {J : Matrix (Fin n) (Fin n) ℝ} {s t : St n L.σ}

theorem Core.congr (hs : Core hL hS Q c u N K x0 y0 s x y p J) (h1 : t.x = s.x) (h2 : t.Y = s.Y)
    (h3 : t.y0 = s.y0) (h4 : t.jac = s.jac) (h5 : t.first = s.first) (h6 : t.startn = s.startn)
    (h7 : t.save = s.save) (h8 : t.hold = s.hold) : Core hL hS Q c u N K x0 y0 t x y p J := by
  obtain ⟨a1, a2, a3, a4, a5, a6, a7, a8, a9⟩ := hs
  exact ⟨h1.trans a1, h2.trans a2, h3.trans a3, a4, a5, by rw [h4]; exact a6, h5.trans a7,
    h6.trans a8, fun q hq => by rw [h7, h8]; exact a9 q hq⟩

theorem Core.mats (hs : Core hL hS Q c u N K x0 y0 s x y p J) (hg : g.c = c.map X.fin) {hh : ℝ}
    (h0 : hh ≠ 0) {k : X} (eh : k = .fin hh) {j : L.σ}
    (hm : newtonMatrices L g.c k s.jac = some j)
    (h1 : t.x = s.x) (h2 : t.Y = s.Y)
    (h3 : t.y0 = s.y0) (h4 : t.jac = j) (h5 : t.first = s.first) (h6 : t.startn = s.startn)
    (h7 : t.save = s.save) (h8 : t.hold = s.hold) :
    Core hL hS Q c u N K x0 y0 t x y p J ∧ Mats hL hS c J hh t.jac := by
  obtain ⟨sr, r1, r2⟩ := hs.loaded
  rw [hg, eh] at hm
  have hM := mats_of hL hS h0 r1 r2 hm
  obtain ⟨a1, a2, a3, a4, a5, a6, a7, a8, a9⟩ := hs
  refine ⟨⟨h1.trans a1, h2.trans a2, h3.trans a3, a4, a5, ?_, h5.trans a7,
    h6.trans a8, fun q hq => by rw [h7, h8]; exact a9 q hq⟩, by rw [h4]; exact hM⟩
  obtain ⟨-, s2, -, -, k1, -, -, k2⟩ := hM
  rw [h4]
  exact ⟨s2, k1, k2⟩

/-- the state after `doNewtonMatrices()`. -/
theorem Core.factored (hs : Core hL hS Q c u N K x0 y0 s x y p J) (hg : g.c = c.map X.fin) {hh : ℝ}
    (h0 : hh ≠ 0) {k : X} (eh : k = .fin hh) {j : L.σ}
    (hm : newtonMatrices L g.c k s.jac = some j) :
    Core hL hS Q c u N K x0 y0 { s with jac := j, ndec := s.ndec + 1 } x y p J ∧ Mats hL hS c J hh j :=
  hs.mats (t := { s with jac := j, ndec := s.ndec + 1 }) hg h0 eh hm rfl rfl rfl rfl rfl rfl rfl rfl

/-- computing the Jacobian. -/
theorem core_newJac (hP : ProbX P Q) (hg : Std g sf u) (hSh : ∀ x y, Shape (jacM Q u x y))
    (time : s.x = .fin x) (Y : s.Y = fins y) (F : s.y0 = fins (Q.F x y))
    (path : Path Q c u N K x0 y0 x y p) (first : s.first = p.isNone) (startn : s.startn = false)
    (save : ∀ q, p = some q → s.hold = .fin q.1 ∧ 0 < q.1 ∧ s.save = (saves c (Tri.ofMat q.2)).fins) :
    Core hL hS Q c u N K x0 y0 (newJac L P g s) x y p (jacM Q u x y) where
  time := time
  Y := Y
  F := F
  path := path
  jac := ⟨x, y, p, path, le_rfl, rfl⟩
  loaded := by
    obtain ⟨s0⟩ := hL.ne
    refine ⟨Lr.load (jacM Q u x y) s0, ?_, hS.load _ _ (hSh x y)⟩
    show hL.R _ (L.load (if P.computeJacobianNumerically then numJac P g.uround s.x s.Y s.y0
      else P.jac s.x s.Y s.y0) s.jac)
    rw [time, Y, F, jac_fin hP hg]
    exact hL.load _ _ _
  first := first
  startn := startn
  save := save

theorem Core.newJac (hs : Core hL hS Q c u N K x0 y0 s x y p J) (hP : ProbX P Q) (hg : Std g sf u)
    (hSh : ∀ x y, Shape (jacM Q u x y)) :
    Core hL hS Q c u N K x0 y0 (newJac L P g s) x y p (jacM Q u x y) :=
  core_newJac hP hg hSh hs.time hs.Y hs.F hs.path hs.first hs.startn hs.save

theorem Core.refresh (hs : Core hL hS Q c u N K x0 y0 s x y p J) (hP : ProbX P Q) (hg : Std g sf u)
    (hSh : ∀ x y, Shape (jacM Q u x y)) :
    ∃ J', Core hL hS Q c u N K x0 y0 (refreshJac L P g s) x y p J' := by
  rcases refreshJac_cases (L := L) (P := P) (g := g) s with ⟨-, e⟩ | ⟨-, e⟩
  · exact ⟨J, by rw [e]; exact hs⟩
  · exact ⟨_, by rw [e]; exact hs.newJac hP hg hSh⟩

theorem Core.slow (hs : Core hL hS Q c u N K x0 y0 s x y p J) (hP : ProbX P Q) (hg : Std g sf u)
    (hSh : ∀ x y, Shape (jacM Q u x y)) :
    ∃ J', Core hL hS Q c u N K x0 y0 (jacIfSlow L P g s) x y p J' := by
  rcases jacIfSlow_cases (L := L) (P := P) (g := g) s with ⟨-, e⟩ | ⟨-, e⟩
  · exact ⟨J, by rw [e]; exact hs⟩
  · exact ⟨_, by rw [e]; exact hs.newJac hP hg hSh⟩

/-- the invariant of a run on real data. -/
structure RInv (hL : LinX L Lr) (hS : LinSpec Lr Shape) (Q : Prob ℝ n) (c : Consts ℝ) (u : ℝ) (N : ℕ)
    (K : Test n) (x0 : ℝ) (y0 : Fin n → ℝ) (s : St n L.σ) (x : ℝ) (y : Fin n → ℝ)
    (p : Option (ℝ × Matrix (Fin 3) (Fin n) ℝ)) (J : Matrix (Fin n) (Fin n) ℝ) (hh : ℝ) : Prop
    extends Core hL hS Q c u N K x0 y0 s x y p J where
  h : s.h = .fin hh
  mats : Mats hL hS c J hh s.jac
  newton : s.phase = .newton → ∃ Z W : Tri ℝ n, s.Z = Z.fins ∧ s.FF = W.fins ∧
    Spec.Iterate (newtonMethod c) Q.F J x hh y (startZ c hh p) s.newt.toNat Z.mat W.mat
  tail : s.phase = .tail → ∃ (h' : ℝ) (Z W : Tri ℝ n) (k : ℕ) (x' : ℝ) (y' : Fin n → ℝ)
    (p' : Option (ℝ × Matrix (Fin 3) (Fin n) ℝ)), s.hnewt = .fin h' ∧
    (hh = h' ∨ hh = h' / 2) ∧ Path Q c u N K x0 y0 x' y' p' ∧ x' ≤ x ∧ s.Z = Z.fins ∧ 1 ≤ k ∧ k ≤ N ∧
    Spec.Iterate (newtonMethod c) Q.F (jacM Q u x' y') x h' y (startZ c h' p) k Z.mat W.mat

end Odes.Radau
