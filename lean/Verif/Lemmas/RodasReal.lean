import Verif.Lemmas.RodasTable
import Verif.Lemmas.RodasCount

/-! Runs of Rodas on real data: the special values never appear, and the steps are the steps of the
Rosenbrock method. -/

namespace Odes.Rodas

open Classical

variable {n : ℕ}

/-! ### transport of the stages -/

section map

variable {α β : Type} [Add α] [Mul α] [Div α] [OfNat α 0] [Add β] [Mul β] [Div β] [OfNat β 0]

omit [Div α] [OfNat α 0] [Div β] [OfNat β 0] in
theorem slvrod_map {f : α → β} (fadd : ∀ a b, f (a + b) = f a + f b)
    (fmul : ∀ a b, f (a * b) = f a * f b) {L : Lin α n} {L' : Lin β n} {s : L.σ} {s' : L'.σ}
    (hs : ∀ b, L'.solvereal s' (fun i => f (b i)) = fun i => f (L.solvereal s b i))
    (au : Bool) (hd : α) (DY FX Y : Fin n → α) (b : Bool) :
    slvrod L' au s' (f hd) (fun i => f (DY i)) (fun i => f (FX i)) (fun i => f (Y i)) b =
      fun i => f (slvrod L au s hd DY FX Y b i) := by
  unfold slvrod
  rw [← hs]
  cases au <;> cases b <;> simp [fadd, fmul]

omit [Div α] [OfNat α 0] [Div β] [OfNat β 0] in
theorem slvrod_map' {f : α → β} (fadd : ∀ a b, f (a + b) = f a + f b)
    (fmul : ∀ a b, f (a * b) = f a * f b) {L : Lin α n} {L' : Lin β n} {s : L.σ} {s' : L'.σ}
    (hs : ∀ b, L'.solvereal s' (fun i => f (b i)) = fun i => f (L.solvereal s b i))
    (au : Bool) {hd : α} {DY FX Y : Fin n → α} {b : Bool} {hd' : β} {DY' FX' Y' : Fin n → β}
    (e1 : hd' = f hd) (e2 : DY' = fun i => f (DY i)) (e3 : au = false → FX' = fun i => f (FX i))
    (e4 : Y' = fun i => f (Y i)) :
    slvrod L' au s' hd' DY' FX' Y' b = fun i => f (slvrod L au s hd DY FX Y b i) := by
  subst e1 e2 e4
  cases au with
  | false => rw [e3 rfl]; exact slvrod_map fadd fmul hs _ _ _ _ _ _
  | true =>
    rw [← slvrod_map fadd fmul hs]
    rfl

/-- the stages commute with a map which respects the operations. -/
theorem stages_map {f : α → β} (fadd : ∀ a b, f (a + b) = f a + f b)
    (fmul : ∀ a b, f (a * b) = f a * f b) (f0 : f 0 = 0) {L : Lin α n} {L' : Lin β n} {P : Prob α n}
    {P' : Prob β n} {c : Coef α} {x h : α} (fdiv : ∀ a, f (a / h) = f a / f h) {Y DY1 FX : Fin n → α}
    {FX' : Fin n → β} {s : L.σ} {s' : L'.σ}
    (hs : ∀ b, L'.solvereal s' (fun i => f (b i)) = fun i => f (L.solvereal s b i))
    (hau : P'.autonms = P.autonms)
    (hF : ∀ t y, P'.F (f t) (fun i => f (y i)) = fun i => f (P.F t y i))
    (hFX : P.autonms = false → FX' = fun i => f (FX i)) {k : Stages α n} {k' : Stages β n}
    (hk : Chain L P c x h Y DY1 FX s k)
    (hk' : Chain L' P' (c.map f) (f x) (f h) (fun i => f (Y i)) (fun i => f (DY1 i)) FX' s' k') :
    k'.AK1 = (fun i => f (k.AK1 i)) ∧ k'.AK2 = (fun i => f (k.AK2 i)) ∧
    k'.AK3 = (fun i => f (k.AK3 i)) ∧ k'.AK4 = (fun i => f (k.AK4 i)) ∧
    k'.AK5 = (fun i => f (k.AK5 i)) ∧ k'.AK6 = (fun i => f (k.AK6 i)) ∧
    k'.YNEW = (fun i => f (k.YNEW i)) := by
  have hd : ∀ d : α, (if P'.autonms then (0 : β) else f h * f d)
      = f (if P.autonms then (0 : α) else h * d) := by
    intro d
    rw [hau]
    split_ifs
    · rw [f0]
    · rw [fmul]
  have hFF : ∀ t (y : Fin n → β) t' (y' : Fin n → α), t = f t' → y = (fun i => f (y' i)) →
      P'.F t y = fun i => f (P.F t' y' i) := by
    intro t y t' y' h1 h2
    rw [h1, h2]; exact hF _ _
  have a1 : k'.AK1 = fun i => f (k.AK1 i) := by
    rw [hk'.h1, hk.h1, hau]
    exact slvrod_map' fadd fmul hs _ (hau ▸ hd _) rfl hFX rfl
  have a2 : k'.AK2 = fun i => f (k.AK2 i) := by
    rw [hk'.h2, hk.h2, hau]
    refine slvrod_map' fadd fmul hs _ (hau ▸ hd _) (hFF _ _ _ _ ?_ ?_) hFX ?_
    · rw [fadd, fmul]; rfl
    · funext i; rw [a1, fadd, fmul]; rfl
    · funext i; rw [a1, fmul, fdiv]; rfl
  have a3 : k'.AK3 = fun i => f (k.AK3 i) := by
    rw [hk'.h3, hk.h3, hau]
    refine slvrod_map' fadd fmul hs _ (hau ▸ hd _) (hFF _ _ _ _ ?_ ?_) hFX ?_
    · rw [fadd, fmul]; rfl
    · funext i; rw [a1, a2]; simp only [fadd, fmul]; rfl
    · funext i; rw [a1, a2]; simp only [fadd, fmul, fdiv]; rfl
  have a4 : k'.AK4 = fun i => f (k.AK4 i) := by
    rw [hk'.h4, hk.h4, hau]
    refine slvrod_map' fadd fmul hs _ (hau ▸ hd _) (hFF _ _ _ _ ?_ ?_) hFX ?_
    · rw [fadd, fmul]; rfl
    · funext i; rw [a1, a2, a3]; simp only [fadd, fmul]; rfl
    · funext i; rw [a1, a2, a3]; simp only [fadd, fmul, fdiv]; rfl
  have a5 : k'.AK5 = fun i => f (k.AK5 i) := by
    rw [hk'.h5, hk.h5, hau]
    refine slvrod_map' fadd fmul hs _ f0.symm (hFF _ _ _ _ ?_ ?_) hFX ?_
    · rw [fadd]
    · funext i; rw [a1, a2, a3, a4]; simp only [fadd, fmul]; rfl
    · funext i; rw [a1, a2, a3, a4]; simp only [fadd, fmul, fdiv]; rfl
  have a6 : k'.AK6 = fun i => f (k.AK6 i) := by
    rw [hk'.h6, hk.h6, hau]
    refine slvrod_map' fadd fmul hs _ f0.symm (hFF _ _ _ _ ?_ ?_) hFX ?_
    · rw [fadd]
    · funext i; rw [a1, a2, a3, a4, a5]; simp only [fadd, fmul]; rfl
    · funext i; rw [a1, a2, a3, a4, a5]; simp only [fadd, fmul, fdiv]; rfl
  refine ⟨a1, a2, a3, a4, a5, a6, ?_⟩
  rw [hk'.hy, hk.hy]
  funext i
  rw [a1, a2, a3, a4, a5, a6]
  simp only [fadd, fmul]
  rfl

end map

/-! ### real data -/

/-- vector of finite values. -/
def fins (y : Fin n → ℝ) : Fin n → X := fun i => .fin (y i)

/-- `L` computes on finite values what `Lr` computes in ℝ. -/
structure LinX (L : Lin X n) (Lr : Lin ℝ n) where
  R : Lr.σ → L.σ → Prop
  load : ∀ J, R (Lr.load J) (L.load fun i j => .fin (J i j))
  decomr : ∀ fac s t, R s t → (Lr.decomr fac s = none ∧ L.decomr (.fin fac) t = none) ∨
    ∃ s' t', Lr.decomr fac s = some s' ∧ L.decomr (.fin fac) t = some t' ∧ R s' t' ∧
      ∀ b, L.solvereal t' (fins b) = fins (Lr.solvereal s' b)

/-- `P` is the real problem `Q` (a right hand side which is finite everywhere). -/
structure ProbX (P : Prob X n) (Q : Prob ℝ n) : Prop where
  F : ∀ x y, P.F (.fin x) (fins y) = fins (Q.F x y)
  jac : ∀ x y d, P.jac (.fin x) (fins y) (fins d) = fun i j => .fin (Q.jac x y d i j)
  DFt : ∀ x y, P.DFt (.fin x) (fins y) = fins (Q.DFt x y)
  num : P.computeJacobianNumerically = Q.computeJacobianNumerically
  autonms : P.autonms = Q.autonms
  useDFt : P.useDFt = Q.useDFt
  stored : P.stored = Q.stored

/-- increment of the difference quotients. -/
noncomputable def deltaR (a : ℝ) : ℝ := Real.sqrt (1e-16 * max 1e-5 |a|)

theorem deltaR_pos (a : ℝ) : 0 < deltaR a := by
  refine Real.sqrt_pos.2 (mul_pos (by norm_num) (lt_max_of_lt_left (by norm_num)))

/-- the Jacobian used at `(x,y)`. -/
noncomputable def jacR (Q : Prob ℝ n) (x : ℝ) (y : Fin n → ℝ) (i j : Fin n) : ℝ :=
  if Q.computeJacobianNumerically then
    if Q.stored i j then
      (Q.F x (Function.update y j (y j + deltaR (y j))) i - Q.F x y i) * (1 / deltaR (y j))
    else 0
  else Q.jac x y (Q.F x y) i j

/-- the time derivative used at `(x,y)`. -/
noncomputable def dfxR (Q : Prob ℝ n) (x : ℝ) (y : Fin n → ℝ) (i : Fin n) : ℝ :=
  if Q.autonms then 0
  else if Q.useDFt then Q.DFt x y i
  else 1 / deltaR x * Q.F (x + deltaR x) y i + -(1 / deltaR x) * Q.F x y i

variable {L : Lin X n} {Lr : Lin ℝ n} {P : Prob X n} {Q : Prob ℝ n} {g : Cfg n} {q : ℝ}

theorem delta_fin (a : ℝ) : delta (.fin 1.0e-16) (.fin a) = .fin (deltaR a) := by
  unfold delta
  rw [X.ABS_fin, X.ofSci_eq, X.MAX_fin, X.fin_mul, X.sqrt_fin_nonneg
    (mul_nonneg (by norm_num) (le_max_of_le_left (by norm_num)))]
  unfold deltaR
  norm_num

theorem jac_fin (hP : ProbX P Q) (hg : g.uround = .fin 1.0e-16) (x : ℝ) (y : Fin n → ℝ) :
    (if P.computeJacobianNumerically then numJac P g.uround (.fin x) (fins y) (fins (Q.F x y))
      else P.jac (.fin x) (fins y) (fins (Q.F x y))) = fun i j => .fin (jacR Q x y i j) := by
  rw [hP.num, hg]
  unfold jacR
  split_ifs with hn
  · funext i j
    unfold numJac
    rw [hP.stored]
    split_ifs with hst
    · have e : Function.update (fins y) j (fins y j + delta (.fin 1.0e-16) (fins y j))
          = fins (Function.update y j (y j + deltaR (y j))) := by
        funext i
        by_cases hij : i = j
        · subst hij
          simp only [Function.update_self, fins]
          rw [delta_fin, X.fin_add]
        · simp only [Function.update_of_ne hij, fins]
      rw [e, hP.F]
      show (X.fin _ - X.fin _) * (1.0e+0 / delta _ (.fin (y j))) = _
      rw [delta_fin, X.ofSci_eq, X.fin_div _ _ (deltaR_pos _).ne', X.fin_sub, X.fin_mul]
      norm_num
    · simp
  · exact hP.jac x y _

theorem dfx_fin (hP : ProbX P Q) (hg : g.uround = .fin 1.0e-16) (x : ℝ) (y : Fin n → ℝ)
    (ha : Q.autonms = false) :
    dfx P g.uround (.fin x) (fins y) (fins (Q.F x y)) = fins (dfxR Q x y) := by
  rw [hg]
  unfold dfx
  rw [hP.useDFt]
  by_cases hu : Q.useDFt = true
  · rw [if_pos hu, hP.DFt]
    funext i
    unfold fins dfxR
    rw [ha, hu]; rfl
  · rw [if_neg hu]
    funext i
    unfold fins dfxR
    rw [ha]
    simp only [Bool.false_eq_true, if_false, hu]
    rw [delta_fin, X.fin_add]
    show 1.0 / X.fin _ * P.F _ (fins y) i + _ = _
    rw [hP.F, X.ofSci_eq, X.fin_div _ _ (deltaR_pos _).ne']
    show X.fin _ * X.fin _ + -X.fin _ * X.fin _ = _
    rw [X.fin_neg, X.fin_mul, X.fin_mul, X.fin_add]
    norm_num

/-! ### the invariant -/

/-- real parameters: coefficients `c` with `γ ≠ 0`, positive absolute and non-negative relative
tolerances. -/
structure RealCfg (g : Cfg n) (c : Coef ℝ) (a r : Fin n → ℝ) : Prop where
  coef : g.coef = c.map X.fin
  gamma : c.GAMMA ≠ 0
  atol : g.atol = fins a
  rtol : g.rtol = fins r
  a0 : ∀ i, 0 < a i
  r0 : ∀ i, 0 ≤ r i

variable {c : Coef ℝ} {a r : Fin n → ℝ}

theorem foldl_fin (f : Fin n → ℝ) : ∀ (l : List (Fin n)) (s : ℝ),
    l.foldl (fun err i => err + X.fin (f i)) (.fin s) = .fin (s + (l.map f).sum)
  | [], s => by simp
  | i :: l, s => by
    rw [List.foldl_cons, X.fin_add, foldl_fin f l, List.map_cons, List.sum_cons]
    congr 1; ring

theorem pow_two_fin (v : ℝ) : X.pow (.fin v) 2 = .fin (v ^ 2) := by
  unfold X.pow
  rw [if_neg (by norm_num)]
  dsimp only
  have e : v ^ (2 : ℝ) = v ^ 2 := by norm_cast
  split_ifs with h1 h2 h3 h4
  · rw [e]
  · rw [h2]; norm_num
  · norm_num at h3
  · rw [e]
  · exact absurd ⟨2, by norm_num⟩ h4

theorem errNorm_fin (hn : 0 < n) (hg : RealCfg g c a r) (y ynew e : Fin n → ℝ) :
    errNorm g (fins y) (fins ynew) (fins e) = .fin (Spec.wrms a r y ynew e) := by
  unfold errNorm
  rw [hg.atol, hg.rtol]
  have h1 : ∀ i, X.pow (fins e i / (fins a i + fins r i * X.MAX (X.ABS (fins y i))
      (X.ABS (fins ynew i)))) 2 = .fin ((e i / (a i + r i * max |y i| |ynew i|)) ^ 2) := by
    intro i
    have hp : 0 < a i + r i * max |y i| |ynew i| :=
      add_pos_of_pos_of_nonneg (hg.a0 i)
        (mul_nonneg (hg.r0 i) (le_max_of_le_left (abs_nonneg _)))
    show X.pow (X.fin (e i) / (X.fin (a i) + X.fin (r i) * X.MAX (X.ABS (X.fin (y i)))
      (X.ABS (X.fin (ynew i))))) 2 = _
    rw [X.ABS_fin, X.ABS_fin, X.MAX_fin, X.fin_mul, X.fin_add, X.fin_div _ _ hp.ne', pow_two_fin]
  simp only [h1]
  rw [X.ofSci_eq, foldl_fin]
  have h2 : (n : ℝ) ≠ 0 := by exact_mod_cast hn.ne'
  have h3 : X.ofInt (n : ℤ) = .fin n := by simp [X.ofInt]
  rw [h3, X.fin_div _ _ h2, X.sqrt_fin_nonneg]
  · unfold Spec.wrms
    congr 3
    rw [← List.ofFn_eq_map, List.sum_ofFn]
    norm_num
  · rw [← List.ofFn_eq_map, List.sum_ofFn]
    norm_num
    exact div_nonneg (Finset.sum_nonneg fun i _ => sq_nonneg _) (by positivity)

/-- an accepted step from `(x,y)` with size `h` gives `ynew`. -/
def StepOk (c : Coef ℝ) (Q : Prob ℝ n) (a r : Fin n → ℝ) (x h : ℝ) (y ynew : Fin n → ℝ) : Prop :=
  ∃ k, (method c).Step Q.F (Matrix.of (jacR Q x y)) (dfxR Q x y) x h y k ynew ∧
    Spec.wrms a r y ynew (k 5) ≤ 1

variable {Shape : (Fin n → Fin n → ℝ) → Prop}

/-- the attempt on real data. -/
theorem attempt_real (hL : LinX L Lr) (hS : LinSpec Lr Shape) (hP : ProbX P Q)
    (hg : RealCfg g c a r) {x h : ℝ} (h0 : h ≠ 0) {y : Fin n → ℝ} {FX : Fin n → X}
    {J : Fin n → Fin n → ℝ} (hFX : Q.autonms = false → FX = fins (dfxR Q x y)) {sr : Lr.σ} {t : L.σ}
    (hR : hL.R sr t) (hJ : hS.R J sr) :
    attempt L P g.coef (.fin x) (.fin h) (fins y) (fins (Q.F x y)) FX t = none ∨
    ∃ j k sr' ks ynew, attempt L P g.coef (.fin x) (.fin h) (fins y) (fins (Q.F x y)) FX t
        = some (j, k) ∧ hL.R sr' j ∧ hS.R J sr' ∧
      (method c).Step Q.F (Matrix.of J) (dfxR Q x y) x h y ks ynew ∧
      k.YNEW = fins ynew ∧ k.AK6 = fins (ks 5) := by
  unfold attempt
  rw [hg.coef]
  have e : (1 : X) / (X.fin h * (c.map X.fin).GAMMA) = .fin (1 / (h * c.GAMMA)) := by
    show (1 : X) / (X.fin h * X.fin c.GAMMA) = _
    rw [X.fin_mul, X.one_eq, X.fin_div _ _ (mul_ne_zero h0 hg.gamma)]
  rw [e]
  rcases hL.decomr (1 / (h * c.GAMMA)) sr t hR with ⟨-, h1⟩ | ⟨s', t', h1, h2, h3, h4⟩
  · left; rw [h1]; rfl
  · right
    obtain ⟨h5, h6⟩ := hS.decomr J sr _ s' hJ h1
    have hk := stages_chain Lr Q c x h y (Q.F x y) (dfxR Q x y) s'
    have hk' := stages_chain L P (c.map X.fin) (.fin x) (.fin h) (fins y) (fins (Q.F x y)) FX t'
    obtain ⟨-, -, -, -, -, m6, m7⟩ := stages_map (f := X.fin) (fun _ _ => rfl) (fun _ _ => rfl)
      (by simp) (fun b => (X.fin_div b h h0).symm) h4 hP.autonms hP.F hFX hk hk'
    have hst := stages_solve h6 hk
    have e2 : (if Q.autonms = true then (0 : Fin n → ℝ) else dfxR Q x y) = dfxR Q x y := by
      split_ifs with hau
      · funext i; simp [dfxR, hau]
      · rfl
    rw [e2] at hst
    rw [h2]
    exact ⟨t', _, s', _, _, rfl, h3, h5, hst, m7, m6⟩

/-- invariant of a forward run on real data. -/
structure RInv (hL : LinX L Lr) (hS : LinSpec Lr Shape) (Q : Prob ℝ n) (c : Coef ℝ)
    (a r : Fin n → ℝ) (x0 : ℝ) (y0 : Fin n → ℝ) (s : St n L.σ) (x : ℝ) (y : Fin n → ℝ) : Prop where
  time : s.x = .fin x
  Y : s.Y = fins y
  list : ∃ l : List ℝ, s.taken = l.map X.fin ∧ Spec.StepList (StepOk c Q a r) x0 y0 l x y
  h : s.inner = true → ∃ hh, s.h = .fin hh
  DY1 : s.inner = true → s.DY1 = fins (Q.F x y)
  FX : s.inner = true → Q.autonms = false → s.FX = fins (dfxR Q x y)
  jac : s.inner = true → ∃ sr, hL.R sr s.jac ∧ hS.R (jacR Q x y) sr

theorem FInv.h_pos {x0 xe : ℝ} {s : St n L.σ} (hf : FInv x0 xe s) (hi : s.inner = true) {x hh : ℝ}
    (hx : s.x = .fin x) (h : s.h = .fin hh) : 0 < hh ∧ x + hh ≤ xe ∧ x0 ≤ x := by
  rcases hf.pos with ⟨p1, -⟩ | ⟨l, p1, p2, p3, p4, p5, p6, p7⟩
  · rw [hx] at p1; simp at p1
  · rw [hx, X.fin_inj] at p3
    rcases p7 hi with ⟨a1, -⟩ | ⟨h', a1, a2, a3, a4⟩
    · rw [h] at a1; simp at a1
    · rw [h, X.fin_inj] at a1
      subst a1
      refine ⟨a2, ?_, p3 ▸ p4⟩
      rw [p3]
      split_ifs at a4
      · exact a4.le
      · exact a4.le

/-- what one pass through the `do` loop does on real data. -/
theorem body_real (hn : 0 < n) (hL : LinX L Lr) (hS : LinSpec Lr Shape) (hP : ProbX P Q)
    (hg : RealCfg g c a r) {x0 xe : ℝ} {y0 : Fin n → ℝ} {s : St n L.σ} {x : ℝ} {y : Fin n → ℝ}
    (hf : FInv x0 xe s) (hs : RInv hL hS Q c a r x0 y0 s x y) (hi : s.inner = true)
    {j : L.σ} {k : Stages X n} (ha : attempt L P g.coef s.x s.h s.Y s.DY1 s.FX s.jac = some (j, k)) :
    ∃ hh sr' ks ynew, s.h = .fin hh ∧ 0 < hh ∧ hL.R sr' j ∧ hS.R (jacR Q x y) sr' ∧
      (method c).Step Q.F (Matrix.of (jacR Q x y)) (dfxR Q x y) x hh y ks ynew ∧
      k.YNEW = fins ynew ∧
      errNorm g s.Y k.YNEW k.AK6 = .fin (Spec.wrms a r y ynew (ks 5)) := by
  obtain ⟨hh, h1⟩ := hs.h hi
  have h2 := (hf.h_pos hi hs.time h1).1
  obtain ⟨sr, h3, h4⟩ := hs.jac hi
  rw [hs.time, h1, hs.Y, hs.DY1 hi] at ha
  rcases attempt_real hL hS hP hg h2.ne' (hs.FX hi) h3 h4 with hb | ⟨j', k', sr', ks, ynew, b1, b2, b3, b4, b5, b6⟩
  · rw [hb] at ha; simp at ha
  · rw [b1] at ha
    simp only [Option.some.injEq, Prod.mk.injEq] at ha
    obtain ⟨rfl, rfl⟩ := ha
    exact ⟨hh, sr', ks, ynew, h1, h2, b2, b3, b4, b5, by rw [hs.Y, b5, b6, errNorm_fin hn hg]⟩

theorem rinv_step (hn : 0 < n) (hq : Std g q) (hL : LinX L Lr) (hS : LinSpec Lr Shape)
    (hP : ProbX P Q) (hg : RealCfg g c a r) (hSh : ∀ x y, Shape (jacR Q x y)) {x0 xe : ℝ}
    (hx : x0 < xe) {y0 : Fin n → ℝ} {s s' : St n L.σ} (hf : FInv x0 xe s)
    (hs : ∃ x y, RInv hL hS Q c a r x0 y0 s x y) (h : step L P g s = .next s') :
    ∃ x y, RInv hL hS Q c a r x0 y0 s' x y := by
  obtain ⟨x, y, hs⟩ := hs
  rcases step_cases h with ⟨hi, hl, -, rfl⟩ | ⟨hi, j, k, err, ha, he, hb⟩
  · refine ⟨x, y, hs.time, hs.Y, hs.list, fun _ => ?_, fun _ => ?_, fun _ hau => ?_, fun _ => ?_⟩
    · rw [prepared_h, hs.time, hf.base.xend]
      obtain ⟨v, v1, -⟩ := hTop_pos hq hx hf.base
      split_ifs
      · exact ⟨_, X.fin_sub _ _⟩
      · exact ⟨v, v1⟩
    · show P.F s.x s.Y = _
      rw [hs.time, hs.Y, hP.F]
    · show (if P.autonms then s.FX else dfx P g.uround s.x s.Y (P.F s.x s.Y)) = _
      rw [hP.autonms, hau, if_neg (by decide), hs.time, hs.Y, hP.F, dfx_fin hP hq.uround x y hau]
    · refine ⟨Lr.load (jacR Q x y), ?_, hS.load _ (hSh x y)⟩
      show hL.R _ (L.load (if P.computeJacobianNumerically then
        numJac P g.uround s.x s.Y (P.F s.x s.Y) else P.jac s.x s.Y (P.F s.x s.Y)))
      rw [hs.time, hs.Y, hP.F, jac_fin hP hq.uround]
      exact hL.load _
  · obtain ⟨hh, sr', ks, ynew, c1, c2, c3, c4, c5, c6, c7⟩ := body_real hn hL hS hP hg hf hs hi ha
    rw [c7] at he
    rcases hb with ⟨h1, rfl⟩ | ⟨h1, -, -, rfl⟩
    · refine ⟨x, y, hs.time, hs.Y, hs.list, fun _ => ?_, fun _ => hs.DY1 hi, fun _ => hs.FX hi,
        fun _ => ⟨sr', c3, c4⟩⟩
      show ∃ v, s.h / facOf g err = _
      rw [he, c1]
      rcases facOf_range hq (err := .fin (Spec.wrms a r y ynew (ks 5)))
        (Or.inr (Or.inr ⟨_, Real.sqrt_nonneg _, rfl⟩)) with ⟨hf1, -⟩ | ⟨f, hf1, hf2, -⟩
      · simp at hf1
      · rw [hf1]
        exact ⟨_, X.fin_div _ _ (by linarith)⟩
    · obtain ⟨l, l1, l2⟩ := hs.list
      refine ⟨x + hh, ynew, ?_, c6, ⟨hh :: l, ?_, l2.cons c2 ⟨ks, c5, ?_⟩⟩, ?_, ?_, ?_, ?_⟩
      · show s.x + s.h = _
        rw [hs.time, c1, X.fin_add]
      · show s.h :: s.taken = _
        rw [c1, l1]; rfl
      · rw [he, X.ofSci_eq, X.fin_le] at h1
        norm_num at h1
        exact h1
      all_goals
        intro hc
        simp [accepted] at hc

theorem rinv_reach (hn : 0 < n) (hq : Std g q) (hL : LinX L Lr) (hS : LinSpec Lr Shape)
    (hP : ProbX P Q) (hg : RealCfg g c a r) (hSh : ∀ x y, Shape (jacR Q x y)) {x0 xe : ℝ}
    (hx : x0 < xe) {y0 : Fin n → ℝ} {o : St n L.σ} {h : X} {s : St n L.σ}
    (hr : Reach (step L P g) (start o h (.fin x0) (.fin xe) (fins y0)) s) :
    FInv x0 xe s ∧ ∃ x y, RInv hL hS Q c a r x0 y0 s x y := by
  refine Reach.inv (I := fun s => FInv x0 xe s ∧ ∃ x y, RInv hL hS Q c a r x0 y0 s x y)
    (fun _ _ hI hst => ⟨finv_step hq hx hI.1 hst,
      rinv_step hn hq hL hS hP hg hSh hx hI.1 hI.2 hst⟩) ⟨finv_start o h hx _, ?_⟩ hr
  exact ⟨x0, y0, rfl, rfl, ⟨[], rfl, .nil⟩, fun hc => by simp [start] at hc, fun hc => by simp [start] at hc,
    fun hc => by simp [start] at hc, fun hc => by simp [start] at hc⟩

end Odes.Rodas
