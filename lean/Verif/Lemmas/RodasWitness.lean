import Verif.Lemmas.RodasTerm
import Mathlib.LinearAlgebra.Matrix.NonsingularInverse

/-! A reference solver, and concrete runs of Rodas. -/

namespace Odes.Rodas

open Classical

variable {n : ℕ}

noncomputable section

/-- the matrix factorised by `decomr`. -/
def shifted (J : Fin n → Fin n → ℝ) (fac : ℝ) : Matrix (Fin n) (Fin n) ℝ :=
  fac • (1 : Matrix (Fin n) (Fin n) ℝ) - Matrix.of J

/-- reference solver in exact arithmetic: throws when the matrix is singular. -/
def exactLin (n : ℕ) : Lin ℝ n where
  σ := (Fin n → Fin n → ℝ) × ℝ
  load J := (J, 0)
  decomr fac s := if (shifted s.1 fac).det = 0 then none else some (s.1, fac)
  solvereal s b := (shifted s.1 s.2)⁻¹.mulVec b

def exactLin_spec (n : ℕ) : LinSpec (exactLin n) (fun _ => True) where
  R J s := s.1 = J
  load _ _ := rfl
  decomr J s fac s' hR h := by
    simp only [exactLin] at h
    split_ifs at h with hd
    injection h with h
    subst h
    refine ⟨hR, fun b => ?_⟩
    show (shifted J fac).mulVec ((shifted s.1 fac)⁻¹.mulVec b) = b
    rw [hR] at hd ⊢
    rw [Matrix.mulVec_mulVec, Matrix.mul_nonsing_inv _ (isUnit_iff_ne_zero.2 hd),
      Matrix.one_mulVec]

/-- finite part. -/
def val : X → ℝ
  | .fin r => r
  | _ => 0

/-- the reference solver on `double`s: exact on finite data, NaN as soon as something is not
finite. -/
def exactLinX (n : ℕ) : Lin X n where
  σ := (Fin n → Fin n → X) × X
  load J := (J, .nan)
  decomr fac s :=
    if (∀ i j, (s.1 i j).IsFin) ∧ fac.IsFin ∧
      (shifted (fun i j => val (s.1 i j)) (val fac)).det = 0 then none
    else some (s.1, fac)
  solvereal s b :=
    if (∀ i j, (s.1 i j).IsFin) ∧ s.2.IsFin ∧ ∀ i, (b i).IsFin then
      fins ((shifted (fun i j => val (s.1 i j)) (val s.2))⁻¹.mulVec fun i => val (b i))
    else fun _ => .nan

def exactLin_finite (n : ℕ) : LinX (exactLinX n) (exactLin n) where
  R s t := t.1 = fun i j => .fin (s.1 i j)
  load _ := rfl
  decomr fac s t hR := by
    have e : ∀ i j, t.1 i j = .fin (s.1 i j) := fun i j => by rw [hR]
    have e2 : (fun i j => val (t.1 i j)) = s.1 := by funext i j; rw [e]; rfl
    by_cases hd : (shifted s.1 fac).det = 0
    · left
      refine ⟨if_pos hd, if_pos ⟨fun i j => ⟨_, e i j⟩, ⟨_, rfl⟩, ?_⟩⟩
      rw [e2]; exact hd
    · right
      refine ⟨(s.1, fac), (t.1, .fin fac), if_neg hd, if_neg ?_, hR, fun b => ?_⟩
      · rintro ⟨-, -, h⟩
        rw [e2] at h; exact hd h
      · refine (if_pos ⟨fun i j => ⟨_, e i j⟩, ⟨_, rfl⟩, fun i => ⟨_, rfl⟩⟩).trans ?_
        show fins ((shifted (fun i j => val (t.1 i j)) fac)⁻¹.mulVec b) = _
        rw [e2]; rfl

theorem exactLin_nan (hn : 0 < n) : NanProp (exactLinX n) := by
  intro s s' h b
  refine ⟨⟨0, hn⟩, ?_⟩
  have e : s'.2 = .nan := by
    simp only [exactLinX] at h
    split_ifs at h
    injection h with h
    rw [← h]
  refine congrFun (if_neg ?_) _
  rintro ⟨-, h2, -⟩
  rw [e] at h2
  simp at h2

/-! ### real tables -/

/-- the classical coefficients as real numbers. -/
def classicR (c : Coef ℚ) : Spec.Classic ℝ 6 where
  alpha i j := ((classic c).alpha i j : ℚ)
  gam i j := ((classic c).gam i j : ℚ)
  b i := ((classic c).b i : ℚ)

/-- the coefficients as real numbers. -/
def Coef.real (c : Coef ℚ) : Coef ℝ := c.map fun q : ℚ => (q : ℝ)

theorem method_real (c : Coef ℚ) : (method c.real).gamma = ((method c).gamma : ℚ) ∧
    (∀ i, (method c.real).alpha i = ((method c).alpha i : ℚ)) ∧
    (∀ i, (method c.real).d i = ((method c).d i : ℚ)) ∧
    (∀ i j, (method c.real).a i j = ((method c).a i j : ℚ)) ∧
    (∀ i j, (method c.real).c i j = ((method c).c i j : ℚ)) ∧
    (∀ i, (method c.real).m i = ((method c).m i : ℚ)) := by
  refine ⟨rfl, fun i => ?_, fun i => ?_, fun i j => ?_, fun i j => ?_, fun i => ?_⟩
  · fin_cases i <;> simp [method, Coef.real, Coef.map]
  · fin_cases i <;> simp [method, Coef.real, Coef.map]
  · fin_cases i <;> fin_cases j <;> simp [method, Coef.real, Coef.map]
  · fin_cases i <;> fin_cases j <;> simp [method, Coef.real, Coef.map]
  · fin_cases i <;> simp [method, Coef.real, Coef.map]

theorem method_same_real {meth : ℤ} {c : Coef ℚ} (h : rocoe meth = some c) :
    (method c.real).SameAs (classicR c) := by
  obtain ⟨m1, -, -, m4, m5, m6⟩ := method_real c
  have hs := method_same h
  refine ⟨fun i j => ?_, fun i j => ?_, fun j => ?_⟩
  · have := congrArg (fun q : ℚ => (q : ℝ)) (hs.gam i j)
    push_cast [apply_ite (Rat.cast : ℚ → ℝ)] at this
    rw [m1]
    simp only [m5]
    exact this
  · have := congrArg (fun q : ℚ => (q : ℝ)) (hs.alpha i j)
    push_cast at this
    simp only [m4]
    exact this
  · have := congrArg (fun q : ℚ => (q : ℝ)) (hs.b j)
    push_cast at this
    simp only [m6]
    exact this

theorem method_lower (c : Coef ℝ) : (∀ i j, ¬ j < i → (method c).a i j = 0) ∧
    ∀ i j, ¬ j < i → (method c).c i j = 0 := by
  constructor
  · intro i j hij
    fin_cases i <;> fin_cases j <;> simp [method] at hij ⊢
  · intro i j hij
    fin_cases i <;> fin_cases j <;> simp [method] at hij ⊢

theorem gamma_pos {meth : ℤ} {c : Coef ℚ} (h : rocoe meth = some c) : c.GAMMA = 1 / 4 := by
  have h1 : ∀ c ∈ rocoe 1, c.GAMMA = 1 / 4 := by decide +kernel
  have h2 : ∀ c ∈ rocoe 2, c.GAMMA = 1 / 4 := by decide +kernel
  have h3 : ∀ c ∈ rocoe 3, c.GAMMA = 1 / 4 := by decide +kernel
  rcases rocoe_cases h with rfl | rfl | rfl
  · exact h1 c h
  · exact h2 c h
  · exact h3 c h

/-- one step with zero Jacobian when the right hand side takes one value only. -/
theorem const_step {meth : ℤ} {c : Coef ℚ} (hc : rocoe meth = some c)
    {F : ℝ → (Fin n → ℝ) → Fin n → ℝ} {x h : ℝ} (h0 : h ≠ 0) {y v ynew : Fin n → ℝ}
    {k : Fin 6 → Fin n → ℝ} (hF : ∀ i y', F (x + (method c.real).alpha i * h) y' = v)
    (hs : (method c.real).Step F (Matrix.of fun _ _ => (0 : ℝ)) 0 x h y k ynew) :
    ynew = y + (h * ∑ i, (classicR c).b i) • v ∧ k 5 = (h * ∑ j, (classicR c).gam 5 j) • v := by
  obtain ⟨l1, l2⟩ := method_lower c.real
  obtain ⟨k', e1, e2, e3⟩ := Spec.Rosenbrock.step_classic (method_same_real hc) l1 l2 h0 hs
  have e4 : ∀ i, k' i = h • v := by
    intro i
    rw [e2 i, hF]
    have : (Matrix.of fun _ _ => (0 : ℝ) : Matrix (Fin n) (Fin n) ℝ) = 0 := rfl
    rw [this, Matrix.zero_mulVec]
    simp
  constructor
  · rw [e3]
    simp only [e4, smul_smul, ← Finset.sum_smul]
    rw [← Finset.sum_mul, mul_comm]
  · rw [e1]
    simp only [e4, smul_smul, ← Finset.sum_smul]
    rw [← Finset.sum_mul, mul_comm]

/-- sums of the classical coefficients. -/
theorem sums {meth : ℤ} {c : Coef ℚ} (hc : rocoe meth = some c) :
    |∑ i, (classicR c).b i - 1| < 1e-14 ∧ |∑ j, (classicR c).gam 5 j| < 1e-14 := by
  have hg := good hc
  constructor
  · have h1 := hg.2.2.1.1.1
    have h2 : |((∑ i, (classic c).b i : ℚ) : ℝ) - 1| < 1e-14 := by
      have : ((|∑ i, (classic c).b i - 1| : ℚ) : ℝ) < ((1e-14 : ℚ) : ℝ) := by exact_mod_cast h1
      push_cast at this ⊢
      norm_num at this ⊢
      exact this
    push_cast at h2
    exact h2
  · have h1 := (hg.2.1 5).2
    have h2 : ((|∑ j, (classic c).gam 5 j - (method c).d 5| : ℚ) : ℝ) < ((1e-14 : ℚ) : ℝ) := by
      exact_mod_cast h1
    have h3 : (method c).d 5 = 0 := rfl
    rw [h3, sub_zero] at h2
    push_cast at h2
    norm_num at h2 ⊢
    exact h2

/-! ### lifting a real problem -/

/-- the real problem as a problem on `double`s: NaN outside the reals. -/
def lift (Q : Prob ℝ n) : Prob X n where
  F x y := if x.IsFin ∧ ∀ i, (y i).IsFin then fins (Q.F (val x) fun i => val (y i))
    else fun _ => .nan
  jac x y d := if x.IsFin ∧ ∀ i, (y i).IsFin then
      fun i j => .fin (Q.jac (val x) (fun i => val (y i)) (fun i => val (d i)) i j)
    else fun _ _ => .nan
  DFt x y := if x.IsFin ∧ ∀ i, (y i).IsFin then fins (Q.DFt (val x) fun i => val (y i))
    else fun _ => .nan
  computeJacobianNumerically := Q.computeJacobianNumerically
  autonms := Q.autonms
  useDFt := Q.useDFt
  stored := Q.stored

theorem lift_probX (Q : Prob ℝ n) : ProbX (lift Q) Q where
  F _ _ := if_pos ⟨⟨_, rfl⟩, fun _ => ⟨_, rfl⟩⟩
  jac _ _ _ := if_pos ⟨⟨_, rfl⟩, fun _ => ⟨_, rfl⟩⟩
  DFt _ _ := if_pos ⟨⟨_, rfl⟩, fun _ => ⟨_, rfl⟩⟩
  num := rfl
  autonms := rfl
  useDFt := rfl
  stored := rfl

theorem realCfg_default (c : Coef ℚ) (h0 : c.GAMMA ≠ 0) (a r : Fin n → ℝ) (ha : ∀ i, 0 < a i)
    (hr : ∀ i, 0 ≤ r i) : RealCfg (Cfg.default c (fins a) (fins r)) c.real a r :=
  ⟨rfl, by show ((c.GAMMA : ℚ) : ℝ) ≠ 0; exact_mod_cast h0, rfl, rfl, ha, hr⟩

/-! ### runs of scalar problems with zero Jacobian -/

/-- scalar problem `y' = F(x,y)`, the Jacobian and time derivative supplied by the user being 0. -/
def wQ (F : ℝ → (Fin 1 → ℝ) → Fin 1 → ℝ) : Prob ℝ 1 where
  F := F
  jac _ _ _ _ _ := 0
  DFt _ _ := 0
  computeJacobianNumerically := false
  autonms := false
  useDFt := true
  stored _ _ := true

/-- default parameters, absolute tolerance 1. -/
def wG (c : Coef ℚ) (one : Bool) : Cfg 1 :=
  { Cfg.default c (fins fun _ => 1) (fins fun _ => 0) with onlyOneStep := one }

/-- an object. -/
def wO : St 1 (exactLinX 1).σ :=
  { x := 0, h := 0, xend := 0, posneg := 0, hmaxn := 0, hopt := 0, xold := 0, hacc := 0
    erracc := 0, firstAcceptedStep := 0, last := false, reject := false, naccpt := 0, nrejct := 0
    njac := 0, nstep := 0, ndec := 0, Y := fun _ => 0, DY1 := fun _ => 0, FX := fun _ => 0
    jac := (fun _ _ => 0, 0), inner := false, taken := [], rejs := 0 }

/-- start of a run from `y = 0`. -/
def wStart (h x xe : ℝ) : St 1 (exactLinX 1).σ :=
  start wO (.fin h) (.fin x) (.fin xe) (fins fun _ => 0)

variable {meth : ℤ} {c : Coef ℚ} {F : ℝ → (Fin 1 → ℝ) → Fin 1 → ℝ} {one : Bool}

theorem wG_std (c : Coef ℚ) (one : Bool) : Std (wG c one) 0.9 := by
  obtain ⟨a1, a2, a3, a4, a5, a6⟩ := std_default c (fins fun _ : Fin 1 => 1) (fins fun _ => 0)
  exact ⟨a1, a2, a3, a4, a5, a6⟩

theorem wG_real (hc : rocoe meth = some c) (one : Bool) :
    RealCfg (wG c one) c.real (fun _ => 1) (fun _ => 0) := by
  obtain ⟨a1, a2, a3, a4, a5, a6⟩ := realCfg_default (n := 1) c (by rw [gamma_pos hc]; norm_num)
    (fun _ => 1) (fun _ => 0) (fun _ => one_pos) (fun _ => le_rfl)
  exact ⟨a1, a2, a3, a4, a5, a6⟩

theorem wQ_jac (F : ℝ → (Fin 1 → ℝ) → Fin 1 → ℝ) (x : ℝ) (y : Fin 1 → ℝ) :
    jacR (wQ F) x y = (fun _ _ => 0) ∧ dfxR (wQ F) x y = 0 := by
  constructor
  · funext i j; simp [jacR, wQ]
  · funext i; simp [dfxR, wQ]

theorem w_reach (hc : rocoe meth = some c) {h x xe : ℝ} (hx : x < xe)
    {s : St 1 (exactLinX 1).σ}
    (hr : Reach (step (exactLinX 1) (lift (wQ F)) (wG c one)) (wStart h x xe) s) :
    FInv x xe s ∧ ∃ x' y', RInv (exactLin_finite 1) (exactLin_spec 1) (wQ F) c.real (fun _ => 1)
      (fun _ => 0) x (fun _ => 0) s x' y' :=
  rinv_reach one_pos (wG_std c one) (exactLin_finite 1) (exactLin_spec 1) (lift_probX _)
    (wG_real hc one) (fun _ _ => trivial) hx hr

theorem wrms_one (y ynew e : Fin 1 → ℝ) :
    Spec.wrms (fun _ => 1) (fun _ => 0) y ynew e = |e 0| := by
  unfold Spec.wrms
  simp [Real.sqrt_sq_eq_abs]

/-- an attempt always succeeds, and what it gives. -/
theorem w_attempt (hc : rocoe meth = some c) {x xe : ℝ} {s : St 1 (exactLinX 1).σ}
    (hf : FInv x xe s) {x' : ℝ} {y' : Fin 1 → ℝ}
    (hr : RInv (exactLin_finite 1) (exactLin_spec 1) (wQ F) c.real (fun _ => 1)
      (fun _ => 0) x (fun _ => 0) s x' y') (hi : s.inner = true) :
    ∃ j k hh ks ynew, attempt (exactLinX 1) (lift (wQ F)) (wG c one).coef s.x s.h s.Y s.DY1 s.FX
        s.jac = some (j, k) ∧ s.h = .fin hh ∧ 0 < hh ∧
      (method c.real).Step F (Matrix.of fun _ _ => (0 : ℝ)) 0 x' hh y' ks ynew ∧
      k.YNEW = fins ynew ∧ errNorm (wG c one) s.Y k.YNEW k.AK6 = .fin |ks 5 0| := by
  have hsome : attempt (exactLinX 1) (lift (wQ F)) (wG c one).coef s.x s.h s.Y s.DY1 s.FX s.jac
      ≠ none := by
    obtain ⟨hh, h1⟩ := hr.h hi
    have h2 := (hf.h_pos hi hr.time h1).1
    obtain ⟨sr, h3, h4⟩ := hr.jac hi
    have h5 : s.jac.1 = fun _ _ => .fin 0 := by
      have e1 : s.jac.1 = fun i j => .fin (sr.1 i j) := h3
      have e2 : sr.1 = jacR (wQ F) x' y' := h4
      rw [e1, e2, (wQ_jac F x' y').1]
    unfold attempt
    have e : (1 : X) / (s.h * (wG c one).coef.GAMMA) = .fin (1 / (hh * c.GAMMA)) := by
      rw [h1]
      show (1 : X) / (X.fin hh * X.fin c.GAMMA) = _
      rw [X.fin_mul, X.one_eq, X.fin_div]
      rw [gamma_pos hc]
      norm_num
      exact h2.ne'
    have hd : (exactLinX 1).decomr (.fin (1 / (hh * c.GAMMA))) s.jac
        = some (s.jac.1, .fin (1 / (hh * c.GAMMA))) := by
      refine if_neg ?_
      rintro ⟨-, -, h6⟩
      rw [h5, gamma_pos hc] at h6
      simp [shifted, val] at h6
      exact h2.ne' h6
    rw [e, hd]
    exact Option.some_ne_none _
  obtain ⟨⟨j, k⟩, ha⟩ := Option.ne_none_iff_exists'.1 hsome
  obtain ⟨hh, sr', ks, ynew, c1, c2, -, -, c5, c6, c7⟩ := body_real one_pos (exactLin_finite 1)
    (exactLin_spec 1) (lift_probX (wQ F)) (wG_real hc one) hf hr hi ha
  rw [(wQ_jac F x' y').1, (wQ_jac F x' y').2] at c5
  exact ⟨j, k, hh, ks, ynew, ha, c1, c2, c5, c6, by rw [c7, wrms_one]⟩

/-- the first transition, for a step which does not reach the end. -/
theorem w_first {h x xe : ℝ} (h0 : 1e-6 ≤ h) (hx : |x| ≤ 1) (he : x + h * 1.0001 ≤ xe) :
    step (exactLinX 1) (lift (wQ F)) (wG c one) (wStart h x xe)
      = .next (prepared (exactLinX 1) (lift (wQ F)) (wG c one) (wStart h x xe)) ∧
    (prepared (exactLinX 1) (lift (wQ F)) (wG c one) (wStart h x xe)).h = .fin h ∧
    (prepared (exactLinX 1) (lift (wQ F)) (wG c one) (wStart h x xe)).last = false := by
  have hpos : 0 < h := lt_of_lt_of_le (by norm_num) h0
  have hxe : x < xe := by norm_num at he; linarith
  have hh : (wStart h x xe).h = .fin h := rfl
  have hxx : (wStart h x xe).x = .fin x := rfl
  have hu : (wG c one).uround = .fin 1e-16 := (wG_std c one).uround.trans (by norm_num)
  have hI : Inv x xe (wStart h x xe) := inv_start (L := exactLinX 1) wO (.fin h) x xe (fins fun _ => 0)
  have ht : hTop (wG c one) (wStart h x xe) = .fin h := by
    unfold hTop
    have hm : (wStart h x xe).hmaxn = .fin (xe - x) := by
      rw [show (wStart h x xe).hmaxn = _ from hI.hmaxn, if_pos hxe.le,
        abs_of_nonneg (by linarith), min_self]
    have hp : (wStart h x xe).posneg = .fin 1 := by
      rw [show (wStart h x xe).posneg = _ from hI.posneg, if_pos hxe.le]
    rw [hm, hp, hh, hu, X.ABS_fin, X.ofSci_eq, X.fin_mul, if_neg, X.ABS_fin, X.MIN_fin, X.fin_mul,
      abs_of_pos hpos, mul_one, min_eq_left]
    · norm_num at he; linarith
    · rw [X.fin_lt, abs_of_pos hpos]; norm_num at h0 ⊢; linarith
  have ho : ¬ Over (wG c one) (wStart h x xe) := by
    rw [over_iff (x0 := x) (xe := xe) hI ht hxx, if_pos hxe.le, mul_one]
    norm_num at he ⊢
    linarith
  refine ⟨?_, ?_, ?_⟩
  · unfold step
    rw [if_neg (by simp [wStart, start]), if_neg (by simp [wStart, start]), prepare_eq, if_neg]
    rw [hh, hxx, hu, X.ABS_fin, X.ABS_fin, X.ofSci_eq, X.fin_mul, X.fin_mul, X.fin_le,
      abs_of_pos hpos]
    norm_num at h0 ⊢
    linarith
  · rw [prepared_h, if_neg ho, ht]
  · rw [prepared_last, if_neg ho]; rfl

end

end Odes.Rodas
