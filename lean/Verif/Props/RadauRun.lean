import Verif.Lemmas.RadauRealRun
import Verif.Props.RadauMat
import Verif.Props.RadauStart
import Verif.Props.Radau
import Verif.Props.RodasInv

/-! # Runs of Radau5 on real data: C96, C94

A whole run is a sequence of steps of the simplified Newton iteration which pass the error test
(exact arithmetic); consequences for linear invariants. -/

namespace Odes.Radau

open Classical

variable {n : ℕ} {L : Lin X n} {Lr : Lin ℝ n} {P : Prob X n} {Q : Prob ℝ n} {g : Cfg n} {sf u : ℝ}
  {c : Consts ℝ} {Shape : Matrix (Fin n) (Fin n) ℝ → Prop} {a r : Fin n → ℝ}

/-- C96: a run on real data which returns has made a sequence of steps of positive sizes.  Each step
makes between 1 and `nit` simplified Newton iterations with the Jacobian computed by the code at a
point passed before, starting from 0 or from the extrapolation of the last step, adds the last stage
increment and has passed the error test; the object holds the result of the last one. -/
theorem radau_run_is_newton (hn : 0 < n) (hL : LinX L Lr) (hS : LinSpec Lr Shape) (hP : ProbX P Q)
    (hg : Std g sf u) (hc : g.c = c.map X.fin) (hnz : Nonzero c) (ha : RealTol g a r)
    (hSh : ∀ x y, Shape (jacM Q u x y)) (ho : g.onlyOneStep = false) {x0 xe : ℝ} (hx : x0 < xe)
    {y0 : Fin n → ℝ} {o : St n L.σ} {h : X} {s : St n L.σ}
    (hr : Returns (step L P g) (call o h (.fin x0) (.fin xe) (fins y0)) s) :
    ∃ x y p, s.x = .fin x ∧ s.Y = fins y ∧
      Spec.RadauPath (newtonMethod c) Q.F (jacM Q u) g.nit.toNat (ext c)
        (Spec.Passes c.U1 ![c.DD1, c.DD2, c.DD3] a r Q.F) x0 y0 x y (some p) := by
  obtain ⟨t, ht, hst⟩ := hr.last
  obtain ⟨hp, hst⟩ := step_ret hst
  rcases inv_reach (hL := hL) (hS := hS) (N := g.nit.toNat) hn hP hg hc hnz ha hSh
    (by have := hg.nit; omega) hx ht with ⟨h1, -⟩ | ⟨h1, h2, x, y, p, J, hh, hR⟩
  · rw [h1.phase] at hp; cases hp
  · rcases tail_ret hst with ⟨he, ⟨h3, -⟩ | ⟨-, -, rfl⟩⟩
    · rw [ho] at h3; cases h3
    · obtain ⟨w, Z, n1, n2, -, -, n5⟩ := path_next hn hP hc ha hR h1 h2 hp he
      refine ⟨_, _, _, n1, ?_, n5⟩
      show (fun i => t.Y i + t.Z.v3 i) = _
      rw [hR.Y, n2]; rfl

/-! ### the linear algebra and the constants of the code meet the hypotheses -/

theorem nonzero_consts : Nonzero consts := by
  obtain ⟨h1, h2, h3⟩ := c1_pos
  refine ⟨by linarith, ?_, ?_, ?_⟩
  · have : consts.C1M1 = consts.C1 - 1 := rfl
    rw [this]; linarith
  · have : consts.C2M1 = consts.C2 - 1 := rfl
    rw [this]; linarith
  · have : consts.C1MC2 = consts.C1 - consts.C2 := rfl
    rw [this]; linarith

theorem lam_regular {v : Fin 3 → ℝ} (h : (Lam consts).mulVec v = 0) : v = 0 := by
  have h0 := congrFun h 0
  have h1 := congrFun h 1
  have h2 := congrFun h 2
  simp [Lam, Matrix.mulVec, dotProduct, Fin.sum_univ_three] at h0 h1 h2
  have hU := eig_prod
  have hU1 : consts.U1 ≠ 0 := fun h => by rw [h] at hU; norm_num at hU
  have hq : consts.ALPH ^ 2 + consts.BETA ^ 2 ≠ 0 := fun h => by rw [h] at hU; norm_num at hU
  have e1 : (consts.ALPH ^ 2 + consts.BETA ^ 2) * v 1 = 0 := by
    linear_combination consts.ALPH * h1 + consts.BETA * h2
  have e2 : (consts.ALPH ^ 2 + consts.BETA ^ 2) * v 2 = 0 := by
    linear_combination consts.ALPH * h2 - consts.BETA * h1
  funext i
  fin_cases i
  · exact h0.resolve_left hU1
  · exact (mul_eq_zero.1 e1).resolve_left hq
  · exact (mul_eq_zero.1 e2).resolve_left hq

open Odes.Rodas (val)
open Odes.Mem Odes.Lapack Odes.Storage

/-- a linear algebra on `double`s from one on reals: exact on finite data; NaN after a factorisation
of data which are not finite. -/
noncomputable def liftLin (Lr : Lin ℝ n) (s0 : Lr.σ) : Lin X n where
  σ := Option Lr.σ
  load J t := if ∀ i j, (J i j).IsFin then some (Lr.load (fun i j => val (J i j)) (t.getD s0)) else none
  decomr fac t := match t with
    | none => some none
    | some s => if fac.IsFin then (Lr.decomr (val fac) s).map some else some none
  decomc a b t := match t with
    | none => some none
    | some s => if a.IsFin ∧ b.IsFin then (Lr.decomc (val a) (val b) s).map some else some none
  solvereal t b := match t with
    | none => fun _ => .nan
    | some s => if ∀ i, (b i).IsFin then fins (Lr.solvereal s fun i => val (b i)) else fun _ => .nan
  solvecomplex t a b := match t with
    | none => (fun _ => .nan, fun _ => .nan)
    | some s => if (∀ i, (a i).IsFin) ∧ ∀ i, (b i).IsFin then
        (fins (Lr.solvecomplex s (fun i => val (a i)) fun i => val (b i)).1,
          fins (Lr.solvecomplex s (fun i => val (a i)) fun i => val (b i)).2)
      else (fun _ => .nan, fun _ => .nan)

theorem liftLin_decomr (Lr : Lin ℝ n) (s0 s : Lr.σ) (fac : ℝ) :
    (liftLin Lr s0).decomr (.fin fac) (some s) = (Lr.decomr fac s).map some := if_pos ⟨_, rfl⟩

theorem liftLin_decomc (Lr : Lin ℝ n) (s0 s : Lr.σ) (a b : ℝ) :
    (liftLin Lr s0).decomc (.fin a) (.fin b) (some s) = (Lr.decomc a b s).map some :=
  if_pos ⟨⟨_, rfl⟩, ⟨_, rfl⟩⟩

/-- full storage with any LAPACK which solves the systems or fails. -/
noncomputable def full_linX (n : ℕ) (junk : ℤ → ℝ) (lap lapc) (s0 : Fac n) :
    LinX (liftLin (fullLin n junk lap lapc) s0) (fullLin n junk lap lapc) where
  ne := ⟨s0⟩
  R s t := ∃ s' : Fac n, t = some s' ∧ s'.jac = Fac.jac s
  Rr s t := ∃ s' : Fac n, t = some s' ∧ s'.fr = Fac.fr s
  Rc s t := ∃ s' : Fac n, t = some s' ∧ s'.fc = Fac.fc s
  load J s t := ⟨_, if_pos fun i j => ⟨_, rfl⟩, rfl⟩
  decomr fac s t := by
    rintro ⟨s', rfl, e⟩
    have e1 := liftLin_decomr (fullLin n junk lap lapc) s0 s' fac
    have k1 : ∃ o : Option ((Fin n → ℝ) → Fin n → ℝ), ∀ s1 : Fac n, s1.jac = Fac.jac s →
        (fullLin n junk lap lapc).decomr fac s1 = o.map fun f => { s1 with fr := f } := by
      refine ⟨(asmRealFull n fac ⟨n * n, junk⟩ (Fac.jac s)).bind lap, fun s1 h => ?_⟩
      show (asmRealFull n fac ⟨n * n, junk⟩ s1.jac).bind _ = _
      rw [h]
      exact Option.map_bind.symm
    obtain ⟨o, k⟩ := k1
    cases o with
    | none => exact Or.inl ⟨k s rfl, e1.trans (by rw [k s' e]; rfl)⟩
    | some f =>
      exact Or.inr ⟨_, some { s' with fr := f }, k s rfl, e1.trans (by rw [k s' e]; rfl), ⟨_, rfl, e⟩,
        ⟨_, rfl, rfl⟩⟩
  decomc a b s t := by
    rintro ⟨s', rfl, e⟩ ⟨s'', e', e2⟩
    injection e' with e'
    subst e'
    have e1 := liftLin_decomc (fullLin n junk lap lapc) s0 s' a b
    have k1 : ∃ o : Option (Buf ℝ → Buf ℝ), ∀ s1 : Fac n, s1.jac = Fac.jac s →
        (fullLin n junk lap lapc).decomc a b s1 = o.map fun f => { s1 with fc := f } := by
      refine ⟨(asmComplexFull n a b ⟨2 * n * n, junk⟩ (Fac.jac s)).bind lapc, fun s1 h => ?_⟩
      show (asmComplexFull n a b ⟨2 * n * n, junk⟩ s1.jac).bind _ = _
      rw [h]
      exact Option.map_bind.symm
    obtain ⟨o, k⟩ := k1
    cases o with
    | none => exact Or.inl ⟨k s rfl, e1.trans (by rw [k s' e]; rfl)⟩
    | some f =>
      exact Or.inr ⟨_, some { s' with fc := f }, k s rfl, e1.trans (by rw [k s' e]; rfl), ⟨_, rfl, e⟩,
        ⟨_, rfl, e2⟩,
        ⟨_, rfl, rfl⟩⟩
  solvereal s t b := by
    rintro ⟨s', rfl, e⟩
    refine (if_pos fun i => ⟨_, rfl⟩).trans ?_
    show fins (s'.fr b) = fins (Fac.fr s b)
    rw [e]
  solvecomplex s t a b := by
    rintro ⟨s', rfl, e⟩
    refine (if_pos ⟨fun i => ⟨_, rfl⟩, fun i => ⟨_, rfl⟩⟩).trans ?_
    show (fins (solvec n junk s'.fc a b).1, fins (solvec n junk s'.fc a b).2) = _
    rw [e]; rfl

/-- the real problem as a problem on `double`s: NaN outside the reals. -/
noncomputable def lift (Q : Prob ℝ n) : Prob X n where
  F x y := if x.IsFin ∧ ∀ i, (y i).IsFin then fins (Q.F (val x) fun i => val (y i))
    else fun _ => .nan
  jac x y d := if x.IsFin ∧ ∀ i, (y i).IsFin then
      fun i j => .fin (Q.jac (val x) (fun i => val (y i)) (fun i => val (d i)) i j)
    else fun _ _ => .nan
  computeJacobianNumerically := Q.computeJacobianNumerically
  stored := Q.stored

theorem lift_probX (Q : Prob ℝ n) : ProbX (lift Q) Q where
  F _ _ := if_pos ⟨⟨_, rfl⟩, fun _ => ⟨_, rfl⟩⟩
  jac _ _ _ := if_pos ⟨⟨_, rfl⟩, fun _ => ⟨_, rfl⟩⟩
  num := rfl
  stored := rfl

/-- the scalar solver of the witness runs, on reals. -/
structure ScR where
  J : ℝ
  fac : ℝ
  a : ℝ
  b : ℝ

/-- linear algebra for one equation on reals. -/
noncomputable def scalarR : Lin ℝ 1 where
  σ := ScR
  load J s := { s with J := J 0 0 }
  decomr f s := if f - s.J = 0 then none else some { s with fac := f - s.J }
  decomc a b s := if a - s.J = 0 ∧ b = 0 then none else some { s with a := a - s.J, b := b }
  solvereal s v := fun i => v i / s.fac
  solvecomplex s v w :=
    (fun i => (v i * s.a + w i * s.b) / (s.a * s.a + s.b * s.b),
     fun i => (w i * s.a - v i * s.b) / (s.a * s.a + s.b * s.b))

theorem sq_sum_ne {a b : ℝ} (h : ¬ (a = 0 ∧ b = 0)) : a * a + b * b ≠ 0 := by
  intro h0
  exact h ⟨mul_self_eq_zero.1 (by nlinarith [mul_self_nonneg a, mul_self_nonneg b]),
    mul_self_eq_zero.1 (by nlinarith [mul_self_nonneg a, mul_self_nonneg b])⟩

noncomputable def scalar_linX : LinX scalar scalarR where
  ne := ⟨⟨0, 0, 0, 0⟩⟩
  R s t := Sc.J t = .fin (ScR.J s)
  Rr s t := Sc.fac t = .fin (ScR.fac s) ∧ ScR.fac s ≠ 0
  Rc s t := Sc.a t = .fin (ScR.a s) ∧ Sc.b t = .fin (ScR.b s) ∧
    ScR.a s * ScR.a s + ScR.b s * ScR.b s ≠ 0
  load _ _ _ := rfl
  decomr fac s t h := by
    have e : X.fin fac - Sc.J t = .fin (fac - ScR.J s) := by rw [h, X.fin_sub]
    by_cases hz : fac - ScR.J s = 0
    · exact Or.inl ⟨if_pos hz, if_pos (by rw [e, hz, X.zero_eq]; rfl)⟩
    · refine Or.inr ⟨_, _, if_neg hz, if_neg ?_, h, e, hz⟩
      rw [e, X.zero_eq]
      exact fun h => hz h
  decomc a b s t h h2 := by
    have e : X.fin a - Sc.J t = .fin (a - ScR.J s) := by rw [h, X.fin_sub]
    by_cases hz : a - ScR.J s = 0 ∧ b = 0
    · exact Or.inl ⟨if_pos hz, if_pos (by rw [e, hz.1, hz.2, X.zero_eq]; exact ⟨rfl, rfl⟩)⟩
    · refine Or.inr ⟨_, _, if_neg hz, if_neg ?_, h, h2, e, rfl, sq_sum_ne hz⟩
      rw [e, X.zero_eq]
      exact fun h => hz h
  solvereal s t b h := by
    funext i
    show X.fin (b i) / Sc.fac t = .fin (b i / ScR.fac s)
    rw [h.1, X.fin_div _ _ h.2]
  solvecomplex s t a b h := by
    obtain ⟨h1, h2, h3⟩ := h
    refine Prod.ext (funext fun i => ?_) (funext fun i => ?_)
    · show (X.fin (a i) * Sc.a t + X.fin (b i) * Sc.b t) / (Sc.a t * Sc.a t + Sc.b t * Sc.b t)
        = .fin ((a i * ScR.a s + b i * ScR.b s) / (ScR.a s * ScR.a s + ScR.b s * ScR.b s))
      rw [h1, h2]
      simp only [X.fin_mul, X.fin_add]
      rw [X.fin_div _ _ h3]
    · show (X.fin (b i) * Sc.a t - X.fin (a i) * Sc.b t) / (Sc.a t * Sc.a t + Sc.b t * Sc.b t)
        = .fin ((b i * ScR.a s - a i * ScR.b s) / (ScR.a s * ScR.a s + ScR.b s * ScR.b s))
      rw [h1, h2]
      simp only [X.fin_mul, X.fin_add, X.fin_sub]
      rw [X.fin_div _ _ h3]

noncomputable def scalar_spec : LinSpec scalarR (fun _ => True) where
  R J s := ScR.J s = J 0 0
  real fac J s := ScR.fac s = fac - J 0 0 ∧ ScR.fac s ≠ 0
  cplx a b J s := ScR.a s = a - J 0 0 ∧ ScR.b s = b ∧ ScR.a s * ScR.a s + ScR.b s * ScR.b s ≠ 0
  load _ _ _ := rfl
  decomr J s fac s' hR h := by
    simp only [scalarR] at h
    split_ifs at h with hz
    injection h with h
    subst h
    refine ⟨hR, ?_, hz⟩
    show fac - ScR.J s = _
    rw [hR]
  decomc J s a b s' fac hR hr h := by
    simp only [scalarR] at h
    split_ifs at h with hz
    injection h with h
    subst h
    refine ⟨hR, hr, ?_, rfl, sq_sum_ne hz⟩
    show a - ScR.J s = _
    rw [hR]
  solvereal J fac s r h := by
    funext i
    obtain rfl : i = 0 := Subsingleton.elim _ _
    obtain ⟨h1, h2⟩ := h
    rw [h1] at h2
    simp only [Matrix.mulVec, dotProduct, Finset.univ_unique, Fin.default_eq_zero, Finset.sum_singleton]
    show ((fac • (1 : Matrix (Fin 1) (Fin 1) ℝ)) 0 0 - J 0 0) * (r 0 / ScR.fac s) = r 0
    rw [h1]
    simp
    field_simp
  solvecomplex J a b s r2 r3 h := by
    obtain ⟨h1, h2, h3⟩ := h
    rw [h1, h2] at h3
    constructor
    · funext i
      obtain rfl : i = 0 := Subsingleton.elim _ _
      simp only [Matrix.mulVec, dotProduct, Finset.univ_unique, Fin.default_eq_zero,
        Finset.sum_singleton, Pi.sub_apply, Pi.smul_apply]
      show ((a • (1 : Matrix (Fin 1) (Fin 1) ℝ)) 0 0 - J 0 0) * ((r2 0 * ScR.a s + r3 0 * ScR.b s)
        / (ScR.a s * ScR.a s + ScR.b s * ScR.b s)) - b * ((r3 0 * ScR.a s - r2 0 * ScR.b s)
        / (ScR.a s * ScR.a s + ScR.b s * ScR.b s)) = r2 0
      rw [h1, h2]
      simp only [Matrix.smul_apply, Matrix.one_apply_eq, smul_eq_mul, mul_one]
      generalize a - J 0 0 = q at h3 ⊢
      rw [← mul_div_assoc, ← mul_div_assoc, ← sub_div, div_eq_iff h3]
      ring
    · funext i
      obtain rfl : i = 0 := Subsingleton.elim _ _
      simp only [Matrix.mulVec, dotProduct, Finset.univ_unique, Fin.default_eq_zero,
        Finset.sum_singleton, Pi.add_apply, Pi.smul_apply]
      show ((a • (1 : Matrix (Fin 1) (Fin 1) ℝ)) 0 0 - J 0 0) * ((r3 0 * ScR.a s - r2 0 * ScR.b s)
        / (ScR.a s * ScR.a s + ScR.b s * ScR.b s)) + b * ((r2 0 * ScR.a s + r3 0 * ScR.b s)
        / (ScR.a s * ScR.a s + ScR.b s * ScR.b s)) = r3 0
      rw [h1, h2]
      simp only [Matrix.smul_apply, Matrix.one_apply_eq, smul_eq_mul, mul_one]
      generalize a - J 0 0 = q at h3 ⊢
      rw [← mul_div_assoc, ← mul_div_assoc, ← add_div, div_eq_iff h3]
      ring

/-- a right hand side which jumps at 0.9. -/
noncomputable def jumpQ : Prob ℝ 1 where
  F x _ _ := if 0.9 < x then 0.1 else 0
  jac _ _ _ _ _ := 0
  computeJacobianNumerically := false
  stored _ _ := true

theorem jump_probX : ProbX (ofTime (after 0.9 0.1)) jumpQ where
  F x y := by
    funext i
    show after 0.9 0.1 (.fin x) = .fin (if 0.9 < x then 0.1 else 0)
    split_ifs with h
    · exact after_of_lt h
    · exact after_of_le (not_lt.1 h)
  jac _ _ _ := by
    funext i j
    exact X.zero_eq
  num := rfl
  stored := rfl

/-- the hypotheses of `radau_run_is_newton` are met by a run of two Newton iterations which returns. -/
example : ∃ s x y p, Returns (step scalar (ofTime (after 0.9 0.1)) (wcfg 7 false)) (at0 obj 1 0 1) s ∧
    s.x = .fin x ∧ s.Y = fins y ∧
    Spec.RadauPath (newtonMethod consts) jumpQ.F (jacM jumpQ 1.0e-16) 7 (ext consts)
      (Spec.Passes consts.U1 ![consts.DD1, consts.DD2, consts.DD3] (fun _ => 0.1) (fun _ => 0.1) jumpQ.F)
      0 (fun _ => 0) x y (some p) := by
  obtain ⟨s, h, -⟩ := first_call obj rfl
  obtain ⟨x, y, p, h1, h2, h3⟩ := radau_run_is_newton one_pos scalar_linX scalar_spec jump_probX
    (wcfg_std 7 false (by decide)) rfl nonzero_consts (a := fun _ => 0.1) (r := fun _ => 0.1)
    ⟨funext fun _ => X.ofSci_eq _ _ _, funext fun _ => X.ofSci_eq _ _ _, fun _ => by norm_num,
      fun _ => by norm_num⟩ (fun _ _ => trivial) rfl one_pos (y0 := fun _ => 0) (o := obj) (h := .fin 1) h
  exact ⟨s, x, y, p, h, h1, h2, h3⟩

/-! ### C94: linear invariants -/

/-- the numerical Jacobian of the code is compatible with every linear invariant when the matrix is
full. -/
theorem jacM_invariant {w : Fin n → ℝ} (hF : ∀ x y, w ⬝ᵥ Q.F x y = 0)
    (hnum : Q.computeJacobianNumerically = true) (hst : ∀ i j, Q.stored i j = true) (x : ℝ)
    (y : Fin n → ℝ) : Matrix.vecMul w (jacM Q u x y) = 0 := by
  funext j
  show ∑ i, w i * jacR Q u x y i j = 0
  have e : ∀ i, w i * jacR Q u x y i j = 1 / deltaR u (y j)
      * (w i * Q.F x (Function.update y j (y j + deltaR u (y j))) i - w i * Q.F x y i) := fun i => by
    unfold jacR
    rw [if_pos hnum, if_pos (hst i j)]
    ring
  rw [Finset.sum_congr rfl fun i _ => e i, ← Finset.mul_sum, Finset.sum_sub_distrib]
  have h1 := hF x (Function.update y j (y j + deltaR u (y j)))
  have h2 := hF x y
  unfold dotProduct at h1 h2
  rw [h1, h2]
  simp

/-- the Newton iteration keeps the linear invariants, if starting values and matrix do. -/
theorem iterate_invariant {M : Spec.NewtonMethod} (hM : ∀ v, M.Lam.mulVec v = 0 → v = 0)
    {F : ℝ → (Fin n → ℝ) → Fin n → ℝ} {J : Matrix (Fin n) (Fin n) ℝ} {x h : ℝ} (h0 : h ≠ 0)
    {y : Fin n → ℝ} {Z0 Z W : Matrix (Fin 3) (Fin n) ℝ} {w : Fin n → ℝ} {k : ℕ}
    (hF : ∀ x y, w ⬝ᵥ F x y = 0) (hJ : Matrix.vecMul w J = 0) (hZ : Z0.mulVec w = 0)
    (hI : Spec.Iterate M F J x h y Z0 k Z W) : Z.mulVec w = 0 ∧ W.mulVec w = 0 := by
  induction hI with
  | zero => exact ⟨hZ, by rw [← Matrix.mulVec_mulVec, hZ, Matrix.mulVec_zero]⟩
  | @succ k Z W D _ e ih =>
    have hS : (Spec.stageValues M F x h y Z).mulVec w = 0 := by
      funext i
      show (F (x + M.c i * h) fun k => y k + Z i k) ⬝ᵥ w = 0
      rw [dotProduct_comm, hF]
    have e1 := congrArg (fun A => A.mulVec w) e
    rw [Matrix.sub_mulVec, Matrix.sub_mulVec, Matrix.smul_mulVec, Matrix.smul_mulVec,
      ← Matrix.mulVec_mulVec, ← Matrix.mulVec_mulVec, ← Matrix.mulVec_mulVec, ← Matrix.mulVec_mulVec,
      Matrix.mulVec_transpose, hJ, hS, ih.2] at e1
    simp only [Matrix.mulVec_zero, smul_zero, sub_zero] at e1
    have e2 : M.Lam.mulVec (D.mulVec w) = 0 := by
      rcases smul_eq_zero.1 e1 with e1 | e1
      · exact absurd e1 (one_div_ne_zero h0)
      · exact e1
    have e3 : (W + D).mulVec w = 0 := by rw [Matrix.add_mulVec, ih.2, hM _ e2, add_zero]
    exact ⟨by rw [← Matrix.mulVec_mulVec, e3, Matrix.mulVec_zero], e3⟩

/-- the extrapolation is linear in the stage increments. -/
theorem ext_eq (c : Consts ℝ) (h hold : ℝ) :
    ∃ E : Matrix (Fin 3) (Fin 3) ℝ, ∀ Z : Matrix (Fin 3) (Fin n) ℝ, ext c h hold Z = E * Z := by
  have key : ∀ q : ℝ, ∃ v : Fin 3 → ℝ, ∀ (Z : Matrix (Fin 3) (Fin n) ℝ) i,
      interp c q (saves c (Tri.ofMat Z)) i = v 0 * Z 0 i + v 1 * Z 1 i + v 2 * Z 2 i := by
    intro q
    refine ⟨![q * ((q - c.C2M1) * (1 / c.C1MC2 * (1 / c.C1M1) + (q - c.C1M1)
        * (1 / c.C1MC2 * (1 / c.C1M1) - (1 / c.C1MC2 - 1 / c.C1M1) * (1 / c.C2)))),
      q * (1 / c.C2M1 + (q - c.C2M1) * ((-(1 / c.C1MC2) - 1 / c.C2M1) * (1 / c.C1M1)
        + (q - c.C1M1) * ((-(1 / c.C1MC2) - 1 / c.C2M1) * (1 / c.C1M1) + 1 / c.C1MC2 * (1 / c.C2)))),
      q * (-(1 / c.C2M1) + (q - c.C2M1) * (1 / c.C2M1 * (1 / c.C1M1)
        + (q - c.C1M1) * (1 / c.C2M1 * (1 / c.C1M1))))], fun Z i => ?_⟩
    simp only [interp, saves, Tri.ofMat, Matrix.cons_val_zero, Matrix.cons_val_one, Matrix.cons_val]
    ring
  obtain ⟨v1, k1⟩ := key (c.C1 * (h / hold))
  obtain ⟨v2, k2⟩ := key (c.C2 * (h / hold))
  obtain ⟨v3, k3⟩ := key (h / hold)
  refine ⟨Matrix.of ![v1, v2, v3], fun Z => ?_⟩
  ext i k
  rw [Matrix.mul_apply, Fin.sum_univ_three]
  fin_cases i
  · exact k1 Z k
  · exact k2 Z k
  · exact k3 Z k

/-- C94: a run of Radau5 which returns has kept every linear invariant of the right hand side, if the
Jacobian is computed by the code and the matrix is full; for every number of steps, and tolerances. -/
theorem radau_linear_invariant (hn : 0 < n) (hL : LinX L Lr) (hS : LinSpec Lr Shape) (hP : ProbX P Q)
    (hg : Std g sf u) (hc : g.c = consts.map X.fin) (ha : RealTol g a r)
    (hSh : ∀ x y, Shape (jacM Q u x y)) (ho : g.onlyOneStep = false) {w : Fin n → ℝ}
    (hF : ∀ x y, w ⬝ᵥ Q.F x y = 0) (hnum : Q.computeJacobianNumerically = true)
    (hst : ∀ i j, Q.stored i j = true) {x0 xe : ℝ} (hx : x0 < xe)
    {y0 : Fin n → ℝ} {o : St n L.σ} {h : X} {s : St n L.σ}
    (hr : Returns (step L P g) (call o h (.fin x0) (.fin xe) (fins y0)) s) :
    ∃ y, s.Y = fins y ∧ w ⬝ᵥ y = w ⬝ᵥ y0 := by
  obtain ⟨x, y, p, -, hy, hp⟩ := radau_run_is_newton hn hL hS hP hg hc nonzero_consts ha hSh ho hx hr
  refine ⟨y, hy, ?_⟩
  generalize some p = q at hp
  clear hy hr hx
  suffices h : w ⬝ᵥ y = w ⬝ᵥ y0 ∧ ∀ q', q = some q' → q'.2.mulVec w = 0 from h.1
  induction hp with
  | refl => exact ⟨rfl, by simp⟩
  | @step x x' x'' h hold y y' y'' p p' p'' Z W k _ _ _ h0 _ _ _ hI _ _ _ ih _ _ =>
    have hstart : (p.elim 0 fun q => ext consts h q.1 q.2).mulVec w = 0 := by
      cases p with
      | none => exact Matrix.zero_mulVec w
      | some q =>
        obtain ⟨E, hE⟩ := ext_eq (n := n) consts h q.1
        show (ext consts h q.1 q.2).mulVec w = 0
        rw [hE, ← Matrix.mulVec_mulVec, ih.2 q rfl, Matrix.mulVec_zero]
    obtain ⟨hZ, -⟩ := iterate_invariant (M := newtonMethod consts) (fun v hv => lam_regular hv) h0.ne' hF
      (jacM_invariant hF hnum hst x' y') hstart hI
    refine ⟨?_, fun q' hq => ?_⟩
    · have e : w ⬝ᵥ (fun i => y i + Z 2 i) = w ⬝ᵥ y + w ⬝ᵥ Z 2 := dotProduct_add w y (Z 2)
      have e2 : Z 2 ⬝ᵥ w = 0 := congrFun hZ 2
      rw [e, dotProduct_comm w (Z 2), e2, add_zero, ih.1]
    · injection hq with hq
      rw [← hq]; exact hZ

/-! ### E5 -/

/-- the E5 problem as seen by Radau5, Radau-NG/test/E5.hpp (full numerical Jacobian). -/
noncomputable def e5Q : Prob ℝ 4 where
  F _ y := Stiff.e5 y
  jac _ _ _ _ _ := 0
  computeJacobianNumerically := true
  stored _ _ := true

/-- C94: with the default settings, for all positive tolerances, initial values, end points, initial
steps, contents of the object and of the work arrays, and any LAPACK which solves the systems or fails:
if the integration of E5 by Radau5 returns then `y1 - y2 - y3` is unchanged. -/
theorem radau_e5 (junk : ℤ → ℝ) {lap lapc} (hl : Rodas.SolvesR 4 (fun E i j => E.cell (ge 4 i j)) lap)
    (hlc : SolvesC (4 : ℕ) (geC 4) (fun E z => (lapc E).map (· z))) (s0 : Fac 4) (tolst : X)
    {a r : Fin 4 → ℝ} (ha : ∀ i, 0 < a i) (hr : ∀ i, 0 ≤ r i) {x0 xe : ℝ} (hx : x0 < xe)
    (y0 : Fin 4 → ℝ) (o : St 4 (Option (Fac 4))) (h : X) {s}
    (hs : Returns (step (liftLin (fullLin 4 junk lap lapc) s0) (lift e5Q)
        ((Settings.default tolst).cfg (fins a) (fins r)))
      (call o h (.fin x0) (.fin xe) (fins y0)) s) :
    ∃ y, s.Y = fins y ∧ y 1 - y 2 - y 3 = y0 1 - y0 2 - y0 3 := by
  obtain ⟨y, h1, h2⟩ := radau_linear_invariant (by norm_num) (full_linX 4 junk lap lapc s0)
    (full_spec (by norm_num) junk hl hlc) (lift_probX e5Q) (std_default tolst (fins a) (fins r)) rfl
    (a := a) (r := r) ⟨rfl, rfl, ha, hr⟩ (fun _ _ => trivial) rfl (w := ![0, 1, -1, -1])
    (fun x y => by rw [Rodas.e5_dot]; exact Stiff.e5_invariant y) rfl (fun _ _ => rfl) hx hs
  rw [Rodas.e5_dot, Rodas.e5_dot] at h2
  exact ⟨y, h1, h2⟩

end Odes.Radau
