import Verif.Props.RadauMat

/-!
# Radau5 on top of `Matrices<true,true,...>` (Hessenberg reduction)
-/

namespace Odes.Radau

open Classical Odes.Hess Odes.Hess.Spec Odes.Spec Matrix
open Odes.Rodas (arr arr1 mat_arr vec_arr1)

variable {n : ℕ}

/-- members of `Matrices<true,true,...>` (Matrices.hpp 221-227): those of the real part, and `E2R`, `E2I`, `ipi`
(the value returned by `dechc` and the ghost `hit` are kept with them). -/
structure HState where
  m : MR ℝ
  d : StC

/-- `Matrices<true,true,...>`, Matrices.hpp 214-309, with LAPACK's `dgehrd` as parameter. Undefined behaviour is
merged with failure here; it is excluded for `n >= 2` by `decomr_cases` and `dechc_defined`. -/
noncomputable def hessLin (n : ℕ) (gehrd : (ℤ → ℤ → ℝ) → Option ((ℤ → ℤ → ℝ) × (ℤ → ℝ))) : Lin ℝ n where
  σ := HState
  load J s := { s with m := { s.m with calhes := true, Jac := arr J } }
  decomr fac s := match Hess.decomr n gehrd fac s.m with
    | some (.ok m) => some { s with m := m }
    | _ => none
  decomc a b s := match Hess.decomc n a b s.m.Jac (s.d.Ar, s.d.Ai) s.d.ip with
    | some (.ok d) => some { s with d := d }
    | _ => none
  solvereal s b := if h : ∃ z, Hess.Solvereal n s.m (arr1 b) z then vec n h.choose else b
  solvecomplex s r2 r3 :=
    if h : ∃ z : (ℤ → ℝ) × (ℤ → ℝ), Hess.Solvecomplex n s.m.Jac s.m.tau s.d (arr1 r2) (arr1 r3) z.1 z.2 then
      (vec n h.choose.1, vec n h.choose.2) else (r2, r3)

/-- the same, restricted to runs of `dechc` which succeed and avoid the faulty branch. -/
noncomputable def hessLinG (n : ℕ) (gehrd : (ℤ → ℤ → ℝ) → Option ((ℤ → ℤ → ℝ) × (ℤ → ℝ))) : Lin ℝ n :=
  { hessLin n gehrd with
    decomc := fun a b s => ((hessLin n gehrd).decomc a b s).bind fun s' : HState =>
      if s'.d.hit = false ∧ s'.d.ret = 0 then some s' else none }

/-- real and imaginary part of a complex shifted system. -/
theorem split_complex {a b : ℝ} {J : Matrix (Fin n) (Fin n) ℝ} {zr zi br bi : ℤ → ℝ}
    (h : ((⟨a, b⟩ : ℂ) • (1 : Matrix (Fin n) (Fin n) ℂ) - J.map (fun x : ℝ => (x : ℂ))).mulVec (vec n (zv zr zi))
      = vec n (zv br bi)) :
    (a • (1 : Matrix (Fin n) (Fin n) ℝ) - J).mulVec (vec n zr) - b • vec n zi = vec n br ∧
    (a • (1 : Matrix (Fin n) (Fin n) ℝ) - J).mulVec (vec n zi) + b • vec n zr = vec n bi := by
  have e : ∀ i : Fin n, (⟨a, b⟩ : ℂ) * zv zr zi (i + 1) - ∑ j : Fin n, ((J i j : ℝ) : ℂ) * zv zr zi (j + 1)
      = zv br bi (i + 1) := by
    intro i
    have := congrFun h i
    rw [Matrix.sub_mulVec, Matrix.smul_mulVec, Matrix.one_mulVec] at this
    exact this
  constructor <;> funext i
  · have := congrArg Complex.re (e i)
    rw [Complex.sub_re, Complex.re_sum, Complex.mul_re] at this
    simp only [Complex.mul_re, Complex.ofReal_re, Complex.ofReal_im, zero_mul, sub_zero] at this
    rw [Pi.sub_apply, Matrix.sub_mulVec, Matrix.smul_mulVec, Matrix.one_mulVec]
    show a * zr (i + 1) - ∑ j : Fin n, J i j * zr (j + 1) - b * zi (i + 1) = br (i + 1)
    have t : a * zr (i + 1) - b * zi (i + 1) - ∑ j : Fin n, J i j * zr (j + 1) = br (i + 1) := this
    linarith
  · have := congrArg Complex.im (e i)
    rw [Complex.sub_im, Complex.im_sum, Complex.mul_im] at this
    simp only [Complex.mul_im, Complex.ofReal_re, Complex.ofReal_im, zero_mul, add_zero] at this
    rw [Pi.add_apply, Matrix.sub_mulVec, Matrix.smul_mulVec, Matrix.one_mulVec]
    show a * zi (i + 1) - ∑ j : Fin n, J i j * zi (j + 1) + b * zr (i + 1) = bi (i + 1)
    have t : a * zi (i + 1) + b * zr (i + 1) - ∑ j : Fin n, J i j * zi (j + 1) = bi (i + 1) := this
    linarith

/-- the contract is met by the restricted class. -/
noncomputable def hessG_spec (hn : 2 ≤ n) {gehrd : (ℤ → ℤ → ℝ) → Option ((ℤ → ℤ → ℝ) × (ℤ → ℝ))}
    (hg : ∀ M, ∃ r, gehrd M = some r ∧ IsGehrd n M r.1 r.2) : LinSpec (hessLinG n gehrd) (fun _ => True) where
  R J s := if HState.m s |>.calhes then arr J = (HState.m s).Jac else IsGehrd n (arr J) (HState.m s).Jac (HState.m s).tau
  real fac J s := (HState.m s).calhes = false ∧ ∀ b, (fac • (1 : Matrix (Fin n) (Fin n) ℝ) - J).mulVec
    ((hessLin n gehrd).solvereal s b) = b
  cplx a b J s := ∀ r2 r3, (a • (1 : Matrix (Fin n) (Fin n) ℝ) - J).mulVec ((hessLin n gehrd).solvecomplex s r2 r3).1
      - b • ((hessLin n gehrd).solvecomplex s r2 r3).2 = r2 ∧
    (a • (1 : Matrix (Fin n) (Fin n) ℝ) - J).mulVec ((hessLin n gehrd).solvecomplex s r2 r3).2
      + b • ((hessLin n gehrd).solvecomplex s r2 r3).1 = r3
  load J s _ := rfl
  decomr J s fac s' hR h := by
    change (match Hess.decomr n gehrd fac (HState.m s) with
      | some (.ok m) => some ({ HState.mk (HState.m s) (HState.d s) with m := m } : HState)
      | _ => none) = some s' at h
    rcases Hess.decomr_cases hn hg fac (HState.m s) hR with ⟨-, h1⟩ | ⟨-, s1, h1, h2, h3, -⟩
    · rw [h1] at h; simp at h
    · rw [h1] at h
      injection h with h
      subst h
      refine ⟨by dsimp only; rw [h2]; exact h3, h2, fun b => ?_⟩
      obtain ⟨k1, k2⟩ := Hess.solvereal_solves hn hg fac (HState.m s) hR h1 (arr1 b)
      have e : (hessLin n gehrd).solvereal (⟨s1, HState.d s⟩ : HState) b = vec n k1.choose := dif_pos k1
      refine Eq.trans (congrArg _ e) ?_
      rw [show J = mat n (arr J) from (mat_arr J).symm]
      rw [k2 _ k1.choose_spec, vec_arr1]
  decomc J s a b s' fac hR hr h := by
    change (match Hess.decomc n a b (HState.m s).Jac ((HState.d s).Ar, (HState.d s).Ai) (HState.d s).ip with
      | some (.ok d) => some (⟨HState.m s, d⟩ : HState)
      | _ => none).bind (fun s' : HState => if s'.d.hit = false ∧ s'.d.ret = 0 then some s' else none) = some s' at h
    cases hd : Hess.decomc n a b (HState.m s).Jac ((HState.d s).Ar, (HState.d s).Ai) (HState.d s).ip with
    | none => rw [hd] at h; simp at h
    | some o =>
      cases o with
      | error e => rw [hd] at h; simp at h
      | ok d =>
        rw [hd] at h
        dsimp only [Option.bind_some] at h
        split_ifs at h with hh
        injection h with h
        subst h
        refine ⟨hR, hr, fun r2 r3 => ?_⟩
        have hG : IsGehrd n (arr J) (HState.m s).Jac (HState.m s).tau := by
          have := hr.1
          rw [this] at hR
          exact hR
        obtain ⟨⟨zr, zi, k1⟩, k2⟩ := Hess.solvecomplex_solves_partial hn a b hG _ _ hd hh.1 hh.2 (arr1 r2) (arr1 r3)
        have ex : ∃ z : (ℤ → ℝ) × (ℤ → ℝ), Hess.Solvecomplex n (HState.m s).Jac (HState.m s).tau d (arr1 r2) (arr1 r3)
          z.1 z.2 := ⟨(zr, zi), k1⟩
        have e : (hessLin n gehrd).solvecomplex (⟨HState.m s, d⟩ : HState) r2 r3
            = (vec n ex.choose.1, vec n ex.choose.2) := dif_pos ex
        have k3 := split_complex (k2 _ _ ex.choose_spec)
        have mj : mat n (arr J) = J := mat_arr J
        rw [mj, vec_arr1, vec_arr1] at k3
        rw [e]
        exact k3
  solvereal J fac s r h := h.2 r
  solvecomplex J a b s r2 r3 h := h r2 r3

/-- **C114**, partial: with Hessenberg reduction a Newton iteration on a linear problem gives the stages of the method,
if the complex factorisation succeeds and does not run into the faulty branch of `dechc`. -/
theorem radau_hess_newton_partial (hn : 2 ≤ n) {gehrd : (ℤ → ℤ → ℝ) → Option ((ℤ → ℤ → ℝ) × (ℤ → ℝ))}
    (hg : ∀ M, ∃ r, gehrd M = some r ∧ IsGehrd n M r.1 r.2) {P : Prob ℝ n} {c : Consts ℝ}
    {A : Matrix (Fin 3) (Fin 3) ℝ} (hA : Exact c A) {x h : ℝ} (hh : h ≠ 0) {Y : Fin n → ℝ} {s0 s' : HState}
    {J : Matrix (Fin n) (Fin n) ℝ} {g : ℝ → Fin n → ℝ} (hF : ∀ x y, P.F x y = J.mulVec y + g x)
    (hd : newtonMatrices (hessLin n gehrd) c h ((hessLin n gehrd).load J s0) = some s')
    (hhit : s'.d.hit = false) (hret : s'.d.ret = 0) (Z : Tri ℝ n) :
    RKStages A ![c.C1, c.C2, 1] P.F x h Y
      (newtonOnce (hessLin n gehrd) P c x (x + h) h Y s' Z (forth c Z)).mat := by
  have hd' : newtonMatrices (hessLinG n gehrd) c h ((hessLinG n gehrd).load J s0) = some s' := by
    unfold newtonMatrices at hd ⊢
    change ((hessLin n gehrd).decomr (c.U1 / h) ((hessLin n gehrd).load J s0)).bind (fun s =>
      ((hessLin n gehrd).decomc (c.ALPH / h) (c.BETA / h) s).bind fun s' : HState =>
        if s'.d.hit = false ∧ s'.d.ret = 0 then some s' else none) = some s'
    obtain ⟨s1, e1, e2⟩ := Option.bind_eq_some_iff.1 hd
    rw [e1, Option.bind_some]
    refine Option.bind_eq_some_iff.2 ⟨s', e2, if_pos ⟨hhit, hret⟩⟩
  exact radau_newton_linear (hessG_spec hn hg) hA hh hF ((hessG_spec hn hg).load J s0 trivial) hd' Z

/-! ### the faulty branch -/

/-- the Jacobian of the witness. -/
def wJ : Matrix (Fin 2) (Fin 2) ℝ := !![0, 1; 5, 1]

/-- `dechc` and `solhc` on `(1+ib) I - wJ`: what comes out does not solve the first equation. -/
theorem solhc_two {b : ℝ} (hb : 0 < b) (hb4 : b < 4) {Ar Ai : ℤ → ℤ → ℝ} {ip : ℤ → ℤ} {s : StC}
    (h11 : Ar 1 1 = 1) (h12 : Ar 1 2 = -1) (h21 : Ar 2 1 = -5) (h22 : Ar 2 2 = 0)
    (k11 : Ai 1 1 = b) (k12 : Ai 1 2 = 0) (k21 : Ai 2 1 = 0) (k22 : Ai 2 2 = b)
    (hs : dechc 2 Ar Ai ip = some s) {Br Bi : ℤ → ℝ}
    (hB1 : Br 1 = 0) (hB2 : Br 2 = 5 + b * b) (hC1 : Bi 1 = 0) (hC2 : Bi 2 = -b) :
    s.ret = 0 ∧ ∃ x, solhc 2 s.Ar s.Ai s.ip Br Bi = some x ∧ x.1 1 - b * x.2 1 - x.1 2 ≠ 0 := by
  have hp : pivotC Ar Ai 1 = 2 := by
    unfold pivotC
    rw [ABS_eq, ABS_eq, ABS_eq, ABS_eq, show (1 : ℤ) + 1 = 2 by norm_num, h11, k11, h21, k21, abs_of_pos hb, if_pos]
    norm_num
    linarith
  obtain ⟨s', h, hip, z11, z12, z21, ar, ai, hret, -⟩ := dechc_two (ip := ip) hp (by
    intro h
    have := congrArg Complex.re h
    simp only [Z, h21, Complex.zero_re] at this
    norm_num at this)
  rw [hs] at h
  injection h with h
  subst h
  have m : (-1 : ℂ) / Z Ar Ai 2 1 = ((1 / 5 : ℝ) : ℂ) := by
    have : Z Ar Ai 2 1 = ((-5 : ℝ) : ℂ) := by
      apply Complex.ext <;> simp [Z, h21, k21]
    rw [this, ← Complex.ofReal_one, ← Complex.ofReal_neg, ← Complex.ofReal_div]
    norm_num
  rw [m, show (3 : ℤ) - 2 = 1 by norm_num] at z21
  have r21 : s.Ar 2 1 = 1 / 5 := by
    have := congrArg Complex.re z21
    rw [Complex.mul_re, Complex.ofReal_re, Complex.ofReal_im] at this
    simp only [Z, h11, k11] at this
    linarith
  have i21 : s.Ai 2 1 = b / 5 := by
    have := congrArg Complex.im z21
    rw [Complex.mul_im, Complex.ofReal_re, Complex.ofReal_im] at this
    simp only [Z, h11, k11] at this
    linarith
  have r11 : s.Ar 1 1 = -5 := (congrArg Complex.re z11).trans h21
  have i11 : s.Ai 1 1 = 0 := (congrArg Complex.im z11).trans k21
  have r12 : s.Ar 1 2 = 0 := (congrArg Complex.re z12).trans h22
  have i12 : s.Ai 1 2 = b := (congrArg Complex.im z12).trans k22
  rw [show (3 : ℤ) - 2 = 1 by norm_num] at ar ai
  have r22 : s.Ar 2 2 = -1 - b * b / 5 := by
    rw [ar, r21, i21, h12, h22, k22, prr, if_neg hb.ne', if_pos rfl]; ring
  have i22 : s.Ai 2 2 = 0 := by
    rw [ai, r21, i21, k12, h22, k22, pri, if_neg hb.ne', if_pos rfl]; ring
  have hden : -1 - b * b / 5 ≠ 0 := by nlinarith
  refine ⟨?_, ?_⟩
  · rw [hret, r22, i22, if_neg]
    rw [ABS_eq, ABS_eq, abs_zero, add_zero]
    exact abs_ne_zero.2 hden
  · have hx' : ∃ x, solhc 2 s.Ar s.Ai s.ip Br Bi = some x ∧
        x.1 2 = (1 / 5 * (5 + b * b) - b / 5 * -b) / (-1 - b * b / 5) ∧
        x.2 2 = (b / 5 * (5 + b * b) + 1 / 5 * -b) / (-1 - b * b / 5) ∧
        x.1 1 = (5 + b * b + b * x.2 2) / -5 ∧ x.2 1 = (-b - b * x.1 2) / -5 := by
      unfold solhc
      rw [if_pos (by norm_num), show (2 : ℤ) - 1 = 1 by norm_num, forUp_single]
      simp only [forUp_single]
      unfold solhcFwd solhcBwd solhcDiv
      norm_num [forUp_single, vget, vset, iget, hip, Odes.Hess.get, r21, i21, r22, i22, r11, i11,
        r12, i12, Function.update_apply, hB1, hB2, hC1, hC2]
      exact ⟨mul_div_mul_right _ _ hden, mul_div_mul_right _ _ hden, by ring, by ring⟩
    obtain ⟨x', hx', x2, y2, x1, y1⟩ := hx'
    refine ⟨x', hx', ?_⟩
    rw [x1, y1, x2, y2]
    have : (5 + b * b + b * ((b / 5 * (5 + b * b) + 1 / 5 * -b) / (-1 - b * b / 5))) / -5 -
        b * ((-b - b * ((1 / 5 * (5 + b * b) - b / 5 * -b) / (-1 - b * b / 5))) / -5) -
        (1 / 5 * (5 + b * b) - b / 5 * -b) / (-1 - b * b / 5) = (b * b * (4 + b * b)) / (5 * (5 + b * b)) := by
      have h5 : 5 + b * b ≠ 0 := by nlinarith
      rw [show -1 - b * b / 5 = -((5 + b * b) / 5) by ring]
      field_simp
      ring
    rw [this]
    positivity

/-- transformed stages of a homogeneous linear problem at `Y = 0`. -/
theorem stages_transformed {c : Consts ℝ} {A : Matrix (Fin 3) (Fin 3) ℝ} (hA : Exact c A) {P : Prob ℝ n} {x h : ℝ}
    {J : Matrix (Fin n) (Fin n) ℝ} (hF : ∀ x y, P.F x y = J.mulVec y) (W : Tri ℝ n)
    (hS : RKStages A ![c.C1, c.C2, 1] P.F x h 0 (back c W).mat) : Lam c * W.mat = h • (W.mat * Jᵀ) := by
  have hT : TIm c * Tm c = 1 := mul_eq_one_comm.1 hA.inv
  have e : (back c W).mat = h • (A * ((back c W).mat * Jᵀ)) := by
    funext i k
    rw [hS i k, Matrix.smul_apply, Matrix.mul_apply, smul_eq_mul]
    refine congrArg (h * ·) (Finset.sum_congr rfl fun j _ => ?_)
    congr 1
    rw [hF, Matrix.mul_apply]
    show ∑ l, J k l * _ = _
    refine Finset.sum_congr rfl fun l _ => ?_
    rw [Matrix.transpose_apply, Pi.zero_apply, zero_add, mul_comm]
  rw [back_mat] at e
  have e2 : TIm c * (Tm c * Lam c * TIm c * (Tm c * W.mat)) =
    TIm c * (Tm c * Lam c * TIm c * (h • (A * (Tm c * W.mat * Jᵀ)))) := congrArg _ (congrArg _ e)
  rw [Matrix.mul_smul, ← Matrix.mul_assoc (Tm c * Lam c * TIm c) A, hA.diag, Matrix.one_mul, Matrix.mul_smul,
    ← Matrix.mul_assoc (Tm c * Lam c * TIm c) (Tm c), Matrix.mul_assoc (Tm c * Lam c), hT, Matrix.mul_one,
    ← Matrix.mul_assoc, ← Matrix.mul_assoc, hT, Matrix.one_mul, Matrix.mul_assoc (Tm c), ← Matrix.mul_assoc (TIm c),
    hT, Matrix.one_mul] at e2
  exact e2

/-- the factorisations for a system of two equations: what they are, and the Householder transformations. -/
theorem hess_two_factors {gehrd : (ℤ → ℤ → ℝ) → Option ((ℤ → ℤ → ℝ) × (ℤ → ℝ))}
    (hg : ∀ M, ∃ r, gehrd M = some r ∧ IsGehrd 2 M r.1 r.2) (c : Consts ℝ) (h : ℝ) (J : Matrix (Fin 2) (Fin 2) ℝ)
    (s0 : HState) (hdet : ((c.U1 / h) • (1 : Matrix (Fin 2) (Fin 2) ℝ) - J).det ≠ 0) :
    ∃ (s1 : MR ℝ) (d : StC) (E' : (ℤ → ℤ → ℝ) × (ℤ → ℤ → ℝ)),
      newtonMatrices (hessLin 2 gehrd) c h ((hessLin 2 gehrd).load J s0) = some (⟨s1, d⟩ : HState) ∧
      dechc 2 E'.1 E'.2 s0.d.ip = some d ∧
      (∀ i j : Fin 2, E'.1 (i + 1) (j + 1) = (if i = j then c.ALPH / h else 0) - J i j) ∧
      (∀ i j : Fin 2, E'.2 (i + 1) (j + 1) = (if i = j then c.BETA / h else 0)) ∧
      ∀ (X : ℤ → ℝ) (dir : Bool), ∃ Y, Householder 2 s1.Jac s1.tau X Y dir ∧
        (∀ Y', Householder 2 s1.Jac s1.tau X Y' dir → Y' = Y) ∧ Y 1 = X 1 ∧ Y 2 = X 2 := by
  -- the real matrix
  have mJ : mat 2 (arr J) = J := mat_arr J
  rw [← mJ] at hdet
  obtain ⟨s1, e1, e2, e3⟩ : ∃ s1, Hess.decomr 2 gehrd (c.U1 / h) ((hessLin 2 gehrd).load J s0 : HState).m
      = some (.ok s1) ∧ s1.calhes = false ∧ IsGehrd 2 (arr J) s1.Jac s1.tau := by
    rcases Hess.decomr_cases (n := 2) le_rfl hg (c.U1 / h) ((hessLin 2 gehrd).load J s0 : HState).m
      (J := arr J) rfl with ⟨h0, -⟩ | ⟨-, s1, k1, k2, k3, -⟩
    · exact absurd h0 hdet
    · exact ⟨s1, k1, k2, k3⟩
  have hq : Q 2 s1.Jac s1.tau = 1 := by
    have h0 : s1.tau ((0 : ℕ) : ℤ) = 0 := e3.last le_rfl
    unfold Q
    rw [show List.range (2 - 1) = [0] from rfl, List.map_singleton, List.prod_singleton, h0]
    exact refl_zero _
  have hH : hess (mat 2 s1.Jac) = J := by
    have := e3.eq
    rw [hq, Matrix.transpose_one, Matrix.one_mul, Matrix.mul_one, mJ] at this
    exact this.symm
  -- the complex matrix
  obtain ⟨E', f1, f2⟩ := fillE2_spec (n := 2) (by norm_num) (c.ALPH / h) (c.BETA / h) s1.Jac (s0.d.Ar, s0.d.Ai)
  obtain ⟨d, d1⟩ := dechc_defined (n := 2) (by norm_num) E'.1 E'.2 s0.d.ip
  rw [hH] at f2
  have ent : ∀ i j : Fin 2, (⟨E'.1 (i + 1) (j + 1), E'.2 (i + 1) (j + 1)⟩ : ℂ)
      = (⟨c.ALPH / h, c.BETA / h⟩ : ℂ) * (1 : Matrix (Fin 2) (Fin 2) ℂ) i j - ((J i j : ℝ) : ℂ) := by
    intro i j
    have := congrFun (congrFun f2 i) j
    unfold hess at this
    rw [if_pos (by have := i.2; omega)] at this
    exact this
  have entr : ∀ i j : Fin 2, E'.1 (i + 1) (j + 1) = (if i = j then c.ALPH / h else 0) - J i j := by
    intro i j
    have := congrArg Complex.re (ent i j)
    rw [Matrix.one_apply] at this
    split_ifs at this ⊢ <;> simpa using this
  have enti : ∀ i j : Fin 2, E'.2 (i + 1) (j + 1) = (if i = j then c.BETA / h else 0) := by
    intro i j
    have := congrArg Complex.im (ent i j)
    rw [Matrix.one_apply] at this
    split_ifs at this ⊢ <;> simpa using this
  have hh : ∀ (X : ℤ → ℝ) (dir : Bool), ∃ Y, Householder 2 s1.Jac s1.tau X Y dir ∧
      (∀ Y', Householder 2 s1.Jac s1.tau X Y' dir → Y' = Y) ∧ Y 1 = X 1 ∧ Y 2 = X 2 := by
    intro X dir
    obtain ⟨Y, y1, y2, y3⟩ := householder_spec (n := 2) le_rfl s1.Jac s1.tau X dir
    refine ⟨Y, y1, y2, ?_⟩
    rw [show 2 - 2 = 0 from rfl, P_zero, Matrix.transpose_one, ite_self, Matrix.one_mulVec] at y3
    exact ⟨congrFun y3 0, congrFun y3 1⟩
  refine ⟨s1, d, E', ?_, d1, entr, enti, hh⟩
  · unfold newtonMatrices
    refine Option.bind_eq_some_iff.2 ⟨(⟨s1, s0.d⟩ : HState), ?_, ?_⟩
    · show (match Hess.decomr 2 gehrd (c.U1 / h) ((hessLin 2 gehrd).load J s0 : HState).m with
        | some (.ok m) => some ({ ((hessLin 2 gehrd).load J s0 : HState) with m := m } : HState)
        | _ => none) = _
      rw [e1]
      rfl
    · show (match Hess.decomc 2 (c.ALPH / h) (c.BETA / h) s1.Jac (s0.d.Ar, s0.d.Ai) s0.d.ip with
        | some (.ok d) => some (⟨s1, d⟩ : HState)
        | _ => none) = _
      unfold Hess.decomc
      have f1' : fillE2 2 (c.ALPH / h) (c.BETA / h) s1.Jac (s0.d.Ar, s0.d.Ai) = some E' := f1
      have d1' : dechc 2 E'.1 E'.2 s0.d.ip = some d := d1
      rw [f1', Option.bind_some, d1', Option.bind_some]
      rfl

/-- **C114** is violated: on `y' = wJ y` with the step `h = ALPH` the matrices are factorised without an error report
(the complex matrix is regular) and the Newton iteration does not give the stages of the method. -/
theorem radau_hess_newton_fails {gehrd : (ℤ → ℤ → ℝ) → Option ((ℤ → ℤ → ℝ) × (ℤ → ℝ))}
    (hg : ∀ M, ∃ r, gehrd M = some r ∧ IsGehrd 2 M r.1 r.2) {P : Prob ℝ 2} {c : Consts ℝ}
    {A : Matrix (Fin 3) (Fin 3) ℝ} (hA : Exact c A) (hU : c.U1 = consts.U1) (hAl : c.ALPH = consts.ALPH)
    (hBe : c.BETA = consts.BETA) (hF : ∀ x y, P.F x y = wJ.mulVec y) (x : ℝ) (s0 : HState) :
    ∃ (s' : HState) (Z : Tri ℝ 2), newtonMatrices (hessLin 2 gehrd) c c.ALPH ((hessLin 2 gehrd).load wJ s0) = some s' ∧
      s'.d.ret = 0 ∧
      ¬ RKStages A ![c.C1, c.C2, 1] P.F x c.ALPH 0
        (newtonOnce (hessLin 2 gehrd) P c x (x + c.ALPH) c.ALPH 0 s' Z (forth c Z)).mat := by
  have eU := U1_enc
  have eA := ALPH_enc
  have eB := BETA_enc
  rw [← hU] at eU
  rw [← hAl] at eA
  rw [← hBe] at eB
  have hA0 : 0 < c.ALPH := by linarith [eA.1]
  obtain ⟨b, hb⟩ : ∃ b, b = c.BETA / c.ALPH := ⟨_, rfl⟩
  have hb0 : 0 < b := by rw [hb]; exact div_pos (by linarith [eB.1]) hA0
  have hb4 : b < 4 := by rw [hb, div_lt_iff₀ hA0]; linarith [eA.1, eB.2]
  have h1 : c.ALPH / c.ALPH = 1 := div_self hA0.ne'
  have hdet : ((c.U1 / c.ALPH) • (1 : Matrix (Fin 2) (Fin 2) ℝ) - wJ).det ≠ 0 := by
    rw [Matrix.det_fin_two]
    have u1 : 1 < c.U1 / c.ALPH := by rw [lt_div_iff₀ hA0]; linarith [eU.1, eA.2]
    have u2 : c.U1 / c.ALPH < 2 := by rw [div_lt_iff₀ hA0]; linarith [eU.2, eA.1]
    generalize c.U1 / c.ALPH = u at u1 u2
    simp [wJ]
    nlinarith
  obtain ⟨s1, d, E', nm, d1, entr, enti, hh⟩ := hess_two_factors hg c c.ALPH wJ s0 hdet
  rw [h1] at entr
  rw [← hb] at enti
  have two := fun (Br Bi : ℤ → ℝ) (g1 : Br 1 = 0) (g2 : Br 2 = 5 + b * b) (g3 : Bi 1 = 0) (g4 : Bi 2 = -b) =>
    solhc_two hb0 hb4 (s := d) (ip := s0.d.ip) (by simpa [wJ] using entr 0 0) (by simpa [wJ] using entr 0 1)
      (by simpa [wJ] using entr 1 0) (by simpa [wJ] using entr 1 1) (by simpa using enti 0 0) (by simpa using enti 0 1)
      (by simpa using enti 1 0) (by simpa using enti 1 1) d1 g1 g2 g3 g4
  let F : Tri ℝ 2 := ⟨0, ![1, 1], ![0, b]⟩
  have hFF : forth c (back c F) = F := by
    have hT : TIm c * Tm c = 1 := mul_eq_one_comm.1 hA.inv
    have := forth_mat c (back c F)
    rw [back_mat, ← Matrix.mul_assoc, hT, Matrix.one_mul] at this
    have q0 := congrFun this 0
    have q1 := congrFun this 1
    have q2 := congrFun this 2
    cases hf : forth c (back c F)
    rw [hf] at q0 q1 q2
    congr
  refine ⟨⟨s1, d⟩, back c F, ?_, ?_, ?_⟩
  · exact nm
  · exact (two (fun i => if i = 1 then 0 else 5 + b * b) (fun i => if i = 1 then 0 else -b) rfl rfl rfl rfl).1
  · intro hS
    rw [hFF] at hS
    have hL := stages_transformed hA hF _ hS
    obtain ⟨D, hD⟩ : ∃ D, D = increment (hessLin 2 gehrd) P c x (x + c.ALPH) c.ALPH 0 (⟨s1, d⟩ : HState) (back c F) F :=
      ⟨_, rfl⟩
    rw [← hD] at hL
    have l : c.ALPH * (1 + D.v2 0) - c.BETA * (0 + D.v3 0) = c.ALPH * (1 + D.v2 1) := by
      have := congrFun (congrFun hL 1) 0
      rw [Matrix.smul_apply, Matrix.mul_apply, Matrix.mul_apply, Fin.sum_univ_three, Fin.sum_univ_two] at this
      simp [Lam, Tri.mat, addTri, F, wJ] at this
      linarith
    have g2 : ∀ i, c.TI21 * (back c F).v1 i + c.TI22 * (back c F).v2 i + c.TI23 * (back c F).v3 i = F.v2 i :=
      fun i => congrFun (congrArg Tri.v2 hFF) i
    have g3 : ∀ i, c.TI31 * (back c F).v1 i + c.TI32 * (back c F).v2 i + c.TI33 * (back c F).v3 i = F.v3 i :=
      fun i => congrFun (congrArg Tri.v3 hFF) i
    have w0 : ∀ y : Fin 2 → ℝ, (wJ *ᵥ fun i => (0 : Fin 2 → ℝ) i + y i) 0 = y 1 := fun y => by
      simp [wJ, Matrix.mulVec, dotProduct]
    have w1 : ∀ y : Fin 2 → ℝ, (wJ *ᵥ fun i => (0 : Fin 2 → ℝ) i + y i) 1 = 5 * y 0 + y 1 := fun y => by
      simp [wJ, Matrix.mulVec, dotProduct]
    obtain ⟨r2, hr2⟩ : ∃ r2 : Fin 2 → ℝ, r2 = fun i => (c.TI21 * P.F (x + c.C1 * c.ALPH) (fun i => (0 : Fin 2 → ℝ) i + (back c F).v1 i) i
      + c.TI22 * P.F (x + c.C2 * c.ALPH) (fun i => (0 : Fin 2 → ℝ) i + (back c F).v2 i) i
      + c.TI23 * P.F (x + c.ALPH) (fun i => (0 : Fin 2 → ℝ) i + (back c F).v3 i) i)
      + (-(F.v2 i) * (c.ALPH / c.ALPH) - -(F.v3 i) * (c.BETA / c.ALPH)) := ⟨_, rfl⟩
    obtain ⟨r3, hr3⟩ : ∃ r3 : Fin 2 → ℝ, r3 = fun i => (c.TI31 * P.F (x + c.C1 * c.ALPH) (fun i => (0 : Fin 2 → ℝ) i + (back c F).v1 i) i
      + c.TI32 * P.F (x + c.C2 * c.ALPH) (fun i => (0 : Fin 2 → ℝ) i + (back c F).v2 i) i
      + c.TI33 * P.F (x + c.ALPH) (fun i => (0 : Fin 2 → ℝ) i + (back c F).v3 i) i)
      + -(F.v3 i) * (c.ALPH / c.ALPH) + -(F.v2 i) * (c.BETA / c.ALPH) := ⟨_, rfl⟩
    have a2 : r2 0 = 0 ∧ r2 1 = 5 + b * b := by
      rw [hr2, h1, ← hb]
      simp only [hF, w0, w1]
      have := g2 0
      have := g2 1
      simp only [F, Matrix.cons_val_zero, Matrix.cons_val_one, Matrix.cons_val_fin_one] at *
      constructor <;> linarith
    have a3 : r3 0 = 0 ∧ r3 1 = -b := by
      rw [hr3, h1, ← hb]
      simp only [hF, w0, w1]
      have := g3 0
      have := g3 1
      simp only [F, Matrix.cons_val_zero, Matrix.cons_val_one, Matrix.cons_val_fin_one] at *
      constructor <;> linarith
    have b2 : arr1 r2 1 = 0 ∧ arr1 r2 2 = 5 + b * b := a2
    have b3 : arr1 r3 1 = 0 ∧ arr1 r3 2 = -b := a3
    obtain ⟨Cr, c1, c2, c3, c4⟩ := hh (arr1 r2) true
    obtain ⟨Ci, c5, c6, c7, c8⟩ := hh (arr1 r3) true
    obtain ⟨-, y, y1, y2⟩ := two Cr Ci (c3.trans b2.1) (c4.trans b2.2) (c7.trans b3.1) (c8.trans b3.2)
    obtain ⟨zr, z1, z2, z3, z4⟩ := hh y.1 false
    obtain ⟨zi, z5, z6, z7, z8⟩ := hh y.2 false
    have ex : ∃ z : (ℤ → ℝ) × (ℤ → ℝ), Hess.Solvecomplex 2 s1.Jac s1.tau d (arr1 r2) (arr1 r3) z.1 z.2 :=
      ⟨(zr, zi), Cr, Ci, y, c1, c5, y1, z1, z5⟩
    have es : (hessLin 2 gehrd).solvecomplex (⟨s1, d⟩ : HState) r2 r3 = (vec 2 ex.choose.1, vec 2 ex.choose.2) :=
      dif_pos ex
    have u : ex.choose.1 = zr ∧ ex.choose.2 = zi := by
      obtain ⟨Dr, Di, y', q1, q2, q3, q4, q5⟩ := ex.choose_spec
      rw [c2 Dr q1, c6 Di q2, y1] at q3
      injection q3 with q3
      rw [← q3] at q4 q5
      exact ⟨z2 _ q4, z6 _ q5⟩
    rw [u.1, u.2] at es
    have v2 : D.v2 = vec 2 zr := by rw [hD]; exact (congrArg Prod.fst (hr2 ▸ hr3 ▸ es) :)
    have v3 : D.v3 = vec 2 zi := by rw [hD]; exact (congrArg Prod.snd (hr2 ▸ hr3 ▸ es) :)
    apply y2
    have t1 : D.v2 0 = y.1 1 := by rw [v2]; exact z3
    have t2 : D.v2 1 = y.1 2 := by rw [v2]; exact z4
    have t3 : D.v3 0 = y.2 1 := by rw [v3]; exact z7
    rw [t1, t2, t3] at l
    have hbb : c.BETA = b * c.ALPH := by rw [hb]; field_simp
    rw [hbb] at l
    have : c.ALPH * (y.1 1 - b * y.2 1 - y.1 2) = 0 := by linarith
    exact (mul_eq_zero.1 this).resolve_left hA0.ne'

/-- the hypotheses of `radau_hess_newton_partial` are met, for example by `y' = -y`, two unknowns, `h = 1`, with the
`dgehrd` which has nothing to do for two unknowns; those of `radau_hess_newton_fails` by the same constants. -/
example (s0 : HState) : ∃ (gehrd : (ℤ → ℤ → ℝ) → Option ((ℤ → ℤ → ℝ) × (ℤ → ℝ))) (c : Consts ℝ) (s' : HState),
    (∀ M, ∃ r, gehrd M = some r ∧ IsGehrd 2 M r.1 r.2) ∧ Exact c radauA ∧ c.U1 = consts.U1 ∧ c.ALPH = consts.ALPH ∧
    c.BETA = consts.BETA ∧ newtonMatrices (hessLin 2 gehrd) c 1 ((hessLin 2 gehrd).load (-1 : Matrix (Fin 2) (Fin 2) ℝ) s0)
      = some s' ∧ s'.d.hit = false ∧ s'.d.ret = 0 := by
  obtain ⟨c, hc, -, -, h3, h4, h5⟩ := radau_exact_constants radauA_collocation
  have hg : ∀ M : ℤ → ℤ → ℝ, ∃ r, (fun M : ℤ → ℤ → ℝ => some (M, fun _ : ℤ => (0 : ℝ))) M = some r ∧
      IsGehrd 2 M r.1 r.2 := by
    intro M
    refine ⟨_, rfl, ?_, ?_, ?_⟩
    · have hq : Q 2 M (fun _ : ℤ => (0 : ℝ)) = 1 := by
        unfold Q
        rw [List.prod_eq_one]
        intro x hx
        rw [List.mem_map] at hx
        obtain ⟨j, -, rfl⟩ := hx
        exact refl_zero _
      dsimp only
      rw [hq, Matrix.transpose_one, Matrix.one_mul, Matrix.mul_one]
      funext i j
      unfold hess
      rw [if_pos]
      have := i.2
      omega
    · intro j _; left; rfl
    · intro _; rfl
  have eU := U1_enc.1
  have eA := ALPH_enc.1
  have eB := BETA_enc.1
  rw [← h3] at eU
  rw [← h4] at eA
  rw [← h5] at eB
  obtain ⟨s1, d, E', nm, d1, entr, enti, -⟩ := hess_two_factors hg c 1 (-1 : Matrix (Fin 2) (Fin 2) ℝ) s0 (by
    rw [Matrix.det_fin_two]
    simp
    linarith)
  rw [div_one] at entr enti
  have a11 : E'.1 1 1 = c.ALPH + 1 := by simpa using entr 0 0
  have a12 : E'.1 1 2 = 0 := by simpa using entr 0 1
  have a21 : E'.1 2 1 = 0 := by simpa using entr 1 0
  have b11 : E'.2 1 1 = c.BETA := by simpa using enti 0 0
  have b12 : E'.2 1 2 = 0 := by simpa using enti 0 1
  have b21 : E'.2 2 1 = 0 := by simpa using enti 1 0
  have b22 : E'.2 2 2 = c.BETA := by simpa using enti 1 1
  have hp : pivotC E'.1 E'.2 1 = 1 := by
    unfold pivotC
    rw [if_neg]
    rw [ABS_eq, ABS_eq, ABS_eq, ABS_eq, show (1 : ℤ) + 1 = 2 by norm_num, a21, b21, abs_zero]
    have := abs_nonneg (E'.1 1 1)
    have := abs_nonneg (E'.2 1 1)
    linarith
  obtain ⟨d', d2, -, -, -, -, -, ai, hret, hit⟩ := dechc_two (ip := s0.d.ip) hp (by
    intro h
    have := congrArg Complex.im h
    have : E'.2 1 1 = 0 := this
    rw [b11] at this
    linarith)
  have : d' = d := by
    have := d2.symm.trans d1
    injection this
  subst this
  refine ⟨_, c, ⟨s1, d'⟩, hg, hc, h3, h4, h5, nm, ?_, ?_⟩
  · rw [hit, b12]; simp
  · rw [show (3 : ℤ) - 1 = 2 by norm_num, b22, a12, b12, pri, if_pos rfl, mul_zero, add_zero] at ai
    show d'.ret = 0
    rw [hret, ai, ABS_eq, ABS_eq, if_neg]
    have := abs_nonneg (d'.Ar 2 2)
    have := abs_pos.2 (show c.BETA ≠ 0 by linarith)
    linarith

end Odes.Radau
