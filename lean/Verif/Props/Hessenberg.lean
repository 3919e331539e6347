import Verif.Lemmas.HessSolve

/-!
# Hessenberg factorisation and solves (C07–C12)

Matrices and vectors held in one-based arrays are compared with Mathlib's (`Spec.mat`, `Spec.vec`).
-/

namespace Odes.Hess

open Odes.Mem Spec

variable {K : Type}

/-! ### C07, C08: real matrices -/

section real

variable [Field K] [LinearOrder K] [IsStrictOrderedRing K]

/-- C07: no access is out of bounds, whatever the matrix. -/
theorem dech_defined {n : ℕ} (hn : 1 ≤ n) (A : ℤ → ℤ → K) (ip : ℤ → ℤ) : ∃ s, dech n A ip = some s := by
  obtain ⟨s, h, -⟩ := dech_spec (n := n) (by omega) A ip
  exact ⟨s, h⟩

/-- C07: after a successful `dech`, `solh` solves the system with the upper Hessenberg part of the
matrix; entries below the subdiagonal play no role. -/
theorem dech_solh_solves {n : ℕ} (hn : 1 ≤ n) {A : ℤ → ℤ → K} {ip : ℤ → ℤ} {s : St K}
    (h : dech n A ip = some s) (hr : s.ret = 0) (b : ℤ → K) :
    ∃ x, solh n s.A s.ip b = some x ∧ (hess (mat n A)).mulVec (vec n x) = vec n b := by
  obtain ⟨s', h1, h2⟩ := dech_spec (n := n) (by omega) A ip
  rw [h] at h1
  injection h1 with h1
  subst h1
  rcases h2 with ⟨-, h2, h3⟩ | ⟨h2, -⟩
  · obtain ⟨x, x1, x2⟩ := solh_spec (by omega) h2 h3 b
    exact ⟨x, x1, (hess_mulVec_iff n A x b).2 x2⟩
  · exact absurd hr h2

/-- C08: `dech` returns 0 exactly when the Hessenberg matrix is non singular. -/
theorem dech_zero_iff_det {n : ℕ} (hn : 1 ≤ n) {A : ℤ → ℤ → K} {ip : ℤ → ℤ} {s : St K}
    (h : dech n A ip = some s) : s.ret = 0 ↔ (hess (mat n A)).det ≠ 0 := by
  obtain ⟨s', h1, h2⟩ := dech_spec (n := n) (by omega) A ip
  rw [h] at h1
  injection h1 with h1
  subst h1
  exact det_of_cases h2

end real

/-- a matrix needing both kinds of pivots, with junk below the subdiagonal. -/
def exA : ℤ → ℤ → ℚ := fun i j => if i = 3 ∧ j = 1 then 77 else if i = j then 0 else 1

/-- the hypotheses of C07 are met (with row exchanges). -/
example : ∃ s, dech 3 exA (fun _ => 0) = some s ∧ s.ret = 0 ∧ s.ip 0 = 2 := by
  obtain ⟨s, hs⟩ := dech_defined (n := 3) (by norm_num) exA (fun _ => 0)
  refine ⟨s, hs, ?_⟩
  have h : (dech 3 exA (fun _ => 0)).map (fun s => (s.ret, s.ip 0)) = some (0, 2) := by
    decide +kernel
  rw [show (dech 3 exA fun _ => 0) = some s from hs, Option.map_some] at h
  injection h with h
  injection h with h1 h2
  exact ⟨h1, h2⟩

/-- … and both values of C08 occur. -/
example : (dech 2 (fun _ _ => (1 : ℚ)) (fun _ => 0)).map (fun s => s.ret) = some 2 := by
  decide +kernel

/-! ### C09: complex matrices -/

/-- C09 (partial): the complex factorisation and solve are right in every run that does not execute
the branch of lines 167-172 with a multiplier whose real part is not 0.  Missing: that branch, in
which the code is wrong (`dechc_solhc_wrong`). -/
theorem dechc_solhc_solves_partial {n : ℕ} (hn : 1 ≤ n) {Ar Ai : ℤ → ℤ → ℝ} {ip : ℤ → ℤ} {s : StC}
    (h : dechc n Ar Ai ip = some s) (hhit : s.hit = false) (hr : s.ret = 0) (Br Bi : ℤ → ℝ) :
    ∃ x, solhc n s.Ar s.Ai s.ip Br Bi = some x ∧
      (hess (mat n (Z Ar Ai))).mulVec (vec n (zv x.1 x.2)) = vec n (zv Br Bi) := by
  obtain ⟨s', h1, h2⟩ := dechc_spec (n := n) (by omega) Ar Ai ip
  rw [h] at h1
  injection h1 with h1
  subst h1
  rcases h2 hhit with ⟨-, h2, h3⟩ | ⟨h2, -⟩
  · obtain ⟨x, x1, x2⟩ := solhc_spec (by omega) h2 h3 Br Bi
    exact ⟨x, x1, (hess_mulVec_iff n (Z Ar Ai) (zv x.1 x.2) (zv Br Bi)).2 x2⟩
  · exact absurd hr h2

/-- C09 (partial): same, for the detection of singular matrices. -/
theorem dechc_zero_iff_det_partial {n : ℕ} (hn : 1 ≤ n) {Ar Ai : ℤ → ℤ → ℝ} {ip : ℤ → ℤ} {s : StC}
    (h : dechc n Ar Ai ip = some s) (hhit : s.hit = false) :
    s.ret = 0 ↔ (hess (mat n (Z Ar Ai))).det ≠ 0 := by
  obtain ⟨s', h1, h2⟩ := dechc_spec (n := n) (by omega) Ar Ai ip
  rw [h] at h1
  injection h1 with h1
  subst h1
  exact det_of_cases (h2 hhit)

/-- C09: no access of `dechc` is out of bounds. -/
theorem dechc_defined {n : ℕ} (hn : 1 ≤ n) (Ar Ai : ℤ → ℤ → ℝ) (ip : ℤ → ℤ) :
    ∃ s, dechc n Ar Ai ip = some s := by
  obtain ⟨s, h, -⟩ := dechc_spec (n := n) (by omega) Ar Ai ip
  exact ⟨s, h⟩

/-- real part of `(1+i)I - [[0,1],[5,1]]`. -/
noncomputable def wAr : ℤ → ℤ → ℝ := fun i j =>
  if i = 1 then (if j = 1 then 1 else -1) else if j = 1 then -5 else 0
/-- imaginary part of `(1+i)I - [[0,1],[5,1]]`. -/
noncomputable def wAi : ℤ → ℤ → ℝ := fun i j => if i = j then 1 else 0

/-- `dechc` on 2×2 matrices whose first pivot is not 0. -/
theorem dechc_two {Ar Ai : ℤ → ℤ → ℝ} {ip : ℤ → ℤ} {m : ℤ} (hm : pivotC Ar Ai 1 = m)
    (h0 : Z Ar Ai m 1 ≠ 0) :
    ∃ s, dechc 2 Ar Ai ip = some s ∧ s.ip 0 = m ∧
      Z s.Ar s.Ai 1 1 = Z Ar Ai m 1 ∧ Z s.Ar s.Ai 1 2 = Z Ar Ai m 2 ∧
      Z s.Ar s.Ai 2 1 = Z Ar Ai (3 - m) 1 * (-1 / Z Ar Ai m 1) ∧
      s.Ar 2 2 = Ar (3 - m) 2 + prr (s.Ar 2 1) (s.Ai 2 1) (Ar m 2) (Ai m 2) ∧
      s.Ai 2 2 = Ai (3 - m) 2 + pri (s.Ar 2 1) (s.Ai 2 1) (Ar m 2) (Ai m 2) ∧
      (s.ret = if ABS (s.Ar 2 2) + ABS (s.Ai 2 2) = 0 then 2 else 0) ∧
      s.hit = decide (Ai m 2 ≠ 0 ∧ Ar m 2 = 0 ∧ s.Ar 2 1 ≠ 0) := by
  unfold dechc
  rw [iset_in _ ⟨by norm_num, by norm_num⟩, Option.bind_some, if_pos (by norm_num), forBrk,
    show ((2 : ℤ) - 1 + 1 - 1).toNat = 1 by norm_num, loopBrk]
  have hp : pivotC (⟨Ar, Ai, Function.update ip (2 - 1) 1, 0, false⟩ : StC).Ar
      (⟨Ar, Ai, Function.update ip (2 - 1) 1, 0, false⟩ : StC).Ai 1 = m := hm
  obtain ⟨A1, A2, b, c1, c2⟩ := (dechcBody_pre (n := 2) (k := 1) le_rfl (by norm_num)
    ⟨Ar, Ai, Function.update ip (2 - 1) 1, 0, false⟩).2 (by rw [hp]; exact h0)
  rw [hp] at b c2
  have hm' : m = 1 ∨ m = 1 + 1 := hm ▸ pivotC_or Ar Ai 1
  rw [b, show (1 : ℤ) + 1 = 2 by norm_num, forUp_single]
  dsimp only
  rw [col_exact le_rfl (by norm_num) hm' (by norm_num) (by norm_num), Option.bind_some,
    Option.bind_some]
  dsimp only
  rw [if_neg (by decide), loopBrk, Option.bind_some, get_in ⟨⟨by norm_num, by norm_num⟩,
    by norm_num, by norm_num⟩, Option.bind_some, get_in ⟨⟨by norm_num, by norm_num⟩,
    by norm_num, by norm_num⟩, Option.bind_some]
  dsimp only at c1 c2
  have d1 : ∀ i, A1 i 2 = Ar i 2 ∧ A2 i 2 = Ai i 2 := by
    intro i
    have := c1 i 2 (by norm_num)
    exact ⟨congrArg Complex.re this, congrArg Complex.im this⟩
  refine ⟨_, rfl, ?_⟩
  simp only [apply_ite StC.Ar, apply_ite StC.Ai, apply_ite StC.ip, apply_ite StC.hit,
    apply_ite StC.ret, ite_self]
  refine ⟨?_, ?_, ?_, ?_, ?_, ?_, ?_, ?_⟩
  · exact ipAfter_at (n := 2) (k := 1) (by norm_num) _
  · have := c2 1
    rw [if_pos rfl] at this
    rw [← this]
    simp [Z, colUpd]
  · unfold Z colUpd
    simp [(d1 m).1, (d1 m).2]
  · have := c2 2
    rw [if_neg (by norm_num), if_pos (by norm_num)] at this
    rw [show (3 : ℤ) - m = 2 * 1 + 1 - m by ring, ← this]
    simp [Z, colUpd]
  · simp [colUpd, (d1 _).1, (d1 _).2]
  · simp [colUpd, (d1 _).1, (d1 _).2]
  · trivial
  · simp [colUpd, (d1 _).1, (d1 _).2]

/-- C09 is violated: on `(1+i)I - [[0,1],[5,1]]` and `b = (0,1)`, `dechc` reports success and
`solhc` returns a vector which is not the solution. -/
theorem dechc_solhc_wrong : ∃ s x, dechc 2 wAr wAi (fun _ => 0) = some s ∧ s.ret = 0 ∧
    solhc 2 s.Ar s.Ai s.ip (fun i => if i = 1 then 0 else 1) (fun _ => 0) = some x ∧
    (hess (mat 2 (Z wAr wAi))).mulVec (vec 2 (zv x.1 x.2)) ≠
      vec 2 (zv (fun i => if i = 1 then 0 else 1) (fun _ => 0)) := by
  have hp : pivotC wAr wAi 1 = 2 := by
    unfold pivotC
    norm_num [wAr, wAi, ABS]
  obtain ⟨s, h, hip, z11, z12, z21, ar, ai, hret, -⟩ := dechc_two (ip := fun _ => 0) hp (by
    intro h
    have := congrArg Complex.re h
    norm_num [Z, wAr] at this)
  have m : (-1 : ℂ) / Z wAr wAi 2 1 = ⟨1 / 5, 0⟩ := by
    have : Z wAr wAi 2 1 = ((-5 : ℝ) : ℂ) := by
      rw [Complex.ext_iff]; norm_num [Z, wAr, wAi]
    rw [this, Complex.ext_iff]
    norm_num [Complex.div_re, Complex.div_im, Complex.normSq]
  rw [m] at z21
  have r21 : s.Ar 2 1 = 1 / 5 := by
    have := congrArg Complex.re z21
    norm_num [Z, wAr, wAi] at this
    simpa using this
  have i21 : s.Ai 2 1 = 1 / 5 := by
    have := congrArg Complex.im z21
    norm_num [Z, wAr, wAi] at this
    simpa using this
  have r11 : s.Ar 1 1 = -5 := by have := congrArg Complex.re z11; norm_num [Z, wAr] at this; exact this
  have i11 : s.Ai 1 1 = 0 := by have := congrArg Complex.im z11; norm_num [Z, wAi] at this; exact this
  have r12 : s.Ar 1 2 = 0 := by have := congrArg Complex.re z12; norm_num [Z, wAr] at this; exact this
  have i12 : s.Ai 1 2 = 1 := by have := congrArg Complex.im z12; norm_num [Z, wAi] at this; exact this
  have r22 : s.Ar 2 2 = -6 / 5 := by rw [ar, r21, i21]; norm_num [wAr, wAi, prr]
  have i22 : s.Ai 2 2 = 0 := by rw [ai, r21, i21]; norm_num [wAr, wAi, pri]
  have hr : s.ret = 0 := by rw [hret, r22, i22, if_neg (by norm_num [ABS])]
  have hx : ∃ x, solhc 2 s.Ar s.Ai s.ip (fun i => if i = 1 then 0 else 1) (fun _ => 0) = some x ∧
      x.1 1 = -1 / 6 ∧ x.2 1 = -1 / 30 ∧ x.1 2 = -1 / 6 ∧ x.2 2 = -1 / 6 := by
    unfold solhc
    rw [if_pos (by norm_num), show (2 : ℤ) - 1 = 1 by norm_num, forUp_single]
    simp only [forUp_single]
    unfold solhcFwd solhcBwd solhcDiv
    norm_num [forUp_single, vget, vset, iget, hip, Odes.Hess.get, r21, i21, r22, i22, r11, i11,
      r12, i12, Function.update_apply]
  obtain ⟨x, hx, x1, x2, x3, x4⟩ := hx
  refine ⟨s, x, h, hr, hx, ?_⟩
  intro hc
  have h1 := (hess_mulVec_iff 2 (Z wAr wAi) (zv x.1 x.2)
    (zv (fun i => if i = 1 then 0 else 1) (fun _ => 0))).1 hc 1 le_rfl (by norm_num)
  unfold S at h1
  rw [show Finset.Icc (1 : ℤ) ((2 : ℕ) : ℤ) = {1, 2} by decide, Finset.sum_insert (by decide),
    Finset.sum_singleton] at h1
  have := congrArg Complex.re h1
  norm_num [maskU, Z, zv, wAr, wAi, x1, x2, x3, x4] at this

/-- the hypotheses of the partial theorems are met by a matrix with non real entries. -/
example : ∃ s, dechc 2 (fun _ j => if j = 1 then 1 else 2) wAi (fun _ => 0) = some s ∧
    s.hit = false ∧ s.ret = 0 := by
  have hp : pivotC (fun _ j => if j = 1 then 1 else 2) wAi 1 = 1 := by
    unfold pivotC
    norm_num [wAi, ABS]
  have h0 : Z (fun _ j => if j = 1 then 1 else 2) wAi 1 1 ≠ 0 := by
    intro h
    have := congrArg Complex.re h
    norm_num [Z] at this
  obtain ⟨s, h, hip, z11, z12, z21, ar, ai, hret, hh⟩ := dechc_two (ip := fun _ => 0) hp h0
  refine ⟨s, h, ?_, ?_⟩
  · rw [hh]; norm_num [wAi]
  · have m : (-1 : ℂ) / Z (fun _ j => if j = 1 then 1 else 2) wAi 1 1 = ⟨-1 / 2, 1 / 2⟩ := by
      rw [div_eq_iff h0, Complex.ext_iff]
      norm_num [Z, wAi]
    rw [m] at z21
    have i21 : s.Ai 2 1 = 1 / 2 := by
      have := congrArg Complex.im z21
      norm_num [Z, wAi] at this
      simpa using this
    have i22 : s.Ai 2 2 = 2 := by rw [ai, i21]; norm_num [wAi, pri]
    rw [hret, if_neg]
    rw [ABS_add_zero]
    intro h
    have := congrArg Complex.im h
    rw [show (⟨s.Ar 2 2, s.Ai 2 2⟩ : ℂ).im = s.Ai 2 2 from rfl, i22] at this
    norm_num at this

/-! ### C11: householder -/

section hh

variable [Field K]

/-- C11 (partial, `n = 1` is missing, see `householder_one_ub`): for `n ≥ 2`, `householder` terminates without any out of bounds access, `direct` computes
`Qᵀ x`, otherwise `Q x`, `Q` being LAPACK's product of reflectors. -/
theorem householder_applies_Q_partial {n : ℕ} (hn : 2 ≤ n) (A : ℤ → ℤ → K) {tau : ℤ → K}
    (hl : tau (n - 2) = 0) (X : ℤ → K) (direct : Bool) :
    ∃ Y, Householder n A tau X Y direct ∧ (∀ Y', Householder n A tau X Y' direct → Y' = Y) ∧
      vec n Y = (if direct then (Q n A tau).transpose else Q n A tau).mulVec (vec n X) := by
  rw [Q_eq_P hn A hl]
  exact householder_spec hn A tau X direct

/-- C11 (partial, `n ≥ 2`): backward after forward is the identity. -/
theorem householder_inverse_partial {n : ℕ} (hn : 2 ≤ n) (A : ℤ → ℤ → K) (tau : ℤ → K)
    (h : ∀ j : ℕ, j + 2 < n → tau j = 0 ∨ tau j * dotProduct (hv n A j) (hv n A j) = 2)
    {X Y X' : ℤ → K} (h1 : Householder n A tau X Y true) (h2 : Householder n A tau Y X' false) :
    ∀ i : ℤ, 1 ≤ i → i ≤ n → X' i = X i := by
  obtain ⟨Y1, -, u1, v1⟩ := householder_spec hn A tau X true
  obtain ⟨X1, -, u2, v2⟩ := householder_spec hn A tau Y false
  rw [← u1 Y h1] at v1
  rw [← u2 X' h2] at v2
  have ho := P_orth (n := n) A tau (n - 2) fun j hj => h j (by omega)
  have : vec n X' = vec n X := by
    rw [v2, v1, Matrix.mulVec_mulVec]
    simp only [if_true]
    rw [if_neg (by decide), ho.1, Matrix.one_mulVec]
  have := fun i : Fin n => congrFun this i
  exact (forall_fin_iff n fun i => X' i = X i).1 this

/-- C11 is violated for `n = 1`: both directions access the vector out of bounds. -/
theorem householder_one_ub (A : ℤ → ℤ → K) (tau : ℤ → K) (X : ℤ → K) (direct : Bool) :
    HouseholderUb 1 A tau X direct := by
  unfold HouseholderUb
  cases direct with
  | true =>
    rw [if_pos rfl]
    refine ⟨1, ?_⟩
    unfold run hhStep hhBody vget
    rw [if_neg (by norm_num), if_neg (by norm_num)]
    rfl
  | false =>
    rw [if_neg (by decide)]
    refine ⟨1, ?_⟩
    unfold run hhStep hhBody vget
    rw [if_neg (by norm_num), if_neg (by norm_num)]
    rfl

end hh

/-- reflector data meeting the hypotheses of `householder_inverse_partial`: `v = (0,1,1)`, `tau = 1`. -/
example : ∀ j : ℕ, j + 2 < 3 → (fun k => if k = 0 then 1 else 0 : ℤ → ℚ) j = 0 ∨
    (fun k => if k = 0 then 1 else 0 : ℤ → ℚ) j *
      dotProduct (hv 3 (fun _ _ => (1 : ℚ)) j) (hv 3 (fun _ _ => (1 : ℚ)) j) = 2 := by
  intro j hj
  right
  have : j = 0 := by omega
  subst this
  norm_num [dotProduct, Fin.sum_univ_three, hv]

/-! ### C12, C10: the Newton matrices -/

section mr

variable [Field K] [LinearOrder K] [IsStrictOrderedRing K]

/-- What `decomr` leaves behind.  `J` is the Jacobian: the one in `Jac` when `calhes` is set,
otherwise the one whose reduction is in `Jac`. -/
theorem decomr_cases {n : ℕ} (hn : 2 ≤ n)
    {gehrd : (ℤ → ℤ → K) → Option ((ℤ → ℤ → K) × (ℤ → K))}
    (hg : ∀ M, ∃ r, gehrd M = some r ∧ IsGehrd n M r.1 r.2) (fac : K) (s : MR K) {J : ℤ → ℤ → K}
    (hJ : if s.calhes then J = s.Jac else IsGehrd n J s.Jac s.tau) :
    ((fac • (1 : Matrix (Fin n) (Fin n) K) - mat n J).det = 0 ∧
      decomr n gehrd fac s = some (.error .factorisation)) ∨
    ((fac • (1 : Matrix (Fin n) (Fin n) K) - mat n J).det ≠ 0 ∧ ∃ s',
      decomr n gehrd fac s = some (.ok s') ∧ s'.calhes = false ∧ IsGehrd n J s'.Jac s'.tau ∧
      ∀ b, ∃ x, solh n s'.E1 s'.ipr b = some x ∧
        (fac • (1 : Matrix (Fin n) (Fin n) K) - hess (mat n s'.Jac)).mulVec (vec n x) = vec n b) := by
  have hred : ∃ s1 : MR K, (if s.calhes then
      (gehrd s.Jac).map fun r => { s with calhes := false, Jac := r.1, tau := r.2 }
      else some s) = some s1 ∧ s1.calhes = false ∧ IsGehrd n J s1.Jac s1.tau := by
    by_cases hc : s.calhes
    · rw [if_pos hc] at hJ ⊢
      obtain ⟨r, r1, r2⟩ := hg s.Jac
      rw [r1]
      exact ⟨_, rfl, rfl, hJ ▸ r2⟩
    · rw [if_neg hc] at hJ ⊢
      exact ⟨s, rfl, by simpa using hc, hJ⟩
  obtain ⟨s1, e1, e2, e3⟩ := hred
  obtain ⟨o1, o2, o3⟩ := gehrd_orth hn e3
  obtain ⟨d, d1⟩ := dech_defined (n := n) (by omega)
    (fun i j => if i = j then -s1.Jac i j + fac else -s1.Jac i j) s1.ipr
  have hdet := dech_zero_iff_det (by omega) d1
  have hsim := shift_similar fac e3.eq o2
  rw [hess_shift, ← det_similar (H := fac • 1 - hess (mat n s1.Jac)) o2, ← hsim] at hdet
  unfold decomr
  rw [e1]
  dsimp only
  rw [d1, Option.bind_some]
  by_cases hr : d.ret = 0
  · right
    refine ⟨hdet.1 hr, { s1 with E1 := d.A, ipr := d.ip }, by rw [if_neg (by simpa using hr)],
      e2, e3, ?_⟩
    intro b
    obtain ⟨x, x1, x2⟩ := dech_solh_solves (by omega) d1 hr b
    refine ⟨x, x1, ?_⟩
    rwa [hess_shift] at x2
  · left
    refine ⟨?_, by rw [if_pos hr]⟩
    by_contra hc
    exact hr (hdet.2 hc)

/-- C12: with Hessenberg reduction, factorise + solve solves the original real system. -/
theorem solvereal_solves {n : ℕ} (hn : 2 ≤ n)
    {gehrd : (ℤ → ℤ → K) → Option ((ℤ → ℤ → K) × (ℤ → K))}
    (hg : ∀ M, ∃ r, gehrd M = some r ∧ IsGehrd n M r.1 r.2) (fac : K) (s : MR K) {J : ℤ → ℤ → K}
    (hJ : if s.calhes then J = s.Jac else IsGehrd n J s.Jac s.tau) {s' : MR K}
    (h : decomr n gehrd fac s = some (.ok s')) (b : ℤ → K) :
    (∃ z, Solvereal n s' b z) ∧ ∀ z, Solvereal n s' b z →
      (fac • (1 : Matrix (Fin n) (Fin n) K) - mat n J).mulVec (vec n z) = vec n b := by
  rcases decomr_cases hn hg fac s hJ with ⟨-, h1⟩ | ⟨-, s1, h1, -, h2, h3⟩
  · rw [h] at h1; simp at h1
  · rw [h] at h1
    injection h1 with h1
    injection h1 with h1
    subst h1
    obtain ⟨o1, o2, o3⟩ := gehrd_orth hn h2
    obtain ⟨C, c1, c2, c3⟩ := householder_spec hn s'.Jac s'.tau b true
    obtain ⟨C', k1, k2⟩ := h3 C
    obtain ⟨z, z1, z2, z3⟩ := householder_spec hn s'.Jac s'.tau C' false
    refine ⟨⟨z, C, C', c1, k1, z1⟩, ?_⟩
    rintro z' ⟨D, D', q1, q2, q3⟩
    rw [c2 D q1, k1] at q2
    injection q2 with q2
    rw [← q2] at q3
    rw [z2 z' q3, z3, if_neg (by decide), ← o1, shift_similar fac h2.eq o2, Matrix.mulVec_mulVec,
      Matrix.mul_assoc, o3, Matrix.mul_one, ← Matrix.mulVec_mulVec, k2, c3, if_pos rfl, ← o1,
      Matrix.mulVec_mulVec, o2, Matrix.one_mulVec]

/-- C10 (real part): `decomr` throws exactly when the real Newton matrix is singular. -/
theorem decomr_throws_iff_singular {n : ℕ} (hn : 2 ≤ n)
    {gehrd : (ℤ → ℤ → K) → Option ((ℤ → ℤ → K) × (ℤ → K))}
    (hg : ∀ M, ∃ r, gehrd M = some r ∧ IsGehrd n M r.1 r.2) (fac : K) (s : MR K) {J : ℤ → ℤ → K}
    (hJ : if s.calhes then J = s.Jac else IsGehrd n J s.Jac s.tau) :
    decomr n gehrd fac s = some (.error .factorisation) ↔
      (fac • (1 : Matrix (Fin n) (Fin n) K) - mat n J).det = 0 := by
  rcases decomr_cases hn hg fac s hJ with ⟨h0, h1⟩ | ⟨h0, s1, h1, -⟩
  · exact ⟨fun _ => h0, fun _ => h1⟩
  · refine ⟨fun h => ?_, fun h => absurd h h0⟩
    rw [h1] at h; simp at h

end mr

/-- a `dgehrd` for 2×2 matrices (which are Hessenberg already): the contract is satisfiable. -/
example : ∀ M : ℤ → ℤ → ℚ, ∃ r, (fun M : ℤ → ℤ → ℚ => some (M, fun _ : ℤ => (0 : ℚ))) M = some r ∧
    IsGehrd 2 M r.1 r.2 := by
  intro M
  refine ⟨_, rfl, ?_, ?_, ?_⟩
  · have hq : Q 2 M (fun _ : ℤ => (0 : ℚ)) = 1 := by
      unfold Q
      rw [List.prod_eq_one]
      intro x hx
      rw [List.mem_map] at hx
      obtain ⟨j, -, rfl⟩ := hx
      exact refl_zero _
    dsimp only
    rw [hq, Matrix.transpose_one, Matrix.one_mul, Matrix.mul_one]
    funext i j
    unfold hess
    rw [if_pos]
    have := i.2
    omega
  · intro j _; left; rfl
  · intro _; rfl

/-- C12 (complex, partial): same for the complex system, in runs of `dechc` that stay clear of the
faulty branch and succeed.  Missing: the faulty branch (C09), failures (C10). -/
theorem solvecomplex_solves_partial {n : ℕ} (hn : 2 ≤ n) (alpha beta : ℝ) {J A : ℤ → ℤ → ℝ}
    {tau : ℤ → ℝ} (hJ : IsGehrd n J A tau) (E : (ℤ → ℤ → ℝ) × (ℤ → ℤ → ℝ)) (ip : ℤ → ℤ) {d : StC}
    (h : decomc n alpha beta A E ip = some (.ok d)) (hhit : d.hit = false) (hr : d.ret = 0)
    (br bi : ℤ → ℝ) :
    (∃ zr zi, Solvecomplex n A tau d br bi zr zi) ∧ ∀ zr zi, Solvecomplex n A tau d br bi zr zi →
      ((⟨alpha, beta⟩ : ℂ) • (1 : Matrix (Fin n) (Fin n) ℂ) -
        (mat n J).map (fun x : ℝ => (x : ℂ))).mulVec (vec n (zv zr zi)) = vec n (zv br bi) := by
  obtain ⟨E', e1, e2⟩ := fillE2_spec (n := n) (by omega) alpha beta A E
  unfold decomc at h
  rw [e1, Option.bind_some] at h
  obtain ⟨d', d1⟩ := dechc_defined (n := n) (by omega) E'.1 E'.2 ip
  rw [d1, Option.bind_some] at h
  injection h with h
  injection h with h
  subst h
  obtain ⟨o1, o2, o3⟩ := gehrd_orth hn hJ
  obtain ⟨Cr, c1, c2, c3⟩ := householder_spec hn A tau br true
  obtain ⟨Ci, c4, c5, c6⟩ := householder_spec hn A tau bi true
  obtain ⟨C, k1, k2⟩ := dechc_solhc_solves_partial (by omega) d1 hhit hr Cr Ci
  obtain ⟨zr, z1, z2, z3⟩ := householder_spec hn A tau C.1 false
  obtain ⟨zi, z4, z5, z6⟩ := householder_spec hn A tau C.2 false
  refine ⟨⟨zr, zi, Cr, Ci, C, c1, c4, k1, z1, z4⟩, ?_⟩
  rintro wr wi ⟨Dr, Di, D, q1, q2, q3, q4, q5⟩
  rw [c2 Dr q1, c5 Di q2, k1] at q3
  injection q3 with q3
  rw [← q3] at q4 q5
  rw [z2 wr q4, z5 wi q5]
  rw [if_neg (by decide), ← o1] at z3 z6
  rw [if_pos rfl, ← o1] at c3 c6
  have hz := map_mulVec_zv _ z3 z6
  have hc := map_mulVec_zv _ c3 c6
  rw [e2, hc] at k2
  have m1 : (Q n A tau).map (fun x : ℝ => (x : ℂ)) *
      (Q n A tau).transpose.map (fun x : ℝ => (x : ℂ)) = 1 := by
    rw [← map_mul_ofReal, o2, map_one_ofReal]
  have m2 : (Q n A tau).transpose.map (fun x : ℝ => (x : ℂ)) *
      (Q n A tau).map (fun x : ℝ => (x : ℂ)) = 1 := by
    rw [← map_mul_ofReal, o3, map_one_ofReal]
  rw [hz, hJ.eq, map_mul_ofReal, map_mul_ofReal, Matrix.mulVec_mulVec, Matrix.sub_mul,
    Matrix.mul_assoc, m2, Matrix.mul_one, Matrix.smul_mul, Matrix.one_mul]
  have : (⟨alpha, beta⟩ : ℂ) • (Q n A tau).map (fun x : ℝ => (x : ℂ)) -
      (Q n A tau).map (fun x : ℝ => (x : ℂ)) * (hess (mat n A)).map (fun x : ℝ => (x : ℂ)) =
      (Q n A tau).map (fun x : ℝ => (x : ℂ)) * ((⟨alpha, beta⟩ : ℂ) • 1 -
        (hess (mat n A)).map (fun x : ℝ => (x : ℂ))) := by
    rw [Matrix.mul_sub, Matrix.mul_smul, Matrix.mul_one]
  rw [this, ← Matrix.mulVec_mulVec, k2, Matrix.mulVec_mulVec, m1, Matrix.one_mulVec]

/-- C10 is violated: `decomc` on the (Hessenberg) Jacobian `[[1,-1],[1,1]]` and shift `1+i`, an
eigenvalue: the factorisation reports failure, no exception is raised. -/
theorem decomc_failure_not_reported :
    ∃ (Jac : ℤ → ℤ → ℝ) (d : StC), decomc 2 1 1 Jac (fun _ _ => 0, fun _ _ => 0) (fun _ => 0) =
      some (.ok d) ∧ d.ret ≠ 0 := by
  obtain ⟨E', e1, e2⟩ := fillE2_spec (n := 2) (by norm_num) 1 1
    (fun i j => if i = 1 ∧ j = 2 then -1 else 1) (fun _ _ => 0, fun _ _ => 0)
  have e11 := congrFun (congrFun e2 0) 0
  have e12 := congrFun (congrFun e2 0) 1
  have e21 := congrFun (congrFun e2 1) 0
  have e22 := congrFun (congrFun e2 1) 1
  rw [Matrix.sub_apply, Matrix.smul_apply, Matrix.one_apply, Matrix.map_apply] at e11 e12 e21 e22
  norm_num [hess, mat] at e11 e12 e21 e22
  have a11 : E'.1 1 1 = 0 := by have := congrArg Complex.re e11; simpa [Z] using this
  have b11 : E'.2 1 1 = 1 := by have := congrArg Complex.im e11; simpa [Z] using this
  have a12 : E'.1 1 2 = 1 := by have := congrArg Complex.re e12; simpa [Z] using this
  have b12 : E'.2 1 2 = 0 := by have := congrArg Complex.im e12; simpa [Z] using this
  have a21 : E'.1 2 1 = -1 := by have := congrArg Complex.re e21; simpa [Z] using this
  have b21 : E'.2 2 1 = 0 := by have := congrArg Complex.im e21; simpa [Z] using this
  have a22 : E'.1 2 2 = 0 := by have := congrArg Complex.re e22; simpa [Z] using this
  have b22 : E'.2 2 2 = 1 := by have := congrArg Complex.im e22; simpa [Z] using this
  have hp : pivotC E'.1 E'.2 1 = 1 := by
    unfold pivotC
    norm_num [a11, b11, a21, b21, ABS]
  have h0 : Z E'.1 E'.2 1 1 ≠ 0 := by
    intro h
    have := congrArg Complex.im h
    norm_num [Z, b11] at this
  obtain ⟨d, h, hip, z11, z12, z21, ar, ai, hret, hh⟩ := dechc_two (ip := fun _ => 0) hp h0
  have m : (-1 : ℂ) / Z E'.1 E'.2 1 1 = ⟨0, 1⟩ := by
    rw [div_eq_iff h0, Complex.ext_iff]
    norm_num [Z, a11, b11]
  rw [m] at z21
  have r21 : d.Ar 2 1 = 0 := by
    have := congrArg Complex.re z21
    norm_num [Z, a21, b21] at this
    exact this
  have i21 : d.Ai 2 1 = -1 := by
    have := congrArg Complex.im z21
    norm_num [Z, a21, b21] at this
    exact this
  have r22 : d.Ar 2 2 = 0 := by rw [ar, r21, i21]; norm_num [prr, a12, b12, a22]
  have i22 : d.Ai 2 2 = 0 := by rw [ai, r21, i21]; norm_num [pri, a12, b12, b22]
  refine ⟨fun i j => if i = 1 ∧ j = 2 then -1 else 1, d, ?_, ?_⟩
  · unfold decomc
    rw [show fillE2 2 1 1 (fun i j => if i = 1 ∧ j = 2 then -1 else 1)
      (fun _ _ => 0, fun _ _ => 0) = some E' from e1, Option.bind_some, h, Option.bind_some]
  · rw [hret, r22, i22, if_pos (by norm_num [ABS])]; norm_num

end Odes.Hess
