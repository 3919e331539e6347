import Verif.Lemmas.SdirklErr
import Mathlib.Analysis.Calculus.Deriv.Prod
import Mathlib.Data.Matrix.Mul
import Mathlib.Tactic.FinCases
import Mathlib.Tactic.IntervalCases
import Mathlib.Analysis.SpecialFunctions.ExpDeriv

/-!
# SDIRKL (C63 - C66, C82)
-/

namespace Odes.Sdirkl

open Matrix Finset Spec

variable {α : Type} [Field α] [DecidableEq α] {n : ℕ}

/-! ### C63: modes -/

/-- C63: the entry point of the other mode throws (and computes nothing). -/
theorem sdirkl_mode (o : Obj α n) (s : St α n) (x phi : ℕ) :
    (step1 o s x = none ↔ o.affine = true) ∧ (step2 o s x phi = none ↔ o.affine = false) := by
  constructor
  · unfold step1
    cases o.affine <;> simp
  · unfold step2
    cases o.affine <;> simp

/-! ### C64: the step -/

/-- what one call of `step` does: the result solves the triangular stage equations, and no array of
the user other than `x` is changed.  Any contents of the work arrays. -/
theorem sdirkl_step1 (o : Obj α n) (L : Matrix (Fin n) (Fin n) α) (hd : o.diag ≠ 0)
    (hL : Solves o L) (haff : o.affine = false) (s : St α n) (x : ℕ) (hx : o.rk.nstage + 2 ≤ x) :
    ∃ s', step1 o s x = some s' ∧
      IsZStep (full o) (fun i => o.rk.S i) (fun i => o.rk.D i) o.dt L 0 (s.hp x) (s'.hp x) ∧
      ∀ p, o.rk.nstage + 2 ≤ p → p ≠ x → s'.hp p = s.hp p := by
  unfold step1
  rw [haff, if_neg (by simp)]
  refine ⟨_, rfl, ?_, ?_⟩
  all_goals
    have I := loop_inv (o := o) (f := stage1 o) (I := Inv o s.hp x L 0)
      (s := { s with zcomb := upd s.zcomb 0 x })
      (fun k hk s I => stage1_inv hd hL hx hk I)
      ⟨by simp [upd], fun _ _ => rfl, fun i hi => by omega⟩ o.rk.nstage le_rfl
  · exact I.zstep hx
  · intro p hp hne
    show upd _ x _ p = _
    rw [upd_ne _ _ hne]
    exact I.frame p hp

@[inherit_doc sdirkl_step1]
theorem sdirkl_step2 (o : Obj α n) (L : Matrix (Fin n) (Fin n) α) (hd : o.diag ≠ 0)
    (hL : Solves o L) (haff : o.affine = true) (s : St α n) (x phi : ℕ)
    (hx : o.rk.nstage + 2 ≤ x) (hphi : o.rk.nstage + 2 ≤ phi) :
    ∃ s', step2 o s x phi = some s' ∧
      IsZStep (full o) (fun i => o.rk.S i) (fun i => o.rk.D i) o.dt L (s.hp phi) (s.hp x)
        (s'.hp x) ∧
      ∀ p, o.rk.nstage + 2 ≤ p → p ≠ x → s'.hp p = s.hp p := by
  unfold step2
  rw [haff, if_neg (by simp)]
  refine ⟨_, rfl, ?_, ?_⟩
  all_goals
    have I := loop_inv (o := o) (f := stage2 o phi) (I := Inv o s.hp x L (s.hp phi))
      (s := { s with zcomb := upd s.zcomb 0 x })
      (fun k hk s I => stage2_inv hd hL hx hphi hk I)
      ⟨by simp [upd], fun _ _ => rfl, fun i hi => by omega⟩ o.rk.nstage le_rfl
  · exact I.zstep hx
  · intro p hp hne
    show upd _ x _ p = _
    rw [upd_ne _ _ hne]
    exact I.frame p hp

theorem full_upper (o : Obj α n) (i j : Fin o.rk.nstage) (h : i < j) : full o i j = 0 := by
  unfold full
  rw [if_neg (by omega), if_neg (by intro e; subst e; exact lt_irrefl _ h)]

theorem full_diag (o : Obj α n) (i : Fin o.rk.nstage) : full o i i = o.diag := by
  simp [full]

theorem Solves.unit {o : Obj α n} {L : Matrix (Fin n) (Fin n) α} (h : Solves o L) :
    IsUnit (1 - (o.dt * o.diag) • L) :=
  Matrix.mulVec_surjective_iff_isUnit.1 fun w => ⟨_, h w⟩

/-- C64: **one call computes the step of the Runge-Kutta method `(A, b)`** for `u' = L u`, where
`A` has `A[0][0]` on the diagonal, when `S` contains the row sums and `D A = b`; the
Runge-Kutta step is unique. -/
theorem sdirkl_is_rk (o : Obj α n) (L : Matrix (Fin n) (Fin n) α) (hd : o.diag ≠ 0)
    (hL : Solves o L) (haff : o.affine = false) (b : Fin o.rk.nstage → α)
    (hS : ∀ i : Fin o.rk.nstage, o.rk.S i = ∑ j, full o i j)
    (hb : ∀ j, b j = ∑ i : Fin o.rk.nstage, o.rk.D i * full o i j)
    (s : St α n) (x : ℕ) (hx : o.rk.nstage + 2 ≤ x) :
    ∃ s', step1 o s x = some s' ∧ IsRKStep (full o) b o.dt L 0 (s.hp x) (s'.hp x) ∧
      ∀ u', IsRKStep (full o) b o.dt L 0 (s.hp x) u' → u' = s'.hp x := by
  obtain ⟨s', h1, h2, -⟩ := sdirkl_step1 o L hd hL haff s x hx
  have h3 := h2.rk (b := b) hS hb
  exact ⟨s', h1, h3, fun u' hu => hu.unique (full_upper o)
    (fun i => by rw [full_diag]; exact hL.unit) h3⟩

/-- C64: the affine entry point: `u' = L u + phi`. -/
theorem sdirkl_is_rk_affine (o : Obj α n) (L : Matrix (Fin n) (Fin n) α) (hd : o.diag ≠ 0)
    (hL : Solves o L) (haff : o.affine = true) (b : Fin o.rk.nstage → α)
    (hS : ∀ i : Fin o.rk.nstage, o.rk.S i = ∑ j, full o i j)
    (hb : ∀ j, b j = ∑ i : Fin o.rk.nstage, o.rk.D i * full o i j)
    (s : St α n) (x phi : ℕ) (hx : o.rk.nstage + 2 ≤ x) (hphi : o.rk.nstage + 2 ≤ phi) :
    ∃ s', step2 o s x phi = some s' ∧
      IsRKStep (full o) b o.dt L (s.hp phi) (s.hp x) (s'.hp x) ∧
      ∀ u', IsRKStep (full o) b o.dt L (s.hp phi) (s.hp x) u' → u' = s'.hp x := by
  obtain ⟨s', h1, h2, -⟩ := sdirkl_step2 o L hd hL haff s x phi hx hphi
  have h3 := h2.rk (b := b) hS hb
  exact ⟨s', h1, h3, fun u' hu => hu.unique (full_upper o)
    (fun i => by rw [full_diag]; exact hL.unit) h3⟩

/-! ### C66: linearity -/

/-- C66: superposition: whatever the work arrays contain, the results of the calls from `u`, `v` and
`a u + b v` are related as the arguments; in particular zero stays zero. -/
theorem sdirkl_linear (o : Obj α n) (L : Matrix (Fin n) (Fin n) α) (hd : o.diag ≠ 0)
    (hL : Solves o L) (s1 s2 s3 s1' s2' s3' : St α n) (x : ℕ) (hx : o.rk.nstage + 2 ≤ x)
    (a b : α) (hu : s3.hp x = a • s1.hp x + b • s2.hp x) (h1 : step1 o s1 x = some s1')
    (h2 : step1 o s2 x = some s2') (h3 : step1 o s3 x = some s3') :
    s3'.hp x = a • s1'.hp x + b • s2'.hp x := by
  have haff : o.affine = false := by
    by_contra h
    rw [((sdirkl_mode o s1 x 0).1.2 (by simpa using h))] at h1
    exact absurd h1 (by simp)
  obtain ⟨t1, e1, z1, -⟩ := sdirkl_step1 o L hd hL haff s1 x hx
  obtain ⟨t2, e2, z2, -⟩ := sdirkl_step1 o L hd hL haff s2 x hx
  obtain ⟨t3, e3, z3, -⟩ := sdirkl_step1 o L hd hL haff s3 x hx
  rw [h1] at e1; rw [h2] at e2; rw [h3] at e3
  obtain rfl := Option.some.inj e1
  obtain rfl := Option.some.inj e2
  obtain rfl := Option.some.inj e3
  rw [hu] at z3
  have := z1.comb a b z2
  rw [smul_zero, smul_zero, add_zero] at this
  exact z3.unique (full_upper o) (fun i => by rw [full_diag]; exact hL.unit) this

/-- C66, affine entry point: superposition of states and forcing terms. -/
theorem sdirkl_affine_linear (o : Obj α n) (L : Matrix (Fin n) (Fin n) α) (hd : o.diag ≠ 0)
    (hL : Solves o L) (s1 s2 s3 s1' s2' s3' : St α n) (x phi : ℕ) (hx : o.rk.nstage + 2 ≤ x)
    (hphi : o.rk.nstage + 2 ≤ phi)
    (a b : α) (hu : s3.hp x = a • s1.hp x + b • s2.hp x)
    (hg : s3.hp phi = a • s1.hp phi + b • s2.hp phi) (h1 : step2 o s1 x phi = some s1')
    (h2 : step2 o s2 x phi = some s2') (h3 : step2 o s3 x phi = some s3') :
    s3'.hp x = a • s1'.hp x + b • s2'.hp x := by
  have haff : o.affine = true := by
    by_contra h
    rw [((sdirkl_mode o s1 x phi).2.2 (by simpa using h))] at h1
    exact absurd h1 (by simp)
  obtain ⟨t1, e1, z1, -⟩ := sdirkl_step2 o L hd hL haff s1 x phi hx hphi
  obtain ⟨t2, e2, z2, -⟩ := sdirkl_step2 o L hd hL haff s2 x phi hx hphi
  obtain ⟨t3, e3, z3, -⟩ := sdirkl_step2 o L hd hL haff s3 x phi hx hphi
  rw [h1] at e1; rw [h2] at e2; rw [h3] at e3
  obtain rfl := Option.some.inj e1
  obtain rfl := Option.some.inj e2
  obtain rfl := Option.some.inj e3
  rw [hu, hg] at z3
  exact z3.unique (full_upper o) (fun i => by rw [full_diag]; exact hL.unit) (z1.comb a b z2)

/-! ### C65: the shipped methods -/

/-- order of a method on linear problems, up to `tol` in each coefficient: for every solution `y` of
`y' = L y + g`, the result of one call started at `y 0` differs from `y dt` by at most
`C dt^(p+1)`, plus `tol` times the terms of the Taylor expansion. -/
def HasOrder (m : Meth ℝ) (p : ℕ) (tol : ℝ) : Prop :=
  ∀ (n : ℕ) (L : Matrix (Fin n) (Fin n) ℝ) (g : Fin n → ℝ) (y : ℝ → Fin n → ℝ),
    (∀ t, HasDerivAt y (L *ᵥ y t + g) t) →
    ∃ C h0 : ℝ, 0 < h0 ∧ ∀ o : Obj ℝ n, o.rk = m → Solves o L → 0 ≤ o.dt → o.dt ≤ h0 →
      ∀ (s s' : St ℝ n) (x phi : ℕ), m.nstage + 2 ≤ x → m.nstage + 2 ≤ phi → s.hp x = y 0 →
      (g = 0 ∧ step1 o s x = some s' ∨ s.hp phi = g ∧ step2 o s x phi = some s') →
      ‖s'.hp x - y o.dt‖ ≤ C * o.dt ^ (p + 1)
        + ∑ k ∈ range p, tol * o.dt ^ (k + 1) * ‖(L ^ k) *ᵥ (L *ᵥ y 0 + g)‖

/-- the coefficients of a method as a full matrix. -/
noncomputable def fullM (m : Meth ℝ) (i j : Fin m.nstage) : ℝ :=
  if j < i then m.A i j else if j = i then m.A 0 0 else 0

/-- the expansion of a step agrees with that of the exponential. -/
def Accurate (m : Meth ℝ) (p : ℕ) (tol : ℝ) : Prop :=
  ∀ k < p, |weight (fullM m) (fun i => m.S i) (fun i => m.D i) k - 1 / (k + 1).factorial| ≤ tol

theorem hasOrder_of (m : Meth ℝ) (p : ℕ) (tol : ℝ) (h0 : m.A 0 0 ≠ 0) (hw : Accurate m p tol) :
    HasOrder m p tol := by
  intro n L g y hy
  obtain ⟨C1, h1, c1, hh, H1⟩ :=
    IsZStep.near (fullM m) (fun i => m.S i) (fun i => m.D i) L g (y 0) p
  obtain ⟨C2, c2, H2⟩ := sol_taylor hy p
  refine ⟨C1 + C2, min h1 1, lt_min hh one_pos, ?_⟩
  rintro o rfl hL hdt hdt2 s s' x phi hx hphi hs hc
  have z : IsZStep (full o) (fun i => o.rk.S i) (fun i => o.rk.D i) o.dt L g (y 0) (s'.hp x) := by
    rcases hc with ⟨rfl, hc⟩ | ⟨hg, hc⟩
    · have haff : o.affine = false := by
        by_contra h
        rw [((sdirkl_mode o s x 0).1.2 (by simpa using h))] at hc
        exact absurd hc (by simp)
      obtain ⟨t, e, z, -⟩ := sdirkl_step1 o L h0 hL haff s x hx
      rw [hc] at e
      obtain rfl := Option.some.inj e
      rwa [hs] at z
    · have haff : o.affine = true := by
        by_contra h
        rw [((sdirkl_mode o s x phi).2.2 (by simpa using h))] at hc
        exact absurd hc (by simp)
      obtain ⟨t, e, z, -⟩ := sdirkl_step2 o L h0 hL haff s x phi hx hphi
      rw [hc] at e
      obtain rfl := Option.some.inj e
      rwa [hs, hg] at z
  have e1 := H1 o.dt hdt (hdt2.trans (min_le_left _ _)) _ z
  have e2 := H2 o.dt hdt (hdt2.trans (min_le_right _ _))
  generalize hv : L *ᵥ y 0 + g = v at *
  set W := fun k => weight (fullM o.rk) (fun i => o.rk.S i) (fun i => o.rk.D i) k with hW
  have e3 : ‖(y 0 + ∑ k ∈ range p, (W k * o.dt ^ (k + 1)) • ((L ^ k) *ᵥ v))
      - (y 0 + ∑ k ∈ range p, ((1 / (k + 1).factorial : ℝ) * o.dt ^ (k + 1)) • ((L ^ k) *ᵥ v))‖
      ≤ ∑ k ∈ range p, tol * o.dt ^ (k + 1) * ‖(L ^ k) *ᵥ v‖ := by
    rw [add_sub_add_left_eq_sub, ← Finset.sum_sub_distrib]
    refine (norm_sum_le _ _).trans (Finset.sum_le_sum fun k hk => ?_)
    rw [← sub_smul, norm_smul, ← sub_mul, norm_mul, Real.norm_eq_abs, Real.norm_eq_abs,
      abs_of_nonneg (pow_nonneg hdt _)]
    exact mul_le_mul_of_nonneg_right (mul_le_mul_of_nonneg_right (hw k (Finset.mem_range.1 hk))
      (pow_nonneg hdt _)) (norm_nonneg _)
  have e4 := norm_sub_rev (y o.dt) (y 0 + ∑ k ∈ range p,
    ((1 / (k + 1).factorial : ℝ) * o.dt ^ (k + 1)) • ((L ^ k) *ᵥ v))
  rw [e4] at e2
  have e5 := norm_add₃_le (a := s'.hp x - (y 0 + ∑ k ∈ range p, (W k * o.dt ^ (k + 1)) • ((L ^ k) *ᵥ v)))
    (b := (y 0 + ∑ k ∈ range p, (W k * o.dt ^ (k + 1)) • ((L ^ k) *ᵥ v))
      - (y 0 + ∑ k ∈ range p, ((1 / (k + 1).factorial : ℝ) * o.dt ^ (k + 1)) • ((L ^ k) *ᵥ v)))
    (c := (y 0 + ∑ k ∈ range p, ((1 / (k + 1).factorial : ℝ) * o.dt ^ (k + 1)) • ((L ^ k) *ᵥ v))
      - y o.dt)
  have e6 : s'.hp x - y o.dt
    = s'.hp x - (y 0 + ∑ k ∈ range p, (W k * o.dt ^ (k + 1)) • ((L ^ k) *ᵥ v))
    + ((y 0 + ∑ k ∈ range p, (W k * o.dt ^ (k + 1)) • ((L ^ k) *ᵥ v))
      - (y 0 + ∑ k ∈ range p, ((1 / (k + 1).factorial : ℝ) * o.dt ^ (k + 1)) • ((L ^ k) *ᵥ v)))
    + ((y 0 + ∑ k ∈ range p, ((1 / (k + 1).factorial : ℝ) * o.dt ^ (k + 1)) • ((L ^ k) *ᵥ v))
      - y o.dt) := by abel
  rw [e6, add_mul]
  linarith

/-- the recursion of the coefficients without the zeros. -/
noncomputable def vN (m : Meth ℝ) : ℕ → ℕ → ℝ
  | 0, i => m.S i
  | k + 1, i => (∑ j ∈ range i, m.A i j * vN m k j) + m.A 0 0 * vN m k i

theorem fullM_sum (m : Meth ℝ) (i : Fin m.nstage) (f : ℕ → ℝ) :
    ∑ j, fullM m i j * f j = (∑ j ∈ range i, m.A i j * f j) + m.A 0 0 * f i := by
  have h := congrFun (full_sum (n := 1) ⟨m, 1, false, fun w => w⟩ i (fun j _ => f j)) 0
  simp only [Finset.sum_apply, Pi.add_apply, Pi.smul_apply, smul_eq_mul, Obj.diag] at h
  exact h

theorem powS_vN (m : Meth ℝ) : ∀ (k : ℕ) (i : Fin m.nstage),
    powS (fullM m) (fun i => m.S i) k i = vN m k i
  | 0, _ => rfl
  | k + 1, i => by
    rw [powS, vN, ← fullM_sum]
    exact Finset.sum_congr rfl fun j _ => by rw [powS_vN m k j]

theorem weight_vN (m : Meth ℝ) (k : ℕ) :
    weight (fullM m) (fun i => m.S i) (fun i => m.D i) k = ∑ i ∈ range m.nstage, m.D i * vN m k i := by
  rw [weight, Finset.sum_range]
  exact Finset.sum_congr rfl fun i _ => by rw [powS_vN]

theorem accurate_rkMethod1 : Accurate rkMethod1 4 1e-14 := by
  intro k hk
  rw [weight_vN, abs_le]
  interval_cases k <;>
    norm_num [vN, rkMethod1, Finset.sum_range_succ, Nat.factorial]

/-- C65: RKMethod1 has order four. -/
theorem sdirkl_order_rkMethod1 : HasOrder rkMethod1 4 1e-14 :=
  hasOrder_of _ _ _ (by norm_num [rkMethod1]) accurate_rkMethod1

theorem accurate_rkMethod2 : Accurate rkMethod2 4 1e-14 := by
  intro k hk
  rw [weight_vN, abs_le]
  interval_cases k <;>
    norm_num [vN, rkMethod2, Finset.sum_range_succ, Nat.factorial]

/-- C65: RKMethod2 has order four on linear problems. -/
theorem sdirkl_order_rkMethod2 : HasOrder rkMethod2 4 1e-14 :=
  hasOrder_of _ _ _ (by norm_num [rkMethod2]) accurate_rkMethod2

theorem accurate_rkRS : Accurate rkRS 2 1e-14 := by
  intro k hk
  rw [weight_vN, abs_le]
  interval_cases k <;>
    norm_num [vN, rkRS, Finset.sum_range_succ, Nat.factorial]

/-- C65: RKRS has order two. -/
theorem sdirkl_order_rkRS : HasOrder rkRS 2 1e-14 :=
  hasOrder_of _ _ _ (by norm_num [rkRS]) accurate_rkRS

theorem accurate_eulerImp : Accurate eulerImp 1 0 := by
  intro k hk
  rw [weight_vN]
  interval_cases k
  norm_num [vN, eulerImp, Finset.sum_range_succ]

/-- C65: the implicit Euler method has order one, exactly. -/
theorem sdirkl_order_eulerImp : HasOrder eulerImp 1 0 :=
  hasOrder_of _ _ _ (by norm_num [eulerImp]) accurate_eulerImp

/-- C65: the class CrN is not consistent: its step is `(1 - dt/2 L)⁻¹ u`, the implicit Euler step of
half the length. -/
theorem sdirkl_crN_is_half_euler (o : Obj ℝ n) (L : Matrix (Fin n) (Fin n) ℝ) (ho : o.rk = crN)
    (hL : Solves o L) (s s' : St ℝ n) (x : ℕ) (hx : 3 ≤ x) (h : step1 o s x = some s') :
    IsRKStep (s := 1) (fun _ _ => 1) (fun _ => 1) (o.dt / 2) L 0 (s.hp x) (s'.hp x) := by
  have haff : o.affine = false := by
    by_contra h'
    rw [((sdirkl_mode o s x 0).1.2 (by simpa using h'))] at h
    exact absurd h (by simp)
  have hdg : o.diag = 1 / 2 := by simp [Obj.diag, ho, crN]; norm_num
  have hns : o.rk.nstage = 1 := by rw [ho]; rfl
  obtain ⟨t, e, z, -⟩ := sdirkl_step1 o L (by rw [hdg]; norm_num) hL haff s x (by omega)
  rw [h] at e
  obtain rfl := Option.some.inj e
  obtain ⟨Z, hZ, hu⟩ := z
  have i0 : Fin o.rk.nstage := ⟨0, by omega⟩
  haveI : Unique (Fin o.rk.nstage) :=
    ⟨⟨⟨0, by omega⟩⟩, fun a => Fin.ext (by have := a.2; show a.1 = 0; omega)⟩
  have hZ0 := hZ default
  rw [Fintype.sum_unique, full_diag, hdg] at hZ0
  rw [Fintype.sum_unique] at hu
  have hS : ∀ k, o.rk.S k = 1 / 2 := by intro k; rw [ho]; simp [crN]; norm_num
  have hD : ∀ k, o.rk.D k = 1 := by intro k; rw [ho]; rfl
  beta_reduce at hZ0 hu
  rw [hS, smul_zero, add_zero] at hZ0
  rw [hD, one_smul] at hu
  have hZ1 : Z default = (o.dt / 2) • (L *ᵥ (s.hp x + Z default)) := by
    conv_lhs => rw [hZ0]
    rw [← smul_add, Matrix.mulVec_smul]
    module
  refine ⟨fun _ => L *ᵥ (s.hp x + Z default), fun i => ?_, ?_⟩
  · simp only [Finset.univ_unique, Finset.sum_singleton, one_smul, add_zero]
    rw [← hZ1]
  · simp only [Finset.univ_unique, Finset.sum_singleton, one_smul]
    rw [← hZ1, hu]

/-- C65: no tolerance below 1/2 makes it consistent. -/
theorem sdirkl_crN_not_consistent (tol : ℝ) (ht : tol < 1 / 2) : ¬ HasOrder crN 1 tol := by
  intro H
  have hy : ∀ t : ℝ, HasDerivAt (fun t (_ : Fin 1) => t)
      ((0 : Matrix (Fin 1) (Fin 1) ℝ) *ᵥ (fun _ => t) + fun _ => 1) t := by
    intro t
    rw [Matrix.zero_mulVec, zero_add]
    exact hasDerivAt_pi.2 fun _ => hasDerivAt_id t
  obtain ⟨C, h0, h0p, h⟩ := H 1 0 (fun _ => 1) (fun t _ => t) hy
  set d : ℝ := min h0 ((1 / 2 - tol) / (2 * (|C| + 1))) with hd
  have hC : 0 < 2 * (|C| + 1) := by positivity
  have dpos : 0 < d := lt_min h0p (div_pos (by linarith) hC)
  let o : Obj ℝ 1 := ⟨crN, d, true, fun w => w⟩
  let s : St ℝ 1 := ⟨fun p _ => if p = 4 then 1 else 0, fun _ => 0, fun _ => 0⟩
  have hL : Solves o 0 := by
    intro w
    simp [o]
  obtain ⟨s', e1, ⟨Z, hZ, hu⟩, -⟩ := sdirkl_step2 o 0
    (by show crN.A 0 0 ≠ 0; norm_num [crN]) hL rfl s 3 4 (le_refl 3) (Nat.le_succ 3)
  have h1 := h o rfl hL dpos.le (min_le_left _ _) s s' 3 4 (by decide) (by decide)
    (by funext i; simp [s]) (Or.inr ⟨by funext i; simp [s], e1⟩)
  have hres : s'.hp 3 = fun _ => d / 2 := by
    rw [hu]
    have hs3 : s.hp 3 = 0 := by funext i; simp [s]
    have hs4 : s.hp 4 = fun _ => 1 := by funext i; simp [s]
    have hZ0 : ∀ i, Z i = fun _ => d / 2 := by
      intro i
      rw [hZ i, Matrix.zero_mulVec, smul_zero, zero_add, hs4]
      funext k
      simp only [Pi.smul_apply, smul_eq_mul, mul_one]
      show d * crN.S i = d / 2
      norm_num [crN]
      ring
    rw [hs3, zero_add]
    show ∑ i : Fin 1, (1 : ℝ) • Z i = _
    rw [Fin.sum_univ_one, one_smul]
    exact hZ0 (0 : Fin 1)
  rw [hres] at h1
  have hl : ‖(fun _ : Fin 1 => d / 2) - fun _ => o.dt‖ = d / 2 := by
    have : ((fun _ : Fin 1 => d / 2) - fun _ => o.dt) = fun _ => -(d / 2) := by
      funext i; show d / 2 - d = _; ring
    rw [this, pi_norm_const, norm_neg, Real.norm_eq_abs, abs_of_pos (by linarith)]
  have hr : ‖(((0 : Matrix (Fin 1) (Fin 1) ℝ) ^ 0) *ᵥ ((0 : Matrix (Fin 1) (Fin 1) ℝ) *ᵥ
      (fun _ : Fin 1 => (0 : ℝ)) + fun _ => (1 : ℝ)))‖ = 1 := by
    rw [pow_zero, Matrix.one_mulVec, Matrix.zero_mulVec, zero_add, pi_norm_const]
    simp
  rw [hl, Finset.sum_range_one, hr] at h1
  have h2 : d / 2 ≤ C * d ^ 2 + tol * d := by
    have : o.dt = d := rfl
    rw [this] at h1
    simpa using h1
  have h3 : d * (2 * (|C| + 1)) ≤ 1 / 2 - tol := by
    rw [← le_div_iff₀ hC]; exact min_le_right _ _
  have h4 : C * d ≤ |C| * d := mul_le_mul_of_nonneg_right (le_abs_self C) dpos.le
  have h5 : 1 / 2 ≤ C * d + tol := by
    have : d * (1 / 2) ≤ d * (C * d + tol) := by linarith
    exact le_of_mul_le_mul_left this dpos
  nlinarith [abs_nonneg C]

/-- the hypotheses of `sdirkl_is_rk`: implicit Euler for `u' = - u`, any step length. -/
example (dt : ℝ) (h : 0 ≤ dt) (s : St ℝ 1) :
    let o : Obj ℝ 1 := ⟨eulerImp, dt, false, fun w => (1 / (1 + dt)) • w⟩
    ∃ s', step1 o s 3 = some s' ∧
      IsRKStep (full o) (fun _ => 1) dt (-1) 0 (s.hp 3) (s'.hp 3) := by
  intro o
  have hL : Solves o (-1) := by
    intro w
    have : o.dt * o.diag = dt := mul_one dt
    rw [this, smul_neg, sub_neg_eq_add, Matrix.add_mulVec, Matrix.smul_mulVec, Matrix.one_mulVec]
    show (1 / (1 + dt)) • w + dt • (1 / (1 + dt)) • w = w
    rw [smul_smul, ← add_smul]
    have : 1 / (1 + dt) + dt * (1 / (1 + dt)) = 1 := by
      have : (1 + dt) ≠ 0 := by linarith
      field_simp
    rw [this, one_smul]
  obtain ⟨s', h1, h2, -⟩ := sdirkl_is_rk o (-1) one_ne_zero hL rfl (fun _ => 1)
    (fun i => by
      have e : ∀ i j : Fin 1, full o i j = (1 : ℝ) := fun i j => by
        have : i = j := Subsingleton.elim _ _
        subst this
        exact full_diag o i
      exact (Eq.trans (Finset.sum_congr rfl fun j _ => e i j) (Fin.sum_univ_one fun _ => (1 : ℝ))).symm)
    (fun j => by
      have e : ∀ i j : Fin 1, (1 : ℝ) * full o i j = (1 : ℝ) := fun i j => by
        have : i = j := Subsingleton.elim _ _
        subst this
        exact (one_mul _).trans (full_diag o i)
      exact (Eq.trans (Finset.sum_congr rfl fun i _ => e i j) (Fin.sum_univ_one fun _ => (1 : ℝ))).symm)
    s 3 le_rfl
  exact ⟨s', h1, h2⟩

/-- the hypothesis of the order property: `exp (-t)` solves `y' = - y`. -/
example : ∀ t : ℝ, HasDerivAt (fun t (_ : Fin 1) => Real.exp (-t))
    ((-1 : Matrix (Fin 1) (Fin 1) ℝ) *ᵥ (fun _ => Real.exp (-t)) + 0) t := by
  intro t
  rw [add_zero, Matrix.neg_mulVec, Matrix.one_mulVec]
  refine hasDerivAt_pi.2 fun _ => ?_
  have := (hasDerivAt_neg t).exp
  simpa using this

end Odes.Sdirkl
