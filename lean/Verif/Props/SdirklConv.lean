import Verif.Props.SdirklStable
import Verif.Lemmas.SdirklConv
import Mathlib.Analysis.InnerProductSpace.PiL2

/-!
# C101: SDIRKL converges

Errors after any number of calls of `step`, over a whole time interval.  The decimals of the shipped
coefficients leave a term that does not tend to 0 with the step: it is given explicitly.
-/

namespace Odes.Sdirkl

open Finset Matrix Spec

variable {n : ℕ}

/-- the values seen by the caller after 0, 1, 2, … calls of `step(x)`. -/
theorem chain1 (o : Obj ℝ n) (L : Matrix (Fin n) (Fin n) ℝ) (hd : o.diag ≠ 0) (hL : Solves o L)
    (haff : o.affine = false) (x : ℕ) (hx : o.rk.nstage + 2 ≤ x) (s : St ℝ n) :
    ∃ u : ℕ → Fin n → ℝ, u 0 = s.hp x ∧
      (∀ k, IsZStep (full o) (fun i => o.rk.S i) (fun i => o.rk.D i) o.dt L 0 (u k) (u (k + 1))) ∧
      ∀ k, ∃ s', calls1 o x k s = some s' ∧ s'.hp x = u k := by
  choose f hf using fun s => sdirkl_step1 o L hd hL haff s x hx
  have h1 : ∀ k j, calls1 o x k (f^[j] s) = some (f^[j + k] s) := by
    intro k
    induction k with
    | zero => intro j; rfl
    | succ k ih =>
      intro j
      rw [calls1, (hf _).1, Option.bind_some, ← Function.iterate_succ_apply' f j s, ih]
      congr 2; omega
  refine ⟨fun k => (f^[k] s).hp x, rfl, fun k => ?_, fun k => ⟨_, ?_, rfl⟩⟩
  · simp only [Function.iterate_succ_apply']
    exact (hf _).2.1
  · simpa using h1 k 0

/-- the same for `step(x,phi)`. -/
theorem chain2 (o : Obj ℝ n) (L : Matrix (Fin n) (Fin n) ℝ) (hd : o.diag ≠ 0) (hL : Solves o L)
    (haff : o.affine = true) (x phi : ℕ) (hx : o.rk.nstage + 2 ≤ x) (hphi : o.rk.nstage + 2 ≤ phi)
    (hne : phi ≠ x) (s : St ℝ n) :
    ∃ u : ℕ → Fin n → ℝ, u 0 = s.hp x ∧
      (∀ k, IsZStep (full o) (fun i => o.rk.S i) (fun i => o.rk.D i) o.dt L (s.hp phi) (u k)
        (u (k + 1))) ∧
      ∀ k, ∃ s', calls2 o x phi k s = some s' ∧ s'.hp x = u k := by
  choose f hf using fun s => sdirkl_step2 o L hd hL haff s x phi hx hphi
  have h1 : ∀ k j, calls2 o x phi k (f^[j] s) = some (f^[j + k] s) := by
    intro k
    induction k with
    | zero => intro j; rfl
    | succ k ih =>
      intro j
      rw [calls2, (hf _).1, Option.bind_some, ← Function.iterate_succ_apply' f j s, ih]
      congr 2; omega
  have h2 : ∀ k, (f^[k] s).hp phi = s.hp phi := by
    intro k
    induction k with
    | zero => rfl
    | succ k ih => rw [Function.iterate_succ_apply', (hf _).2.2 phi hphi hne, ih]
  refine ⟨fun k => (f^[k] s).hp x, rfl, fun k => ?_, fun k => ⟨_, ?_, rfl⟩⟩
  · simp only [Function.iterate_succ_apply']
    have := (hf (f^[k] s)).2.1
    rwa [h2] at this
  · simpa using h1 k 0

/-- all the calls of either `step` started at `y 0` succeed and after `k` of them, `k dt ≤ T`, the
distance `N` to the solution at time `k dt` is at most `E`. -/
def Follows (o : Obj ℝ n) (g : Fin n → ℝ) (y : ℝ → Fin n → ℝ) (T : ℝ) (N : (Fin n → ℝ) → ℝ)
    (E : ℝ) : Prop :=
  ∀ (s : St ℝ n) (x phi : ℕ), o.rk.nstage + 2 ≤ x → o.rk.nstage + 2 ≤ phi → phi ≠ x → s.hp x = y 0 →
    ∀ k : ℕ, k * o.dt ≤ T →
    (o.affine = false → g = 0 → ∃ s', calls1 o x k s = some s' ∧ N (s'.hp x - y (k * o.dt)) ≤ E) ∧
    (o.affine = true → s.hp phi = g →
      ∃ s', calls2 o x phi k s = some s' ∧ N (s'.hp x - y (k * o.dt)) ≤ E)

theorem follows_of {o : Obj ℝ n} {L : Matrix (Fin n) (Fin n) ℝ} (hd : o.diag ≠ 0) (hL : Solves o L)
    {g : Fin n → ℝ} {y : ℝ → Fin n → ℝ} {T : ℝ} {N : (Fin n → ℝ) → ℝ} {E : ℝ}
    (H : ∀ u : ℕ → Fin n → ℝ, u 0 = y 0 →
      (∀ v, ∃ v', IsZStep (full o) (fun i => o.rk.S i) (fun i => o.rk.D i) o.dt L g v v') →
      (∀ k, IsZStep (full o) (fun i => o.rk.S i) (fun i => o.rk.D i) o.dt L g (u k) (u (k + 1))) →
      ∀ k : ℕ, k * o.dt ≤ T → N (u k - y (k * o.dt)) ≤ E) : Follows o g y T N E := by
  intro s x phi hx hphi hne hs k hk
  constructor
  · rintro haff rfl
    obtain ⟨u, h0, hz, hu⟩ := chain1 o L hd hL haff x hx s
    obtain ⟨s', h1, h2⟩ := hu k
    refine ⟨s', h1, h2 ▸ H u (h0.trans hs) (fun v => ?_) hz k hk⟩
    obtain ⟨t, -, h, -⟩ := sdirkl_step1 o L hd hL haff { s with hp := fun _ => v } x hx
    exact ⟨_, h⟩
  · rintro haff rfl
    obtain ⟨u, h0, hz, hu⟩ := chain2 o L hd hL haff x phi hx hphi hne s
    obtain ⟨s', h1, h2⟩ := hu k
    refine ⟨s', h1, h2 ▸ H u (h0.trans hs) (fun v => ?_) hz k hk⟩
    obtain ⟨t, -, h, -⟩ := sdirkl_step2 o L hd hL haff
      { s with hp := fun i => if i = phi then s.hp phi else v } x phi hx hphi
    simp only [if_true, if_neg (Ne.symm hne)] at h
    exact ⟨_, h⟩

/-- convergence with order `p` on every linear problem `y' = L y + g`, up to the error `tol` of
the coefficients.  `K` bounds the operator, `M k` the `k+1`-th derivative of the solution. -/
def Converges (m : Meth ℝ) (p : ℕ) (tol : ℝ) : Prop :=
  ∀ (n : ℕ) (L : Matrix (Fin n) (Fin n) ℝ) (g : Fin n → ℝ) (y : ℝ → Fin n → ℝ),
    (∀ t, HasDerivAt y (L *ᵥ y t + g) t) →
    ∀ K Q T : ℝ, (∀ v : Fin n → ℝ, ‖L *ᵥ v‖ ≤ K * ‖v‖) → (1 + tol) * K < Q → 0 ≤ Q → 0 ≤ T →
    ∀ M : ℕ → ℝ, (∀ k < p, ∀ t, 0 ≤ t → t ≤ T → ‖(L ^ k) *ᵥ (L *ᵥ y t + g)‖ ≤ M k) →
    ∃ C h0 : ℝ, 0 < h0 ∧ ∀ o : Obj ℝ n, o.rk = m → Solves o L → 0 ≤ o.dt → o.dt ≤ h0 →
      Follows o g y T (fun v => ‖v‖)
        (C * o.dt ^ p + tol * T * Real.exp (Q * T) * ∑ j ∈ range p, o.dt ^ j * M j)

/-- the weighted Euclidean norm. -/
noncomputable def wnorm (w v : Fin n → ℝ) : ℝ := √(∑ i, w i * v i ^ 2)

/-- convergence on dissipative problems: the constants do not grow with the operator. -/
def ConvergesDiss (m : Meth ℝ) (p : ℕ) (tol : ℝ) : Prop :=
  ∀ (n : ℕ) (L : Matrix (Fin n) (Fin n) ℝ) (g : Fin n → ℝ) (y : ℝ → Fin n → ℝ),
    (∀ t, HasDerivAt y (L *ᵥ y t + g) t) →
    ∀ w : Fin n → ℝ, Dissipative w L → ∀ T, 0 ≤ T →
    ∀ M : ℕ → ℝ, (∀ k < p, ∀ t, 0 ≤ t → t ≤ T → ‖(L ^ k) *ᵥ (L *ᵥ y t + g)‖ ≤ M k) →
    ∃ C h0 : ℝ, 0 < h0 ∧ ∀ o : Obj ℝ n, o.rk = m → Solves o L → 0 ≤ o.dt → o.dt ≤ h0 →
      Follows o g y T (wnorm w)
        (C * o.dt ^ p + tol * T * √(∑ i, w i) * ∑ j ∈ range p, o.dt ^ j * M j)

theorem converges_of {m : Meth ℝ} {p : ℕ} {tol : ℝ} (hp : 0 < p) (h0 : m.A 0 0 ≠ 0)
    (hw : Accurate m p tol) : Converges m p tol := by
  intro n L g y hy K Q T hK hQ hQ0 hT M hM
  have ht : 0 ≤ tol := (abs_nonneg _).trans (hw 0 hp)
  have hw0 := hw 0 hp
  simp only [zero_add, Nat.factorial_one, Nat.cast_one, div_one] at hw0
  rcases isEmpty_or_nonempty (Fin n) with he | ⟨⟨i0⟩⟩
  · -- no component at all
    refine ⟨0, 1, one_pos, fun o ho hL hdt hdt2 => ?_⟩
    have hM0 : ∀ j < p, 0 ≤ M j := fun j hj => (norm_nonneg _).trans (hM j hj 0 le_rfl hT)
    refine follows_of (L := L) (by rw [Obj.diag, ho]; exact h0) hL fun u _ _ _ k _ => ?_
    have e : u k - y (k * o.dt) = 0 := funext fun i => he.elim i
    show ‖u k - y (k * o.dt)‖ ≤ _
    rw [e, norm_zero, zero_mul, zero_add]
    have : 0 ≤ ∑ j ∈ range p, o.dt ^ j * M j := Finset.sum_nonneg fun j hj =>
      mul_nonneg (pow_nonneg hdt _) (hM0 j (Finset.mem_range.1 hj))
    positivity
  have hK0 : 0 ≤ K := by
    have := (norm_nonneg _).trans (hK fun _ => 1)
    have e : ‖(fun _ => 1 : Fin n → ℝ)‖ = 1 := by
      rw [show (fun _ => 1 : Fin n → ℝ) = 1 from rfl]
      haveI : Nonempty (Fin n) := ⟨i0⟩
      exact norm_one
    rwa [e, mul_one] at this
  have hwQ : |weight (fullM m) (fun i => m.S i) (fun i => m.D i) 0| * K < Q := by
    refine lt_of_le_of_lt (mul_le_mul_of_nonneg_right ?_ hK0) hQ
    have := abs_add_le (weight (fullM m) (fun i => m.S i) (fun i => m.D i) 0 - 1) 1
    rw [sub_add_cancel, abs_one] at this
    linarith
  obtain ⟨h1, hh1, hgrow⟩ := IsZStep.lipschitz (fullM m) (fun i => m.S i) (fun i => m.D i) L hK hwQ
  obtain ⟨C, h2, hC, hh2, H⟩ := IsZStep.converge hy ht hw (fun v => ‖v‖) (by simp) norm_add_le
    zero_le_one (fun a => by simp) hQ0 hh1 hgrow hT hM
  refine ⟨C, h2, hh2, ?_⟩
  rintro o rfl hL hdt hdt2
  refine follows_of (L := L) h0 hL fun u hu hex hz k hk => ?_
  have := H o.dt hdt hdt2 u hu hex hz k hk
  rwa [mul_one] at this

theorem wnorm_add (w : Fin n → ℝ) (hw : ∀ i, 0 < w i) (a b : Fin n → ℝ) :
    wnorm w (a + b) ≤ wnorm w a + wnorm w b := by
  let f : (Fin n → ℝ) → EuclideanSpace ℝ (Fin n) := fun v => WithLp.toLp 2 fun i => √(w i) * v i
  have h : ∀ v, wnorm w v = ‖f v‖ := by
    intro v
    rw [EuclideanSpace.norm_eq, wnorm]
    congr 1
    refine Finset.sum_congr rfl fun i _ => ?_
    simp only [f, Real.norm_eq_abs, sq_abs]
    rw [mul_pow, Real.sq_sqrt (hw i).le]
  have e : f (a + b) = f a + f b := by
    ext i
    simp only [f, PiLp.add_apply, Pi.add_apply]
    ring
  rw [h, h, h, e]
  exact norm_add_le _ _

theorem wnorm_le (w : Fin n → ℝ) (hw : ∀ i, 0 < w i) (a : Fin n → ℝ) :
    wnorm w a ≤ √(∑ i, w i) * ‖a‖ := by
  have h0 : 0 ≤ ∑ i, w i := Finset.sum_nonneg fun i _ => (hw i).le
  rw [wnorm]
  refine Real.sqrt_le_iff.2 ⟨by positivity, ?_⟩
  rw [mul_pow, Real.sq_sqrt h0, Finset.sum_mul]
  refine Finset.sum_le_sum fun i _ => mul_le_mul_of_nonneg_left ?_ (hw i).le
  have := norm_le_pi_norm a i
  rw [Real.norm_eq_abs] at this
  rw [← sq_abs]
  exact pow_le_pow_left₀ (abs_nonneg _) this 2

theorem convergesDiss_of {m : Meth ℝ} {p : ℕ} {tol : ℝ} (hp : 0 < p) (hm : Shipped m)
    (hw : Accurate m p tol) : ConvergesDiss m p tol := by
  intro n L g y hy w hL T hT M hM
  have ht : 0 ≤ tol := (abs_nonneg _).trans (hw 0 hp)
  obtain ⟨C, h2, hC, hh2, H⟩ := IsZStep.converge (h1 := 1) hy ht hw (wnorm w) (by simp [wnorm])
    (wnorm_add w hL.1) (Real.sqrt_nonneg _) (wnorm_le w hL.1) le_rfl one_pos
    (fun v v' dt hdt _ hz => by
      rw [zero_mul, add_zero, one_mul]
      exact Real.sqrt_le_sqrt (IsZStep.energy hm.stable hdt w hL.1 hL.2.1 hL.2.2 hz)) hT hM
  refine ⟨C, h2, hh2, ?_⟩
  rintro o rfl hLo hdt hdt2
  refine follows_of (L := L) hm.diag.ne' hLo fun u hu hex hz k hk => ?_
  have := H o.dt hdt hdt2 u hu hex hz k hk
  rwa [zero_mul, Real.exp_zero, mul_one] at this

/-- C101: **RKMethod1, RKMethod2 converge with order 4, RKRS with order 2, EulerImp with order 1**, on
every linear problem. -/
theorem sdirkl_converges : Converges rkMethod1 4 1e-14 ∧ Converges rkMethod2 4 1e-14 ∧
    Converges rkRS 2 1e-14 ∧ Converges eulerImp 1 0 :=
  ⟨converges_of (by norm_num) (by norm_num [rkMethod1]) accurate_rkMethod1,
    converges_of (by norm_num) (by norm_num [rkMethod2]) accurate_rkMethod2,
    converges_of (by norm_num) (by norm_num [rkRS]) accurate_rkRS,
    converges_of (by norm_num) (by norm_num [eulerImp]) accurate_eulerImp⟩

/-- C101, on dissipative problems. -/
theorem sdirkl_converges_dissipative : ConvergesDiss rkMethod1 4 1e-14 ∧ ConvergesDiss rkMethod2 4 1e-14 ∧
    ConvergesDiss rkRS 2 1e-14 ∧ ConvergesDiss eulerImp 1 0 :=
  ⟨convergesDiss_of (by norm_num) (by simp [Shipped]) accurate_rkMethod1,
    convergesDiss_of (by norm_num) (by simp [Shipped]) accurate_rkMethod2,
    convergesDiss_of (by norm_num) (by simp [Shipped]) accurate_rkRS,
    convergesDiss_of (by norm_num) (by simp [Shipped]) accurate_eulerImp⟩

/-- C101: CrN does not converge: on `y' = 1` the result after `k` calls is `k dt / 2`, whatever the
step. -/
theorem sdirkl_crN_diverges (o : Obj ℝ 1) (ho : o.rk = crN) (haff : o.affine = true)
    (hap : ∀ v, o.apply v = v) (s : St ℝ 1) (x phi : ℕ) (hx : 3 ≤ x) (hphi : 3 ≤ phi) (hne : phi ≠ x)
    (hs : s.hp x = 0) (hg : s.hp phi = fun _ => 1) (k : ℕ) :
    ∃ s', calls2 o x phi k s = some s' ∧ s'.hp x = fun _ => k * o.dt / 2 := by
  have hL : Solves o 0 := fun v => by rw [smul_zero, sub_zero, Matrix.one_mulVec, hap]
  obtain ⟨u, h0, hz, hu⟩ := chain2 o 0 (by rw [Obj.diag, ho]; norm_num [crN]) hL haff x phi
    (by rw [ho]; exact hx) (by rw [ho]; exact hphi) hne s
  have key : ∀ k : ℕ, u k = fun _ => k * o.dt / 2 := by
    intro k
    induction k with
    | zero => rw [h0, hs]; funext i; simp
    | succ k ih =>
      obtain ⟨Z, hZ, hu'⟩ := hz k
      obtain ⟨rk, dt, aff, ap⟩ := o
      obtain rfl : rk = crN := ho
      have h1 : ∀ i, Z i = fun _ => dt * (0.5 : ℝ) := by
        intro i
        rw [hZ i, Matrix.zero_mulVec, smul_zero, zero_add, hg]
        funext j
        simp [crN]
      rw [hu', ih]
      funext j
      rw [Pi.add_apply, Finset.sum_apply]
      simp only [h1, Pi.smul_apply, smul_eq_mul]
      show _ + ∑ i : Fin 1, (1 : ℝ) * (dt * 0.5) = _
      rw [Fin.sum_univ_one]
      push_cast
      ring
  obtain ⟨s', h1, h2⟩ := hu k
  exact ⟨s', h1, h2.trans (key k)⟩

/-- an instance of the hypotheses: `y' = -y`, `y 0 = 1`. -/
example : ∃ C h0 : ℝ, 0 < h0 ∧ ∀ dt, 0 ≤ dt → dt ≤ h0 →
    Follows ⟨eulerImp, dt, false, fun v => (1 / (1 + dt)) • v⟩ 0 (fun t (_ : Fin 1) => Real.exp (-t)) 1
      (fun v => ‖v‖) (C * dt) := by
  have hy : ∀ t : ℝ, HasDerivAt (fun t (_ : Fin 1) => Real.exp (-t))
      ((-1 : Matrix (Fin 1) (Fin 1) ℝ) *ᵥ (fun _ => Real.exp (-t)) + 0) t := by
    intro t
    rw [Matrix.neg_mulVec, Matrix.one_mulVec, add_zero]
    refine hasDerivAt_pi.2 fun _ => ?_
    have := (hasDerivAt_neg t).exp
    rw [mul_neg_one] at this
    exact this
  obtain ⟨C, h0, hh, H⟩ := sdirkl_converges.2.2.2 1 (-1) 0 _ hy 1 2 1
    (fun v => by rw [Matrix.neg_mulVec, Matrix.one_mulVec, norm_neg, one_mul]) (by norm_num)
    (by norm_num) zero_le_one (fun _ => 1) (by
      intro k hk t ht _
      obtain rfl : k = 0 := by omega
      rw [pow_zero, Matrix.one_mulVec, Matrix.neg_mulVec, Matrix.one_mulVec, add_zero, norm_neg]
      refine (pi_norm_le_iff_of_nonneg zero_le_one).2 fun i => ?_
      rw [Real.norm_eq_abs, Real.abs_exp]
      exact Real.exp_le_one_iff.2 (by linarith))
  refine ⟨C, h0, hh, fun dt h1 h2 => ?_⟩
  have := H ⟨eulerImp, dt, false, fun v => (1 / (1 + dt)) • v⟩ rfl (by
    intro v
    have e : (1 : Matrix (Fin 1) (Fin 1) ℝ) - (dt * 1) • (-1) = (1 + dt) • 1 := by
      rw [mul_one, smul_neg, sub_neg_eq_add, add_smul, one_smul]
    show ((1 : Matrix (Fin 1) (Fin 1) ℝ) - (dt * 1) • (-1)) *ᵥ ((1 / (1 + dt)) • v) = v
    rw [e, Matrix.smul_mulVec, Matrix.one_mulVec, smul_smul, mul_one_div, div_self (by linarith),
      one_smul]) h1 h2
  simpa using this

end Odes.Sdirkl
