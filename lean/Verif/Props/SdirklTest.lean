import Verif.Props.SdirklConv
import Verif.Model.SdirklTest

/-!
# C102: the test program of SDIRKL
-/

namespace Odes.SdirklTest

open Finset Matrix Spec Sdirkl

variable {n : ℕ}

theorem pi_eq : pi = Real.pi := by
  rw [pi, Real.arctan_one]; ring

/-- sum against the row of a reflected second difference. -/
theorem lap1_mulVec (n : ℕ) (hn : 2 ≤ n) (f : ℤ → ℝ) (i : Fin n) :
    (lap1 n *ᵥ fun j : Fin n => f j) i
      = ((n : ℝ) - 1) ^ 2 * (f (mirror n (i - 1)) + f (mirror n (i + 1)) - 2 * f i) := by
  have hi := i.2
  have pick : ∀ k : ℤ, 0 ≤ k → k < n →
      ∑ j : Fin n, (if (j : ℤ) = k then 1 else 0) * f j = f k := by
    intro k h0 h1
    rw [Finset.sum_eq_single (⟨k.toNat, by omega⟩ : Fin n)]
    · have e : (((⟨k.toNat, by omega⟩ : Fin n) : ℕ) : ℤ) = k := by
        show ((k.toNat : ℕ) : ℤ) = k
        omega
      rw [e, if_pos rfl, one_mul]
    · intro j _ hj
      rw [if_neg, zero_mul]
      intro h
      exact hj (Fin.ext (by simp only; omega))
    · intro h; exact absurd (Finset.mem_univ _) h
  have m1 : 0 ≤ mirror n (i - 1) ∧ mirror n (i - 1) < n := by
    unfold mirror; split_ifs <;> omega
  have m2 : 0 ≤ mirror n (i + 1) ∧ mirror n (i + 1) < n := by
    unfold mirror; split_ifs <;> omega
  have e : ∀ j : Fin n, (lap1 n : Matrix (Fin n) (Fin n) ℝ) i j * f j
      = ((n : ℝ) - 1) ^ 2 * ((if (j : ℤ) = mirror n (i - 1) then 1 else 0) * f j
        + (if (j : ℤ) = mirror n (i + 1) then 1 else 0) * f j
        - 2 * ((if (j : ℤ) = (i : ℕ) then 1 else 0) * f j)) := by
    intro j
    have hij : (j = i) ↔ (j : ℤ) = (i : ℕ) := by rw [Fin.ext_iff]; omega
    unfold lap1
    simp only [hij]
    split_ifs <;> ring
  rw [Matrix.mulVec, dotProduct, Finset.sum_congr rfl fun j _ => e j, ← Finset.mul_sum,
    Finset.sum_sub_distrib, Finset.sum_add_distrib, ← Finset.mul_sum, pick _ m1.1 m1.2, pick _ m2.1 m2.2,
    pick _ (by omega) (by omega)]

/-- the initial value is an eigenvector of the operator of `Lapl1d`, `eigenvalue()` its eigenvalue. -/
theorem cinit_eigen (n : ℕ) (hn : 2 ≤ n) : lap1 n *ᵥ cinit n = eigenvalue n • cinit n := by
  have hn1 : (0 : ℝ) < (n : ℝ) - 1 := by
    have : (2 : ℝ) ≤ n := by exact_mod_cast hn
    linarith
  set θ := pi * l / ((n : ℝ) - 1) with hθ
  have hend : θ * ((n : ℝ) - 1) = (25 : ℕ) * Real.pi := by
    rw [hθ, div_mul_cancel₀ _ hn1.ne', pi_eq]
    show Real.pi * ((25 : ℕ) : ℝ) = _
    ring
  -- values outside
  have hm : ∀ k : ℤ, -1 ≤ k → k ≤ n → Real.cos (θ * (mirror n k : ℤ)) = Real.cos (θ * k) := by
    intro k _ h1
    unfold mirror
    split_ifs with h2 h3
    · push_cast; rw [mul_neg, Real.cos_neg]
    · have e : θ * ((2 * ((n : ℤ) - 1) - k : ℤ) : ℝ) = (25 : ℕ) * (2 * Real.pi) - θ * k := by
        push_cast
        push_cast at hend
        linear_combination 2 * hend
      rw [e, Real.cos_nat_mul_two_pi_sub]
    · rfl
  funext i
  have hi := i.2
  have h1 := lap1_mulVec n hn (fun k => Real.cos (θ * k)) i
  simp only [Int.cast_natCast] at h1
  rw [hm _ (by omega) (by omega), hm _ (by omega) (by omega)] at h1
  refine h1.trans ?_
  rw [Pi.smul_apply, smul_eq_mul, eigenvalue, ← hθ, h]
  show _ = _ * Real.cos (θ * i)
  have e1 : θ * (((i : ℕ) : ℤ) - 1 : ℤ) = θ * i - θ := by push_cast; ring
  have e2 : θ * (((i : ℕ) : ℤ) + 1 : ℤ) = θ * i + θ := by push_cast; ring
  rw [e1, e2, Real.cos_sub, Real.cos_add, one_div, ← mul_inv, div_inv_eq_mul]
  ring

theorem eigenvalue_neg (n : ℕ) (hn : 2 ≤ n) : eigenvalue n < 0 := by
  have hn1 : (0 : ℝ) < (n : ℝ) - 1 := by
    have : (2 : ℝ) ≤ n := by exact_mod_cast hn
    linarith
  have h1 : Real.cos (pi * l / ((n : ℝ) - 1)) ≠ 1 := by
    intro h
    obtain ⟨k, hk⟩ := (Real.cos_eq_one_iff _).1 h
    rw [pi_eq, eq_div_iff hn1.ne'] at hk
    have h2 : (k : ℝ) * (2 * ((n : ℝ) - 1)) = 25 := by
      have := Real.pi_ne_zero
      have e : Real.pi * ((k : ℝ) * (2 * ((n : ℝ) - 1))) = Real.pi * 25 := by
        have e2 : ((l : ℕ) : ℝ) = 25 := by norm_num [l]
        rw [e2] at hk
        linear_combination hk
      exact mul_left_cancel₀ this e
    have h3 : k * (2 * ((n : ℤ) - 1)) = 25 := by exact_mod_cast h2
    have : (2 : ℤ) ∣ 25 := ⟨k * ((n : ℤ) - 1), by rw [← h3]; ring⟩
    norm_num at this
  have h2 := Real.cos_le_one (pi * l / ((n : ℝ) - 1))
  have h3 : 0 < 1 - Real.cos (pi * l / ((n : ℝ) - 1)) := sub_pos.2 (lt_of_le_of_ne h2 h1)
  rw [eigenvalue, h]
  have : (0 : ℝ) < 1 / ((n : ℝ) - 1) * (1 / ((n : ℝ) - 1)) := by positivity
  exact div_neg_of_neg_of_pos (by linarith) this

/-- C102: **`exactsolAtt` is the exact solution** of the problem integrated by the test program: the
semi-discrete heat equation with the source `beta cinit`, started at `cinit`; no division by zero
occurs. -/
theorem sdirkltest_exact (n : ℕ) (hn : 2 ≤ n) (beta : ℝ) :
    eigenvalue n ≠ 0 ∧ exactsolAtt n 0 beta = cinit n ∧
    ∀ t, HasDerivAt (fun t => exactsolAtt n t beta)
      (lap1 n *ᵥ exactsolAtt n t beta + fun i => cinit n i * beta) t := by
  have hne := (eigenvalue_neg n hn).ne
  refine ⟨hne, ?_, fun t => ?_⟩
  · funext i
    simp [exactsolAtt]
  · have e : exactsolAtt n t beta
        = (Real.exp (eigenvalue n * t) * (1 + beta / eigenvalue n) - beta / eigenvalue n) • cinit n := by
      funext i
      simp only [exactsolAtt, Pi.smul_apply, smul_eq_mul]
      ring
    rw [e, Matrix.mulVec_smul, cinit_eigen n hn]
    refine hasDerivAt_pi.2 fun i => ?_
    simp only [exactsolAtt, Pi.add_apply, Pi.smul_apply, smul_eq_mul]
    have h1 : HasDerivAt (fun t => Real.exp (eigenvalue n * t))
        (Real.exp (eigenvalue n * t) * eigenvalue n) t := by
      have := ((hasDerivAt_id t).const_mul (eigenvalue n)).exp
      simpa using this
    have h2 := ((h1.mul_const (1 + beta / eigenvalue n)).sub_const (beta / eigenvalue n)).const_mul
      (cinit n i)
    refine h2.congr_deriv ?_
    field_simp
    ring

theorem normdiff_eq (x y : Fin n → ℝ) : normdiff x y = ∑ i, |x i - y i| := by
  rw [normdiff, Fin.sum_univ_def]
  have : ∀ (L : List (Fin n)) (a : ℝ), L.foldl (fun ret i => ret + |x i - y i|) a
      = a + (L.map fun i => |x i - y i|).sum := by
    intro L
    induction L with
    | nil => intro a; simp
    | cons b L ih => intro a; rw [List.foldl_cons, ih, List.map_cons, List.sum_cons]; ring
  rw [this, zero_add]

theorem loop_eq (o : Obj ℝ n) (x phi : ℕ) : ∀ k s, loop o x phi k s = calls2 o x phi k s
  | 0, _ => rfl
  | k + 1, s => by
    rw [loop, calls2]
    congr 1
    funext t
    exact loop_eq o x phi k t

theorem sum_abs_le (w v : Fin n → ℝ) (hw : ∀ i, 0 < w i) :
    ∑ i, |v i| ≤ √(∑ i, (w i)⁻¹) * wnorm w v := by
  have h := Finset.sum_mul_sq_le_sq_mul_sq Finset.univ (fun i => √(w i)⁻¹) (fun i => √(w i) * |v i|)
  have e1 : ∀ i, √(w i)⁻¹ * (√(w i) * |v i|) = |v i| := fun i => by
    rw [← mul_assoc, ← Real.sqrt_mul (inv_nonneg.2 (hw i).le), inv_mul_cancel₀ (hw i).ne',
      Real.sqrt_one, one_mul]
  have e2 : ∀ i, √(w i)⁻¹ ^ 2 = (w i)⁻¹ := fun i => Real.sq_sqrt (inv_nonneg.2 (hw i).le)
  have e3 : ∀ i, (√(w i) * |v i|) ^ 2 = w i * v i ^ 2 := fun i => by
    rw [mul_pow, Real.sq_sqrt (hw i).le, sq_abs]
  simp only [e1, e2, e3] at h
  have h0 : 0 ≤ ∑ i, (w i)⁻¹ := Finset.sum_nonneg fun i _ => inv_nonneg.2 (hw i).le
  rw [wnorm, ← Real.sqrt_mul h0]
  exact Real.le_sqrt_of_sq_le h

theorem trap_sum (n : ℕ) (hn : 2 ≤ n) :
    ∑ i, trap n i = (n : ℝ) - 1 ∧ ∑ i, (trap n i)⁻¹ = (n : ℝ) + 2 := by
  obtain ⟨m, rfl⟩ : ∃ m, n = m + 1 + 1 := ⟨n - 2, by omega⟩
  have h1 : ∀ i : Fin m, trap (m + 1 + 1) i.castSucc.succ = 1 := fun i => by
    unfold trap
    rw [if_neg]
    have := i.2
    simp only [Fin.val_succ, Fin.val_castSucc]
    omega
  have h0 : trap (m + 1 + 1) 0 = 1 / 2 := by simp [trap]
  have h2 : trap (m + 1 + 1) (Fin.last m).succ = 1 / 2 := by simp [trap]
  constructor <;> rw [Fin.sum_univ_succ, Fin.sum_univ_castSucc] <;> simp only [h0, h1, h2] <;>
    push_cast <;> simp <;> ring

/-- the derivatives of the exact solution. -/
theorem exact_deriv (n : ℕ) (hn : 2 ≤ n) (beta t : ℝ) (ht : 0 ≤ t) (k : ℕ) :
    ‖(lap1 n ^ k) *ᵥ (lap1 n *ᵥ exactsolAtt n t beta + fun i => cinit n i * beta)‖
      ≤ |eigenvalue n| ^ k * |eigenvalue n + beta| := by
  have hneg := eigenvalue_neg n hn
  have e : lap1 n *ᵥ exactsolAtt n t beta + (fun i => cinit n i * beta)
      = (Real.exp (eigenvalue n * t) * (eigenvalue n + beta)) • cinit n := by
    have e : exactsolAtt n t beta
        = (Real.exp (eigenvalue n * t) * (1 + beta / eigenvalue n) - beta / eigenvalue n) • cinit n := by
      funext i
      simp only [exactsolAtt, Pi.smul_apply, smul_eq_mul]
      ring
    rw [e, Matrix.mulVec_smul, cinit_eigen n hn]
    funext i
    simp only [Pi.add_apply, Pi.smul_apply, smul_eq_mul]
    have := hneg.ne
    field_simp
    ring
  have hpow : ∀ k, (lap1 n ^ k) *ᵥ cinit n = eigenvalue n ^ k • cinit n := by
    intro k
    induction k with
    | zero => simp
    | succ k ih =>
      rw [pow_succ, ← Matrix.mulVec_mulVec, cinit_eigen n hn, Matrix.mulVec_smul, ih, smul_smul, pow_succ,
        mul_comm]
  have hc : ‖cinit n‖ ≤ 1 := (pi_norm_le_iff_of_nonneg zero_le_one).2 fun i => by
    rw [Real.norm_eq_abs]; exact Real.abs_cos_le_one _
  rw [e, Matrix.mulVec_smul, hpow, norm_smul, norm_smul, norm_mul, norm_pow, Real.norm_eq_abs,
    Real.norm_eq_abs, Real.norm_eq_abs, Real.abs_exp]
  have h1 : Real.exp (eigenvalue n * t) ≤ 1 := Real.exp_le_one_iff.2 (by nlinarith)
  calc _ ≤ 1 * |eigenvalue n + beta| * (|eigenvalue n| ^ k * 1) := by gcongr
    _ = _ := by ring

/-- C102: **the numbers written by the test program**: for a method of order `p` on linear problems,
with `np` steps of length `Tinteg/np`, `np` large enough, every turn of the loop succeeds, and the
number written is at most `C (Tinteg/np)^p` plus the contribution of the decimals of the
coefficients.  Any size, interval, source; any contents of the uninitialised arrays. -/
theorem sdirkltest_turn {m : Meth ℝ} {p : ℕ} {tol : ℝ} (hp : 0 < p) (hm : Shipped m)
    (hw : Accurate m p tol) (n : ℕ) (hn : 2 ≤ n) (T beta : ℝ) (hT : 0 ≤ T) :
    ∃ (C : ℝ) (np0 : ℕ), ∀ np, np0 ≤ np → ∀ app : (Fin n → ℝ) → Fin n → ℝ,
      (∀ v, (1 - (T / np * m.A 0 0) • lap1 n) *ᵥ app v = v) →
      ∀ x force, m.nstage + 2 ≤ x → m.nstage + 2 ≤ force → force ≠ x → ∀ s : St ℝ n,
      ∃ d, turn m app T beta np x force s = some d ∧
        d ≤ C * (T / np) ^ p + tol * T * √(((n : ℝ) + 2) * (n - 1)) * |eigenvalue n + beta|
          * ∑ j ∈ range p, (|eigenvalue n| * (T / np)) ^ j := by
  obtain ⟨-, h0, hy⟩ := sdirkltest_exact n hn beta
  have hD := lap1_dissipative n hn
  obtain ⟨C, h1, hh, H⟩ := convergesDiss_of hp hm hw n (lap1 n) (fun i => cinit n i * beta) _ hy
    (trap n) hD T hT (fun k => |eigenvalue n| ^ k * |eigenvalue n + beta|)
    (fun k _ t ht _ => exact_deriv n hn beta t ht k)
  obtain ⟨N, hN⟩ := exists_nat_gt (T / h1)
  have hn0 : (0 : ℝ) ≤ (n : ℝ) + 2 := by positivity
  refine ⟨√((n : ℝ) + 2) * C, N + 1, fun np hnp app happ x force hx hforce hne s => ?_⟩
  have hnp0 : (0 : ℝ) < np := by
    have : 0 < np := by omega
    exact_mod_cast this
  have hdt : T / np ≤ h1 := by
    rw [div_le_iff₀ hnp0]
    rw [div_lt_iff₀ hh] at hN
    have : (N : ℝ) ≤ np := by exact_mod_cast (by omega : N ≤ np)
    nlinarith
  have F := H ⟨m, T / np, true, app⟩ rfl happ (div_nonneg hT hnp0.le) hdt
    { s with hp := upd (upd s.hp x (cinit n)) force (fun i => cinit n i * beta) } x force hx hforce hne
    (by
      show (if x = force then _ else if x = x then cinit n else _) = _
      rw [if_neg hne.symm, if_pos rfl]
      exact h0.symm) np (by
        show (np : ℝ) * (T / np) ≤ T
        rw [mul_div_cancel₀ _ hnp0.ne'])
  obtain ⟨s', h2, h3⟩ := F.2 rfl (by
    show (if force = force then _ else _) = _
    rw [if_pos rfl])
  refine ⟨normdiff (s'.hp x) (exactsolAtt n T beta), ?_, ?_⟩
  · unfold turn
    simp only [loop_eq]
    rw [h2]
    rfl
  · have e : (np : ℝ) * (T / np) = T := mul_div_cancel₀ _ hnp0.ne'
    simp only [e] at h3
    rw [normdiff_eq]
    have h4 := sum_abs_le (trap n) (s'.hp x - exactsolAtt n T beta) hD.1
    rw [(trap_sum n hn).2] at h4
    rw [(trap_sum n hn).1] at h3
    refine h4.trans ((mul_le_mul_of_nonneg_left h3 (Real.sqrt_nonneg _)).trans (le_of_eq ?_))
    rw [Real.sqrt_mul hn0, mul_add, Finset.mul_sum, Finset.mul_sum, Finset.mul_sum]
    congr 1
    · ring
    · refine Finset.sum_congr rfl fun j _ => ?_
      rw [mul_pow]
      ring

/-- C102 for `main` as shipped: RKMethod2, `n = 1000`, `Tinteg = 0.01`, `beta = 1`; the turn with
index `l` uses `2^l` steps. -/
theorem sdirkltest_main : ∃ (C : ℝ) (l0 : ℕ), ∀ l, l0 ≤ l → ∀ app : (Fin 1000 → ℝ) → Fin 1000 → ℝ,
      (∀ v, (1 - (0.01 / ((2 ^ l : ℕ) : ℝ) * rkMethod2.A 0 0) • lap1 1000) *ᵥ app v = v) →
      ∀ x force, rkMethod2.nstage + 2 ≤ x → rkMethod2.nstage + 2 ≤ force → force ≠ x → ∀ s : St ℝ 1000,
      ∃ d, turn rkMethod2 app 0.01 1 (2 ^ l) x force s = some d ∧
        d ≤ C * (0.01 / ((2 ^ l : ℕ) : ℝ)) ^ 4
          + 1e-14 * 0.01 * √(1002 * 999) * |eigenvalue 1000 + 1|
          * ∑ j ∈ range 4, (|eigenvalue 1000| * (0.01 / ((2 ^ l : ℕ) : ℝ))) ^ j := by
  obtain ⟨C, N, H⟩ := sdirkltest_turn (by norm_num) (m := rkMethod2) (by simp [Shipped])
    accurate_rkMethod2 1000 (by norm_num) 0.01 1 (by norm_num)
  refine ⟨C, N, fun l hl app happ x force hx hf hne s => ?_⟩
  obtain ⟨d, h1, h2⟩ := H (2 ^ l) (hl.trans Nat.lt_two_pow_self.le) app happ x force hx hf hne s
  refine ⟨d, h1, ?_⟩
  have e : (((1000 : ℕ) : ℝ) + 2) * (((1000 : ℕ) : ℝ) - 1) = 1002 * 999 := by norm_num
  rwa [e] at h2

/-- the hypothesis on `apply` can be met. -/
example (l : ℕ) : ∃ app : (Fin 1000 → ℝ) → Fin 1000 → ℝ,
    ∀ v, (1 - (0.01 / ((2 ^ l : ℕ) : ℝ) * rkMethod2.A 0 0) • lap1 1000) *ᵥ app v = v := by
  have h := (lap1_dissipative 1000 (by norm_num)).unit
    (mul_nonneg (by positivity : (0 : ℝ) ≤ 0.01 / ((2 ^ l : ℕ) : ℝ))
      (Shipped.diag (m := rkMethod2) (by simp [Shipped])).le)
  exact ⟨fun w => (1 - (0.01 / ((2 ^ l : ℕ) : ℝ) * rkMethod2.A 0 0) • lap1 1000)⁻¹ *ᵥ w, fun w => by
    rw [Matrix.mulVec_mulVec, Matrix.mul_nonsing_inv _ ((Matrix.isUnit_iff_isUnit_det _).1 h),
      Matrix.one_mulVec]⟩

end Odes.SdirklTest
