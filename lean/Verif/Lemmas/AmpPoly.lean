import Verif.Lemmas.Rock4StabTab
import Mathlib.Algebra.Polynomial.Eval.Coeff
import Mathlib.Algebra.Polynomial.Coeff
import Mathlib.Algebra.Polynomial.Eval.Degree
import Mathlib.Algebra.Polynomial.Roots

/-!
# The amplification factor as a polynomial

`amp R z = 1 + z psi(z)`.  The step for `y' = A y + b` is, in the direction of a left eigenvector,
`x + h psi(h lambda) x'`; the coefficients of `psi` are not negative, and the first four are the
weights of the tall trees.
-/

namespace Odes

open Polynomial StabCheck
open Spec

/-- `g_j = 1 + z chi_j(z)`. -/
noncomputable def chi (mu kap : ℕ → ℝ) : ℕ → ℝ[X]
  | 0 => 0
  | 1 => C (mu 1)
  | (j + 2) => C (mu (j + 2)) * (1 + Polynomial.X * chi mu kap (j + 1))
      + C (1 + kap (j + 2)) * chi mu kap (j + 1) - C (kap (j + 2)) * chi mu kap j

/-- the slopes of the four stages. -/
noncomputable def slope1 (R : Gen.Formula ℝ) : ℝ[X] := 1 + Polynomial.X * chi R.mu R.kap R.deg
@[inherit_doc slope1]
noncomputable def slope2 (R : Gen.Formula ℝ) : ℝ[X] :=
  1 + Polynomial.X * (chi R.mu R.kap R.deg + C R.a21 * slope1 R)
@[inherit_doc slope1]
noncomputable def slope3 (R : Gen.Formula ℝ) : ℝ[X] :=
  1 + Polynomial.X * (chi R.mu R.kap R.deg + C R.a31 * slope1 R + C R.a32 * slope2 R)
@[inherit_doc slope1]
noncomputable def slope4 (R : Gen.Formula ℝ) : ℝ[X] :=
  1 + Polynomial.X * (chi R.mu R.kap R.deg + C R.a41 * slope1 R + C R.a42 * slope2 R
    + C R.a43 * slope3 R)

/-- the increment of a step for `x' = z x`, `x = 1`, divided by `z`. -/
noncomputable def psi (R : Gen.Formula ℝ) : ℝ[X] :=
  chi R.mu R.kap R.deg + C (R.b 0) * slope1 R + C (R.b 1) * slope2 R + C (R.b 2) * slope3 R
    + C (R.b 3) * slope4 R

/-- a left eigenvector sees the scalar equation, with a constant term too. -/
theorem step_mode {n : ℕ} (R : Gen.Formula ℝ) (A : Matrix (Fin n) (Fin n) ℝ) (b : Fin n → ℝ)
    (φ : (Fin n → ℝ) →ₗ[ℝ] ℝ) {lam : ℝ} (hφ : ∀ v, φ (A.mulVec v) = lam * φ v) (h : ℝ)
    (y : Fin n → ℝ) :
    φ (Gen.step R (fun v => A.mulVec v + b) h y)
      = φ y + h * (psi R).eval (h * lam) * φ (A.mulVec y + b) := by
  have e1 : ∀ (g u : Fin n → ℝ) (c : ℝ), (fun i => g i + c * u i) = g + c • u := fun _ _ _ => rfl
  have e2 : ∀ (g u v : Fin n → ℝ) (c d : ℝ), (fun i => g i + c * u i + d * v i)
      = g + c • u + d • v := fun _ _ _ _ _ => rfl
  have e3 : ∀ (g u v w : Fin n → ℝ) (c d e : ℝ), (fun i => g i + c * u i + d * v i + e * w i)
      = g + c • u + d • v + e • w := fun _ _ _ _ _ _ _ => rfl
  have e4 : ∀ (g u v w x : Fin n → ℝ) (c d e f : ℝ),
      (fun i => g i + c * u i + d * v i + e * w i + f * x i)
      = g + c • u + d • v + e • w + f • x := fun _ _ _ _ _ _ _ _ _ => rfl
  have e5 : ∀ (u v w : Fin n → ℝ) (c d e : ℝ), (fun i => c * u i + d * v i - e * w i)
      = c • u + d • v - e • w := fun _ _ _ _ _ _ => rfl
  have hF : ∀ v, φ (A.mulVec v + b) = lam * φ v + φ b := fun v => by rw [map_add, hφ]
  have hg : ∀ j, φ (Gen.gRec (fun v => A.mulVec v + b) R.mu R.kap h y j)
      = φ y + h * (chi R.mu R.kap j).eval (h * lam) * (lam * φ y + φ b) := by
    intro j
    induction j using Nat.strong_induction_on with
    | _ j ih =>
      match j, ih with
      | 0, _ => simp [Gen.gRec, chi]
      | 1, _ =>
        rw [Gen.gRec, e1, map_add, map_smul, hF, smul_eq_mul, chi, eval_C]
      | j + 2, ih =>
        rw [Gen.gRec, e5, map_sub, map_add, map_smul, map_smul, map_smul, hF, smul_eq_mul, smul_eq_mul,
          smul_eq_mul, ih (j + 1) (by omega), ih j (by omega), chi]
        simp only [eval_add, eval_sub, eval_mul, eval_C, eval_X, eval_one]
        ring
  rw [hF]
  unfold Gen.step Gen.finishing
  simp only [e1, e2, e3, e4, map_add, map_smul, hφ, smul_eq_mul, hg, psi, slope1, slope2, slope3,
    slope4, eval_add, eval_mul, eval_C, eval_X, eval_one]
  ring

theorem amp_psi (R : Gen.Formula ℝ) (z : ℝ) : amp R z = 1 + z * (psi R).eval z := by
  have h := step_mode R (n := 1) (Matrix.diagonal fun _ => z) 0 (LinearMap.proj 0) (lam := z)
    (fun v => by simp [Matrix.mulVec_diagonal]) 1 (fun _ => 1)
  have e : (fun v : Fin 1 → ℝ => (Matrix.diagonal fun _ => z).mulVec v + 0)
      = fun (v : Fin 1 → ℝ) i => z * v i := by
    funext v i; simp [Matrix.mulVec_diagonal]
  rw [e] at h
  have h' : amp R z = 1 + 1 * (psi R).eval (1 * z) * (z * 1 + 0) := by
    have e2 : (Matrix.diagonal fun _ => z).mulVec (fun _ : Fin 1 => (1 : ℝ)) + 0 = fun _ => z * 1 + 0 := by
      funext i; simp [Matrix.mulVec_diagonal]
    rw [e2] at h
    exact h
  rw [h', one_mul, one_mul]; ring

/-! ### the first coefficients -/

theorem coeff_chi (mu kap : ℕ → ℝ) : ∀ j,
    (chi mu kap j).coeff 0 = (wRec mu kap j).t1 ∧ (chi mu kap j).coeff 1 = (wRec mu kap j).t2 ∧
    (chi mu kap j).coeff 2 = (wRec mu kap j).t4 ∧ (chi mu kap j).coeff 3 = (wRec mu kap j).t8
  | 0 => by simp [chi, wRec, W8.zero]
  | 1 => by simp [chi, wRec, W8.zero, W8.app, W8.smul, coeff_C]
  | (j + 2) => by
    obtain ⟨a1, a2, a3, a4⟩ := coeff_chi mu kap (j + 1)
    obtain ⟨b1, b2, b3, b4⟩ := coeff_chi mu kap j
    have hX : ∀ (p : ℝ[X]) (k : ℕ), (Polynomial.X * p).coeff (k + 1) = p.coeff k := fun p k =>
      coeff_X_mul p k
    refine ⟨?_, ?_, ?_, ?_⟩ <;>
      simp only [chi, wRec, W8.app, W8.smul, W8.add, coeff_add, coeff_sub, coeff_C_mul, coeff_one,
        mul_coeff_zero, coeff_X_zero, coeff_X_mul, a1, a2, a3, a4, b1, b2, b3, b4] <;>
      simp [hX, a1, a2, a3] <;> ring

theorem coeff_psi (R : Gen.Formula ℝ) :
    (psi R).coeff 0 = (wStep R).t1 ∧ (psi R).coeff 1 = (wStep R).t2 ∧
    (psi R).coeff 2 = (wStep R).t4 ∧ (psi R).coeff 3 = (wStep R).t8 := by
  obtain ⟨a1, a2, a3, a4⟩ := coeff_chi R.mu R.kap R.deg
  have h0 : ∀ p : ℝ[X], (1 + Polynomial.X * p).coeff 0 = 1 := fun p => by
    rw [coeff_add, coeff_one_zero, mul_coeff_zero, coeff_X_zero, zero_mul, add_zero]
  have h1 : ∀ (p : ℝ[X]) (k : ℕ), (1 + Polynomial.X * p).coeff (k + 1) = p.coeff k := fun p k => by
    rw [coeff_add, coeff_X_mul, coeff_one, if_neg (by omega), zero_add]
  have s10 : (slope1 R).coeff 0 = 1 := h0 _
  have s20 : (slope2 R).coeff 0 = 1 := h0 _
  have s30 : (slope3 R).coeff 0 = 1 := h0 _
  have s40 : (slope4 R).coeff 0 = 1 := h0 _
  have s1 : ∀ k, (slope1 R).coeff (k + 1) = (chi R.mu R.kap R.deg).coeff k := h1 _
  have s2 : ∀ k, (slope2 R).coeff (k + 1) = (chi R.mu R.kap R.deg).coeff k
      + R.a21 * (slope1 R).coeff k := fun k => by
    rw [slope2, h1, coeff_add, coeff_C_mul]
  have s3 : ∀ k, (slope3 R).coeff (k + 1) = (chi R.mu R.kap R.deg).coeff k
      + R.a31 * (slope1 R).coeff k + R.a32 * (slope2 R).coeff k := fun k => by
    rw [slope3, h1, coeff_add, coeff_add, coeff_C_mul, coeff_C_mul]
  have s4 : ∀ k, (slope4 R).coeff (k + 1) = (chi R.mu R.kap R.deg).coeff k
      + R.a41 * (slope1 R).coeff k + R.a42 * (slope2 R).coeff k + R.a43 * (slope3 R).coeff k :=
    fun k => by rw [slope4, h1, coeff_add, coeff_add, coeff_add, coeff_C_mul, coeff_C_mul, coeff_C_mul]
  have hp : ∀ k, (psi R).coeff k = (chi R.mu R.kap R.deg).coeff k + R.b 0 * (slope1 R).coeff k
      + R.b 1 * (slope2 R).coeff k + R.b 2 * (slope3 R).coeff k + R.b 3 * (slope4 R).coeff k :=
    fun k => by
      rw [psi, coeff_add, coeff_add, coeff_add, coeff_add, coeff_C_mul, coeff_C_mul, coeff_C_mul,
        coeff_C_mul]
  have s11 := s1 0
  have s12 := s1 1
  have s13 := s1 2
  have s21 := s2 0
  have s22 := s2 1
  have s23 := s2 2
  have s31 := s3 0
  have s32 := s3 1
  have s33 := s3 2
  have s41 := s4 0
  have s42 := s4 1
  have s43 := s4 2
  simp only [Nat.reduceAdd] at s11 s12 s13 s21 s22 s23 s31 s32 s33 s41 s42 s43
  refine ⟨?_, ?_, ?_, ?_⟩
  · rw [hp, s10, s20, s30, s40, a1]
    simp only [wStep, wArg, W8.app, W8.smul, W8.add]
  · rw [hp, s11, s21, s31, s41, s10, s20, s30, a1, a2]
    simp only [wStep, wArg, W8.app, W8.smul, W8.add]
  · rw [hp, s12, s22, s32, s42, s11, s21, s31, s10, s20, a1, a2, a3]
    simp only [wStep, wArg, W8.app, W8.smul, W8.add]
  · rw [hp, s13, s23, s33, s43, s12, s22, s32, s11, s21, s10, a1, a2, a3, a4]
    simp only [wStep, wArg, W8.app, W8.smul, W8.add]

/-! ### the sign of the coefficients -/

/-- `c_0 + c_1 X + ...` -/
noncomputable def polp : List ℕ → ℝ[X]
  | [] => 0
  | c :: l => C (c : ℝ) + Polynomial.X * polp l

theorem eval_polp (t : ℝ) : ∀ l, (polp l).eval (-t) = ev t l
  | [] => by simp [polp, ev]
  | c :: l => by
    rw [polp, eval_add, eval_mul, eval_C, eval_X, eval_polp t l, ev]; ring

theorem polp_coeff : ∀ l k, 0 ≤ (polp l).coeff k
  | [], k => by simp [polp]
  | c :: l, 0 => by simp [polp]
  | c :: l, k + 1 => by
    rw [polp, coeff_add, coeff_X_mul, coeff_C, if_neg (by omega), zero_add]
    exact polp_coeff l k

/-- the coefficients of the amplification factor of a tabulated formula are not negative. -/
theorem Row.psi_nonneg {R : Gen.Formula ℝ} {m : ℕ} {l : List ℤ} {a b : ℕ → ℤ} (r : Row R m l a b)
    {L β : ℕ} {pts : List ℕ} (h : formulaStable Rock4Check.scale19 1000 m l a b L β pts = true) (k : ℕ) :
    0 ≤ (psi R).coeff k := by
  rw [formulaStable_eq] at h
  obtain ⟨c, c0, c1, c2, c3, c4, h0, -, hc, -, hw⟩ := formG_coefs scale19_pos r.hm l a b pts R.mu R.kap
    r.h1 r.h2 r.a1 r.a2 r.a3 r.a4 r.a5 r.a6 r.b1 r.b2 r.b3 r.b4 h
  have hE : (0 : ℝ) < (Rock4Check.scale19 : ℕ) := by exact_mod_cast scale19_pos
  have hc0 : (0 : ℝ) < c0 := by exact_mod_cast h0
  have key : 1 + Polynomial.X * psi R = C (1 / ((Rock4Check.scale19 : ℕ) : ℝ) ^ m / c0) *
      (polp c * polp [c0, c1, c2, c3, c4]) := by
    refine Polynomial.funext fun z => ?_
    have e : z = - -z := by ring
    rw [eval_add, eval_mul, eval_X, eval_one, ← amp_psi]
    rw [e, amp_eq, r.deg, eval_mul, eval_mul, eval_C, eval_polp, eval_polp, hc]
    have e2 : ev (-z) [c0, c1, c2, c3, c4] = wv c0 c1 c2 c3 c4 (-z) := by
      simp only [ev, wv]; ring
    rw [e2, hw]
    field_simp
  have h1 := congrArg (fun p => coeff p (k + 1)) key
  simp only [coeff_add, coeff_X_mul, coeff_one, coeff_C_mul] at h1
  rw [if_neg (by omega), zero_add] at h1
  rw [h1]
  refine mul_nonneg (by positivity) ?_
  rw [coeff_mul]
  exact Finset.sum_nonneg fun p _ => mul_nonneg (polp_coeff _ _) (polp_coeff _ _)

end Odes
