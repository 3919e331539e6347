import Verif.Spec.Elem
import Verif.Spec.PolyField
import Mathlib.Algebra.Polynomial.Derivation
import Mathlib.Algebra.Algebra.Subalgebra.Lattice
import Mathlib.Algebra.MvPolynomial.PDeriv
import Mathlib.Algebra.BigOperators.Field
import Mathlib.LinearAlgebra.Lagrange
import Mathlib.RingTheory.Adjoin.Polynomial.Basic
import Mathlib.Tactic.LinearCombination
import Mathlib.Tactic.Module

/-!
# Collocation methods over a commutative algebra

`k_i = P(y0 + ε Σ a_ij k_j)`: the value `y0 + ε Σ b_j k_j` differs from the truncated Taylor series of the solution by
a multiple of `ε^(s+σ+1)`, `s` stages, nodal polynomial orthogonal to degrees less than `σ`.
-/

namespace Odes.Colloc

open Polynomial Odes.Spec

noncomputable section

variable {A : Type} [CommRing A] [Algebra ℝ A]

/-! ### polynomials whose coefficients are divisible by powers of `ε` -/

/-- coefficient `m` is divisible by `ε^(min m r)`. -/
def gr (ε : A) (r : ℕ) : Subalgebra A A[X] where
  carrier := {g | ∀ m, ε ^ min m r ∣ g.coeff m}
  mul_mem' := by
    intro a b ha hb m
    rw [coeff_mul]
    refine Finset.dvd_sum fun p hp => ?_
    have e := Finset.mem_antidiagonal.1 hp
    refine (pow_dvd_pow ε (show min m r ≤ min p.1 r + min p.2 r by omega)).trans ?_
    rw [pow_add]
    exact mul_dvd_mul (ha _) (hb _)
  add_mem' := fun ha hb m => by rw [coeff_add]; exact dvd_add (ha m) (hb m)
  algebraMap_mem' := by
    intro x m
    rw [Polynomial.algebraMap_eq, coeff_C]
    split_ifs with h
    · subst h; simp
    · exact dvd_zero _

theorem gr_C (ε : A) (r : ℕ) (a : A) : C a ∈ gr ε r := by
  intro m
  rw [coeff_C]
  split_ifs with h
  · subst h; simp
  · exact dvd_zero _

theorem gr_eps (ε : A) (r : ℕ) : C ε * (1 - X) ∈ gr ε r := by
  intro m
  rw [mul_sub, mul_one, coeff_sub, coeff_C, coeff_C_mul, coeff_X]
  rcases m with _ | _ | m
  · simp
  · simp only [zero_add, if_true, one_ne_zero, if_false, zero_sub, mul_one, dvd_neg]
    refine (pow_dvd_pow ε (show min 1 r ≤ 1 by omega)).trans (by rw [pow_one])
  · simp

theorem gr_aeval {ε : A} {r : ℕ} {n : ℕ} {u : Fin n → A[X]} (hu : ∀ i, u i ∈ gr ε r) (p : MvPolynomial (Fin n) A) :
    MvPolynomial.aeval u p ∈ gr ε r := by
  have h : MvPolynomial.aeval u p ∈ Algebra.adjoin A (Set.range u) := by
    rw [Algebra.adjoin_range_eq_range_aeval]
    exact ⟨p, rfl⟩
  refine (Algebra.adjoin_le ?_ : Algebra.adjoin A (Set.range u) ≤ gr ε r) h
  rintro _ ⟨i, rfl⟩
  exact hu i

/-! ### the integral from 0 to 1 -/

/-- integral over `[0,1]`. -/
def J : A[X] →ₗ[A] A := Polynomial.lsum fun m => (1 / ((m : ℝ) + 1)) • LinearMap.id

theorem J_monomial (m : ℕ) (a : A) : J (monomial m a) = (1 / ((m : ℝ) + 1)) • a := by
  rw [J, lsum_apply, sum_monomial_index]
  · rfl
  · simp

theorem J_derivative (g : A[X]) : J (derivative g) = g.eval 1 - g.eval 0 := by
  induction g using Polynomial.induction_on' with
  | add p q hp hq => rw [derivative_add, map_add, hp, hq, eval_add, eval_add]; ring
  | monomial m a =>
    rw [derivative_monomial, J_monomial, eval_monomial, eval_monomial, one_pow, mul_one]
    cases m with
    | zero => simp
    | succ k =>
      have e : a * ((k + 1 : ℕ) : A) = ((k : ℝ) + 1) • a := by
        rw [Algebra.smul_def, mul_comm]
        simp
      rw [e, Nat.add_sub_cancel, smul_smul, one_div, inv_mul_cancel₀ (by positivity), one_smul]
      simp

/-! ### chain rule -/

theorem derivative_aeval {n : ℕ} (u : Fin n → A[X]) (p : MvPolynomial (Fin n) A) :
    derivative (MvPolynomial.aeval u p)
      = ∑ j, MvPolynomial.aeval u (MvPolynomial.pderiv j p) * derivative (u j) := by
  induction p using MvPolynomial.induction_on with
  | C r =>
    simp only [MvPolynomial.pderiv_C, map_zero, zero_mul, Finset.sum_const_zero, MvPolynomial.algHom_C]
    rw [Polynomial.algebraMap_eq, derivative_C]
  | add p q hp hq =>
    simp only [map_add, hp, hq, add_mul, Finset.sum_add_distrib]
  | mul_X p i hp =>
    have t : ∀ j, MvPolynomial.aeval u (MvPolynomial.pderiv j (p * MvPolynomial.X i)) * derivative (u j)
        = MvPolynomial.aeval u (MvPolynomial.pderiv j p) * derivative (u j) * u i
          + (if i = j then MvPolynomial.aeval u p * derivative (u j) else 0) := by
      intro j
      rw [MvPolynomial.pderiv_mul, map_add, map_mul, map_mul, MvPolynomial.aeval_X]
      by_cases h : i = j
      · subst h
        rw [MvPolynomial.pderiv_X_self, map_one, if_pos rfl]
        ring
      · rw [MvPolynomial.pderiv_X_of_ne h, map_zero, if_neg h]
        ring
    rw [Finset.sum_congr rfl fun j _ => t j, Finset.sum_add_distrib, Finset.sum_ite_eq, if_pos (Finset.mem_univ _),
      ← Finset.sum_mul, ← hp, map_mul, derivative_mul, MvPolynomial.aeval_X]

/-! ### the data of a method -/

variable {s : ℕ}

/-- interpolation at the nodes `c`, `ℓ` the Lagrange polynomials. -/
def interp (c : Fin s → ℝ) (l : Fin s → ℝ[X]) (g : A[X]) : A[X] :=
  ∑ i, C (g.eval (algebraMap ℝ A (c i))) * (l i).map (algebraMap ℝ A)

/-- what is needed: `L i` primitives of `l i`; interpolation and integration do not raise the degree by more than one;
`X^m` minus its interpolation polynomial is orthogonal to `X^l` for `l + m < N`. -/
structure Data (c : Fin s → ℝ) (l L : Fin s → ℝ[X]) (N : ℕ) : Prop where
  zero : ∀ i, (L i).coeff 0 = 0
  deriv : ∀ i, derivative (L i) = l i
  low : ∀ m k, m + 1 < k → ∑ i, c i ^ m * (L i).coeff k = 0
  orth : ∀ p m, p + m < N → J (X ^ p * (X ^ m - ∑ i, C (c i ^ m) * l i) : ℝ[X]) = 0

variable {c : Fin s → ℝ} {l L : Fin s → ℝ[X]} {N : ℕ}

theorem interp_add (g h : A[X]) : interp c l (g + h) = interp c l g + interp c l h := by
  unfold interp
  rw [← Finset.sum_add_distrib]
  refine Finset.sum_congr rfl fun i _ => ?_
  rw [eval_add, C_add, add_mul]

theorem J_map (q : ℝ[X]) : J (q.map (algebraMap ℝ A)) = algebraMap ℝ A (J q) := by
  induction q using Polynomial.induction_on' with
  | add p q hp hq => rw [Polynomial.map_add, map_add, map_add, hp, hq, map_add]
  | monomial m a =>
    rw [map_monomial, J_monomial, J_monomial, smul_eq_mul, map_mul, Algebra.smul_def]

theorem J_orth_monomial (H : Data c l L N) {ε : A} {p m : ℕ} {a b : A} (ha : ε ^ min p N ∣ a) (hb : ε ^ min m N ∣ b) :
    ε ^ N ∣ J (monomial p a * (monomial m b - interp c l (monomial m b))) := by
  have e : monomial p a * (monomial m b - interp c l (monomial m b))
      = C (a * b) * ((X ^ p * (X ^ m - ∑ i, C (c i ^ m) * l i) : ℝ[X]).map (algebraMap ℝ A)) := by
    unfold interp
    simp only [← C_mul_X_pow_eq_monomial, eval_mul, eval_C, eval_pow, eval_X, Polynomial.map_mul, Polynomial.map_sub,
      Polynomial.map_pow, Polynomial.map_X, Polynomial.map_sum, Polynomial.map_C, C_mul, map_pow]
    have : ∑ i, C b * C (algebraMap ℝ A (c i)) ^ m * (l i).map (algebraMap ℝ A)
        = C b * ∑ i, C (algebraMap ℝ A (c i)) ^ m * (l i).map (algebraMap ℝ A) := by
      rw [Finset.mul_sum]
      exact Finset.sum_congr rfl fun i _ => by ring
    rw [this]
    ring
  rw [e, ← smul_eq_C_mul, map_smul, J_map, smul_eq_mul]
  by_cases h : p + m < N
  · rw [H.orth p m h, map_zero, mul_zero]
    exact dvd_zero _
  · refine Dvd.dvd.mul_right ?_ _
    refine (pow_dvd_pow ε (show N ≤ min p N + min m N by omega)).trans ?_
    rw [pow_add]
    exact mul_dvd_mul ha hb

theorem interp_sum {ι : Type} (t : Finset ι) (g : ι → A[X]) :
    interp c l (∑ i ∈ t, g i) = ∑ i ∈ t, interp c l (g i) := by
  classical
  induction t using Finset.induction_on with
  | empty => simp [interp]
  | insert a t ha ih => rw [Finset.sum_insert ha, Finset.sum_insert ha, interp_add, ih]

theorem J_orth (H : Data c l L N) {ε : A} {f g : A[X]} (hf : f ∈ gr ε N) (hg : g ∈ gr ε N) :
    ε ^ N ∣ J (f * (g - interp c l g)) := by
  conv_rhs => rw [as_sum_support f, as_sum_support g, interp_sum, ← Finset.sum_sub_distrib, Finset.sum_mul_sum]
  simp only [map_sum]
  refine Finset.dvd_sum fun p _ => Finset.dvd_sum fun m _ => ?_
  exact J_orth_monomial H (hf p) (hg m)

/-- interpolation, integration and multiplication by `ε` raise the index by one. -/
theorem gr_raise (H : Data c l L N) {ε : A} {r : ℕ} {g : A[X]} (hg : g ∈ gr ε r) :
    C ε * ∑ i, C (g.eval (algebraMap ℝ A (c i))) * (L i).map (algebraMap ℝ A) ∈ gr ε (r + 1) := by
  intro k
  rw [coeff_C_mul, finsetSum_coeff]
  simp only [coeff_C_mul, coeff_map]
  have e : ∑ i, g.eval (algebraMap ℝ A (c i)) * algebraMap ℝ A ((L i).coeff k)
      = ∑ m ∈ g.support, g.coeff m * algebraMap ℝ A (∑ i, c i ^ m * (L i).coeff k) := by
    simp only [map_sum, Finset.mul_sum]
    rw [Finset.sum_comm]
    refine Finset.sum_congr rfl fun i _ => ?_
    rw [eval_eq_sum, Polynomial.sum, Finset.sum_mul]
    refine Finset.sum_congr rfl fun m _ => ?_
    rw [map_mul, map_pow]
    ring
  rw [e, Finset.mul_sum]
  refine Finset.dvd_sum fun m _ => ?_
  by_cases h : m + 1 < k
  · rw [H.low m k h, map_zero, mul_zero, mul_zero]
    exact dvd_zero _
  · rw [← mul_assoc]
    refine Dvd.dvd.mul_right ?_ _
    refine (pow_dvd_pow ε (show min k (r + 1) ≤ 1 + min m r by omega)).trans ?_
    rw [pow_add, pow_one]
    exact mul_dvd_mul dvd_rfl (hg m)

/-! ### the collocation polynomial -/

variable {n : ℕ} (P : Fin n → MvPolynomial (Fin n) A)

/-- derivative along the field. -/
def D (g : MvPolynomial (Fin n) A) : MvPolynomial (Fin n) A := ∑ j, MvPolynomial.pderiv j g * P j

/-- Taylor polynomial of component `i` of the solution. -/
def taylor (ε : A) (y : Fin n → A) (N : ℕ) (g : MvPolynomial (Fin n) A) : A :=
  ∑ m ∈ Finset.range N, (1 / (m.factorial : ℝ)) • (ε ^ m * MvPolynomial.aeval y ((D P)^[m] g))

/-- the collocation polynomial. -/
def poly (ε : A) (y : Fin n → A) (L : Fin s → ℝ[X]) (k : Fin s → Fin n → A) (j : Fin n) : A[X] :=
  C (y j) + C ε * ∑ i, C (k i j) * (L i).map (algebraMap ℝ A)

variable {P} {ε : A} {y : Fin n → A} {k r : Fin s → Fin n → A}

theorem aeval_eval {u : Fin n → A[X]} (p : MvPolynomial (Fin n) A) (x : A) :
    (MvPolynomial.aeval u p).eval x = MvPolynomial.aeval (fun j => (u j).eval x) p := by
  induction p using MvPolynomial.induction_on with
  | C r => simp [Polynomial.algebraMap_eq]
  | add p q hp hq => simp [hp, hq]
  | mul_X p i hp => simp [hp]

theorem gr_real {r : ℕ} {g : A[X]} (hg : g ∈ gr ε r) (x : ℝ) : x • g ∈ gr ε r := by
  rw [← algebraMap_smul A x g]
  exact (gr ε r).smul_mem hg _

/-- everything divisible by `ε^q` is of any index up to `q`. -/
theorem gr_dvd {r q : ℕ} (h : r ≤ q) {g : A[X]} (hg : ∀ m, ε ^ q ∣ g.coeff m) : g ∈ gr ε r := fun m =>
  (pow_dvd_pow ε (show min m r ≤ q by omega)).trans (hg m)

theorem coeff_rest {q : ℕ} {l : Fin s → ℝ[X]} {r : Fin s → A} (hr : ∀ i, ε ^ q ∣ r i) (m : ℕ) :
    ε ^ q ∣ (∑ i, C (r i) * (l i).map (algebraMap ℝ A)).coeff m := by
  rw [finsetSum_coeff]
  refine Finset.dvd_sum fun i _ => ?_
  rw [coeff_C_mul]
  exact (hr i).mul_right _

theorem poly_gr (H : Data c l L N) (hr : ∀ i j, ε ^ N ∣ r i j)
    (hk : ∀ i j, k i j = MvPolynomial.aeval (fun j => (poly ε y L k j).eval (algebraMap ℝ A (c i))) (P j) + r i j) (q : ℕ)
    (hq : q ≤ N) (j : Fin n) : poly ε y L k j ∈ gr ε q := by
  induction q generalizing j with
  | zero => intro m; simp
  | succ q ih =>
    have g := gr_raise H (gr_aeval (ih (by omega)) (P j))
    have e : poly ε y L k j = C (y j) + C ε * ∑ i, C ((MvPolynomial.aeval (poly ε y L k) (P j)).eval
        (algebraMap ℝ A (c i))) * (L i).map (algebraMap ℝ A) + C ε * ∑ i, C (r i j) * (L i).map (algebraMap ℝ A) := by
      rw [add_assoc, ← mul_add, ← Finset.sum_add_distrib]
      conv_lhs => rw [poly]
      congr 2
      refine Finset.sum_congr rfl fun i _ => ?_
      rw [hk i j, aeval_eval, C_add, add_mul]
    rw [e]
    refine (gr ε (q + 1)).add_mem ((gr ε (q + 1)).add_mem (gr_C _ _ _) g) (gr_dvd hq fun m => ?_)
    rw [coeff_C_mul]
    exact (coeff_rest (fun i => hr i j) m).mul_left _

/-- `R`: the solution which starts on the collocation polynomial at `τ`, followed until 1. -/
def back (P : Fin n → MvPolynomial (Fin n) A) (ε : A) (u : Fin n → A[X]) (N : ℕ) (g : MvPolynomial (Fin n) A) : A[X] :=
  ∑ m ∈ Finset.range N, (1 / (m.factorial : ℝ)) • ((C ε * (1 - X)) ^ m * MvPolynomial.aeval u ((D P)^[m] g))

/-- its dependence on the starting point. -/
def sens (P : Fin n → MvPolynomial (Fin n) A) (ε : A) (u : Fin n → A[X]) (N : ℕ) (g : MvPolynomial (Fin n) A)
    (j : Fin n) : A[X] :=
  ∑ m ∈ Finset.range N, (1 / (m.factorial : ℝ)) • ((C ε * (1 - X)) ^ m
    * MvPolynomial.aeval u (MvPolynomial.pderiv j ((D P)^[m] g)))

theorem derivative_back {u e : Fin n → A[X]} (hu : ∀ j, derivative (u j) = C ε * (MvPolynomial.aeval u (P j) - e j))
    (g : MvPolynomial (Fin n) A) (N : ℕ) :
    derivative (back P ε u (N + 1) g) = (1 / (N.factorial : ℝ)) • (C ε * (C ε * (1 - X)) ^ N
        * MvPolynomial.aeval u ((D P)^[N + 1] g)) - C ε * ∑ j, sens P ε u (N + 1) g j * e j := by
  have hd : ∀ f, derivative (MvPolynomial.aeval u f) = C ε * MvPolynomial.aeval u (D P f)
      - C ε * ∑ j, MvPolynomial.aeval u (MvPolynomial.pderiv j f) * e j := by
    intro f
    rw [derivative_aeval, D, map_sum, Finset.mul_sum, Finset.mul_sum, ← Finset.sum_sub_distrib]
    refine Finset.sum_congr rfl fun j _ => ?_
    rw [hu, map_mul]
    ring
  induction N with
  | zero =>
    simp only [back, sens, zero_add, Finset.range_one, Finset.sum_singleton, Nat.factorial_zero, Nat.cast_one, div_one,
      one_smul, pow_zero, one_mul, mul_one, Function.iterate_zero, id, Function.iterate_one]
    exact hd g
  | succ N ih =>
    have e1 : back P ε u (N + 1 + 1) g = back P ε u (N + 1) g + (1 / ((N + 1).factorial : ℝ)) • ((C ε * (1 - X)) ^ (N + 1)
        * MvPolynomial.aeval u ((D P)^[N + 1] g)) := Finset.sum_range_succ _ _
    have e2 : ∀ j, sens P ε u (N + 1 + 1) g j = sens P ε u (N + 1) g j
        + (1 / ((N + 1).factorial : ℝ)) • ((C ε * (1 - X)) ^ (N + 1)
        * MvPolynomial.aeval u (MvPolynomial.pderiv j ((D P)^[N + 1] g))) := fun j => Finset.sum_range_succ _ _
    have e3 : derivative ((C ε * (1 - X)) ^ (N + 1)) = -(((N : ℝ) + 1) • (C ε * (C ε * (1 - X)) ^ N)) := by
      rw [derivative_pow, derivative_mul, derivative_C, derivative_sub, derivative_one, derivative_X, Nat.add_sub_cancel]
      rw [Algebra.smul_def]
      simp only [Nat.cast_add, Nat.cast_one, map_add, map_natCast, map_one]
      ring
    have e4 : (1 / ((N + 1).factorial : ℝ)) * ((N : ℝ) + 1) = 1 / (N.factorial : ℝ) := by
      rw [Nat.factorial_succ]
      push_cast
      have : (N.factorial : ℝ) ≠ 0 := by positivity
      field_simp
    generalize C ε * (1 - X) = w at *
    rw [e1, derivative_add, ih, derivative_smul, derivative_mul, e3, hd, ← Function.iterate_succ_apply' (D P)]
    simp only [e2, add_mul, Finset.sum_add_distrib, mul_add]
    rw [← e4]
    simp only [smul_mul_assoc, ← Finset.smul_sum, mul_smul_comm, mul_sub, smul_sub, smul_add, neg_mul, smul_neg,
      smul_smul]
    have e5 : ∑ j, w ^ (N + 1) * MvPolynomial.aeval u (MvPolynomial.pderiv j ((D P)^[N + 1] g)) * e j
        = w ^ (N + 1) * ∑ j, MvPolynomial.aeval u (MvPolynomial.pderiv j ((D P)^[N + 1] g)) * e j := by
      rw [Finset.mul_sum]
      exact Finset.sum_congr rfl fun j _ => by ring
    rw [e5]
    have e6 : ∀ a : A[X], w ^ (N + 1) * (C ε * a) = C ε * w ^ (N + 1) * a := by
      intro a; ring
    rw [e6, e6]
    simp only [mul_assoc]
    abel

/-- **superconvergence**: the value of the method differs from the Taylor polynomial by a multiple of `ε^(N+1)`; the
stages may be wrong by a multiple of `ε^N`. -/
theorem superconvergence (H : Data c l L N) (hr : ∀ i j, ε ^ N ∣ r i j)
    (hk : ∀ i j, k i j = MvPolynomial.aeval (fun j => (poly ε y L k j).eval (algebraMap ℝ A (c i))) (P j) + r i j)
    (j : Fin n) : ε ^ (N + 1) ∣ (poly ε y L k j).eval 1 - taylor P ε y (N + 1) (MvPolynomial.X j) := by
  obtain ⟨u, hu⟩ : ∃ u, u = poly ε y L k := ⟨_, rfl⟩
  have hgr : ∀ j, u j ∈ gr ε N := fun j => by rw [hu]; exact poly_gr H hr hk N le_rfl j
  have hd : ∀ j, derivative (u j) = C ε * (MvPolynomial.aeval u (P j)
      - ((MvPolynomial.aeval u (P j) - interp c l (MvPolynomial.aeval u (P j)))
        - ∑ i, C (r i j) * (l i).map (algebraMap ℝ A))) := by
    intro j
    rw [sub_sub, sub_sub_cancel, hu, poly, derivative_add, derivative_C, zero_add, derivative_C_mul, interp,
      ← Finset.sum_add_distrib]
    congr 1
    rw [derivative_sum]
    refine Finset.sum_congr rfl fun i _ => ?_
    rw [derivative_C_mul, derivative_map, H.deriv, ← hu, aeval_eval, ← add_mul, ← C_add, hk i j, hu]
  have key := J_derivative (back P ε u (N + 1) (MvPolynomial.X j))
  rw [derivative_back hd] at key
  have r1 : (back P ε u (N + 1) (MvPolynomial.X j)).eval 1 = (u j).eval 1 := by
    rw [back, eval_finsetSum, Finset.sum_eq_single 0]
    · simp
    · intro m _ hm
      simp [hm, eval_smul]
    · simp
  have r0 : (back P ε u (N + 1) (MvPolynomial.X j)).eval 0 = taylor P ε y (N + 1) (MvPolynomial.X j) := by
    have hy : (fun j => (u j).eval 0) = y := by
      funext j
      rw [hu, poly]
      simp only [eval_add, eval_C, eval_mul, eval_finsetSum]
      have : ∀ i, ((L i).map (algebraMap ℝ A)).eval 0 = 0 := by
        intro i
        rw [← coeff_zero_eq_eval_zero, coeff_map, H.zero, map_zero]
      simp [this]
    rw [back, taylor, eval_finsetSum]
    refine Finset.sum_congr rfl fun m _ => ?_
    rw [eval_smul, eval_mul, aeval_eval, hy]
    simp
  rw [r1, r0] at key
  rw [hu] at key
  rw [← key, ← hu, map_sub]
  refine dvd_sub ?_ ?_
  · have : (1 / (N.factorial : ℝ)) • (C ε * (C ε * (1 - X)) ^ N * MvPolynomial.aeval u ((D P)^[N + 1] (MvPolynomial.X j)))
        = (ε ^ (N + 1)) • ((1 / (N.factorial : ℝ)) • ((1 - X) ^ N
          * MvPolynomial.aeval u ((D P)^[N + 1] (MvPolynomial.X j)))) := by
      have e : C ε * (C ε * (1 - X)) ^ N * MvPolynomial.aeval u ((D P)^[N + 1] (MvPolynomial.X j))
          = ε ^ (N + 1) • ((1 - X) ^ N * MvPolynomial.aeval u ((D P)^[N + 1] (MvPolynomial.X j))) := by
        rw [smul_eq_C_mul, C_pow, mul_pow, pow_succ]
        ring
      rw [e, smul_comm]
    rw [this, map_smul, smul_eq_mul]
    exact dvd_mul_right _ _
  · rw [← smul_eq_C_mul, map_smul, smul_eq_mul, pow_succ', map_sum]
    refine mul_dvd_mul dvd_rfl (Finset.dvd_sum fun i _ => ?_)
    rw [mul_sub, map_sub]
    refine dvd_sub (J_orth H ?_ (gr_aeval hgr _)) ?_
    · exact (gr ε N).sum_mem fun m _ => gr_real ((gr ε N).mul_mem ((gr ε N).pow_mem (gr_eps ε N) m)
        (gr_aeval hgr _)) _
    · obtain ⟨q, hq⟩ : C (ε ^ N) ∣ ∑ p, C (r p i) * (l p).map (algebraMap ℝ A) :=
        (C_dvd_iff_dvd_coeff _ _).2 (coeff_rest fun p => hr p i)
      rw [hq, ← mul_assoc, mul_comm _ (C (ε ^ N)), mul_assoc, ← smul_eq_C_mul, map_smul, smul_eq_mul]
      exact dvd_mul_right _ _

/-! ### collocation methods -/

/-- the primitive of a real polynomial. -/
def prim (p : ℝ[X]) : ℝ[X] := ∑ k ∈ Finset.range (p.natDegree + 1), monomial (k + 1) (p.coeff k / (k + 1))

theorem prim_coeff (p : ℝ[X]) (j : ℕ) : (prim p).coeff (j + 1) = p.coeff j / (j + 1) := by
  rw [prim, finsetSum_coeff]
  simp only [coeff_monomial, Nat.add_right_cancel_iff, Finset.sum_ite_eq', Finset.mem_range]
  split_ifs with h
  · rfl
  · rw [coeff_eq_zero_of_natDegree_lt (by omega), zero_div]

theorem prim_zero (p : ℝ[X]) : (prim p).coeff 0 = 0 := by
  rw [prim, finsetSum_coeff]
  simp [coeff_monomial]

theorem derivative_prim (p : ℝ[X]) : derivative (prim p) = p := by
  ext j
  rw [coeff_derivative, prim_coeff, div_mul_cancel₀ _ (by positivity)]

/-- the integral of a polynomial from 0 to `x`, by the primitive. -/
theorem prim_eval (p : ℝ[X]) (x : ℝ) :
    (prim p).eval x = ∑ k ∈ Finset.range (p.natDegree + 1), p.coeff k * (x ^ (k + 1) / (k + 1)) := by
  rw [prim, eval_finsetSum]
  refine Finset.sum_congr rfl fun k _ => ?_
  rw [eval_monomial]
  ring

/-- the Lagrange polynomials. -/
def lag (c : Fin s → ℝ) (i : Fin s) : ℝ[X] := Lagrange.basis Finset.univ c i

theorem lag_interp (hc : Function.Injective c) (m : ℕ) :
    ∑ i, C (c i ^ m) * lag c i = X ^ m %ₘ Lagrange.nodal Finset.univ c := by
  have hM : (Lagrange.nodal Finset.univ c).Monic := Lagrange.nodal_monic
  have hd := degree_modByMonic_lt (X ^ m : ℝ[X]) hM
  rw [Lagrange.degree_nodal] at hd
  refine ((Lagrange.eq_interpolate_of_eval_eq (r := fun i => c i ^ m) hc.injOn hd fun i hi => ?_).trans ?_).symm
  · have e := congrArg (fun q => q.eval (c i)) (modByMonic_add_div (X ^ m : ℝ[X]) (Lagrange.nodal Finset.univ c))
    simp only [eval_add, eval_mul, Lagrange.eval_nodal_at_node hi, zero_mul, add_zero, eval_pow, eval_X] at e
    exact e
  · rw [Lagrange.interpolate_apply]
    rfl

/-- a method with distinct nodes whose nodal polynomial is orthogonal to `1, ..., X^(σ-1)`. -/
theorem data_of (hc : Function.Injective c) {σ : ℕ}
    (ho : ∀ k < σ, J (Lagrange.nodal Finset.univ c * X ^ k : ℝ[X]) = 0) :
    Data c (lag c) (fun i => prim (lag c i)) (s + σ) where
  zero i := prim_zero _
  deriv i := derivative_prim _
  low m k hk := by
    obtain ⟨k, rfl⟩ : ∃ j, k = j + 1 := ⟨k - 1, by omega⟩
    have e := congrArg (fun q => q.coeff k) (lag_interp hc m)
    simp only [finsetSum_coeff, coeff_C_mul] at e
    simp only [prim_coeff, ← mul_div_assoc, ← Finset.sum_div, e]
    rw [coeff_eq_zero_of_degree_lt, zero_div]
    refine lt_of_le_of_lt degree_modByMonic_le_left ?_
    rw [degree_X_pow]
    exact_mod_cast (by omega : m < k)
  orth p m hpm := by
    have hM : (Lagrange.nodal Finset.univ c).Monic := Lagrange.nodal_monic
    have e : (X ^ m : ℝ[X]) - ∑ i, C (c i ^ m) * lag c i
        = Lagrange.nodal Finset.univ c * (X ^ m /ₘ Lagrange.nodal Finset.univ c) := by
      rw [lag_interp hc, sub_eq_iff_eq_add, add_comm]
      exact (modByMonic_add_div _ _).symm
    rw [e]
    generalize hq : (X ^ m : ℝ[X]) /ₘ Lagrange.nodal Finset.univ c = q
    have hd : ∀ k ∈ q.support, k + s ≤ m := by
      intro k hk
      have h1 := le_natDegree_of_mem_supp k hk
      by_cases hms : m < s
      · exfalso
        have : q = 0 := by
          rw [← hq, divByMonic_eq_zero_iff hM, degree_X_pow, Lagrange.degree_nodal]
          simpa using hms
        simp [this] at hk
      · rw [← hq, natDegree_divByMonic _ hM, natDegree_X_pow, Lagrange.natDegree_nodal] at h1
        simp at h1
        omega
    rw [as_sum_support q, Finset.mul_sum, Finset.mul_sum, map_sum]
    refine Finset.sum_eq_zero fun k hk => ?_
    have : (X ^ p * (Lagrange.nodal Finset.univ c * monomial k (q.coeff k)) : ℝ[X])
        = q.coeff k • (Lagrange.nodal Finset.univ c * X ^ (p + k)) := by
      rw [← C_mul_X_pow_eq_monomial, smul_eq_C_mul, pow_add]
      ring
    rw [this, map_smul, ho _ (by have := hd k hk; omega), smul_zero]

/-- the weights of a collocation method are values of the primitives. -/
theorem prim_lag (hc : Function.Injective c) {x : ℝ} {a : Fin s → ℝ}
    (ha : ∀ k < s, ∑ j, a j * c j ^ k = x ^ (k + 1) / (k + 1)) (i : Fin s) : (prim (lag c i)).eval x = a i := by
  have hs : (lag c i).natDegree + 1 = s := by
    rw [lag, Lagrange.natDegree_basis hc.injOn (Finset.mem_univ i)]
    have := i.pos
    simp
    omega
  rw [prim_eval, hs]
  have e : ∀ k ∈ Finset.range s, (lag c i).coeff k * (x ^ (k + 1) / (k + 1))
      = ∑ j, a j * ((lag c i).coeff k * c j ^ k) := by
    intro k hk
    rw [← ha k (Finset.mem_range.1 hk), Finset.mul_sum]
    exact Finset.sum_congr rfl fun j _ => by ring
  rw [Finset.sum_congr rfl e, Finset.sum_comm]
  have e2 : ∀ j, ∑ k ∈ Finset.range s, a j * ((lag c i).coeff k * c j ^ k) = a j * if j = i then 1 else 0 := by
    intro j
    rw [← Finset.mul_sum]
    have : ∑ k ∈ Finset.range s, (lag c i).coeff k * c j ^ k = (lag c i).eval (c j) := by
      rw [eval_eq_sum_range, hs]
    rw [this]
    by_cases h : j = i
    · subst h
      rw [if_pos rfl, lag, Lagrange.eval_basis_self hc.injOn (Finset.mem_univ j)]
    · rw [if_neg h, lag, Lagrange.eval_basis_of_ne (Ne.symm h) (Finset.mem_univ j)]
  simp [e2]

end

end Odes.Colloc
