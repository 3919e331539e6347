import Verif.Lemmas.Colloc
import Verif.Lemmas.Gauss
import Verif.Tables.GaussCert
import Verif.Spec.GaussMethod
import Mathlib.Topology.Order.IntermediateValue
import Mathlib.Topology.Algebra.Polynomial

/-!
# The exact Gauss methods near the tables

The Legendre polynomial changes its sign near each node of the certificate, so that the exact nodes exist; the matrix and
the weights follow from the order conditions, which the certificate satisfies to 85 digits.
-/

namespace Odes.Symp

open Odes.Colloc Odes.Spec Polynomial

noncomputable section

variable {s : ℕ}

/-! ### Gauss methods and orthogonal nodal polynomials -/

theorem gauss_data {c : Fin s → ℝ} {A : Fin s → Fin s → ℝ} {b : Fin s → ℝ} (h : GaussMethod c A b) :
    Data c (lag c) (fun i => prim (lag c i)) (2 * s) := by
  have hJ : ∀ p : ℝ[X], p.natDegree < 2 * s → J p = ∑ j, b j * p.eval (c j) := by
    intro p hp
    have e : ∀ j, p.eval (c j) = ∑ k ∈ Finset.range (2 * s), p.coeff k * c j ^ k := fun j =>
      eval_eq_sum_range' hp (c j)
    conv_lhs => rw [p.as_sum_range' _ hp]
    rw [map_sum]
    simp only [e, J_monomial, Finset.mul_sum]
    rw [Finset.sum_comm]
    refine Finset.sum_congr rfl fun k hk => ?_
    have q := h.quad k (Finset.mem_range.1 hk)
    rw [← q, smul_eq_mul, Finset.sum_mul]
    exact Finset.sum_congr rfl fun j _ => by ring
  rw [two_mul]
  refine data_of h.inj fun k hk => ?_
  rw [hJ]
  · refine Finset.sum_eq_zero fun j _ => ?_
    rw [eval_mul, Lagrange.eval_nodal_at_node (Finset.mem_univ j), zero_mul, mul_zero]
  · refine lt_of_le_of_lt natDegree_mul_le ?_
    rw [Lagrange.natDegree_nodal, natDegree_X_pow]
    simp
    omega

theorem gauss_A {c : Fin s → ℝ} {A : Fin s → Fin s → ℝ} {b : Fin s → ℝ} (h : GaussMethod c A b) (i j : Fin s) :
    A i j = (prim (lag c j)).eval (c i) := (prim_lag h.inj (h.colloc i) j).symm

theorem gauss_b {c : Fin s → ℝ} {A : Fin s → Fin s → ℝ} {b : Fin s → ℝ} (h : GaussMethod c A b) (j : Fin s) :
    b j = (prim (lag c j)).eval 1 :=
  (prim_lag h.inj (x := 1) (fun k hk => by rw [one_pow]; exact h.quad k (by omega)) j).symm

theorem prim_sum {c : Fin s → ℝ} (hc : Function.Injective c) {k : ℕ} (hk : k < s) (x : ℝ) :
    ∑ j, (prim (lag c j)).eval x * c j ^ k = x ^ (k + 1) / (k + 1) := by
  have e : ∑ j, C (c j ^ k) * prim (lag c j) = monomial (k + 1) (1 / ((k : ℝ) + 1)) := by
    have e1 := lag_interp hc k
    rw [(modByMonic_eq_self_iff Lagrange.nodal_monic).2 (by
      rw [degree_X_pow, Lagrange.degree_nodal]; simpa using hk)] at e1
    ext m
    rw [finsetSum_coeff]
    simp only [coeff_C_mul]
    cases m with
    | zero => simp [prim_zero]
    | succ m =>
      have e2 := congrArg (fun q => q.coeff m) e1
      simp only [finsetSum_coeff, coeff_C_mul, coeff_X_pow] at e2
      simp only [prim_coeff, ← mul_div_assoc, ← Finset.sum_div, e2, coeff_monomial, Nat.add_right_cancel_iff]
      by_cases h : m = k
      · subst h; simp
      · rw [if_neg h, if_neg (Ne.symm h), zero_div]
  have e3 := congrArg (fun q => q.eval x) e
  simp only [eval_finsetSum, eval_mul, eval_C, eval_monomial] at e3
  rw [Finset.sum_congr rfl fun j _ => mul_comm _ _, e3]
  ring

theorem gauss_of {c : Fin s → ℝ} (hc : Function.Injective c)
    (ho : ∀ k < s, J (Lagrange.nodal Finset.univ c * X ^ k : ℝ[X]) = 0) :
    GaussMethod c (fun i j => (prim (lag c j)).eval (c i)) (fun j => (prim (lag c j)).eval 1) := by
  refine ⟨hc, fun i k hk => prim_sum hc hk (c i), fun k hk => ?_⟩
  have H := (data_of hc ho).orth 0 k (by omega)
  rw [pow_zero, one_mul, map_sub, sub_eq_zero, ← monomial_one_right_eq_X_pow, J_monomial, smul_eq_mul, mul_one, map_sum] at H
  rw [H]
  refine Finset.sum_congr rfl fun j _ => ?_
  have e := J_derivative (prim (lag c j))
  rw [derivative_prim, ← coeff_zero_eq_eval_zero, prim_zero, sub_zero] at e
  rw [← smul_eq_C_mul, map_smul, smul_eq_mul, e, mul_comm]

/-! ### small residuals -/

/-- the numbers `d` are small when their moments are small. -/
theorem moments {c d : Fin s → ℝ} {r : ℝ} (hc : ∀ m, |c m| ≤ 1) (hr : ∀ k < s, |∑ m, d m * c m ^ k| ≤ r)
    (S : Finset (Fin s)) (e : ℕ) (h : S.card + e < s) :
    |∑ m, d m * (c m ^ e * ∏ i ∈ S, (c m - c i))| ≤ r * 2 ^ S.card := by
  induction S using Finset.induction_on generalizing e with
  | empty => simpa using hr e (by simpa using h)
  | insert a S ha ih =>
    rw [Finset.card_insert_of_notMem ha] at h ⊢
    have i1 := ih (e + 1) (by omega)
    have i2 := ih e (by omega)
    have : ∑ m, d m * (c m ^ e * ∏ i ∈ insert a S, (c m - c i))
        = ∑ m, d m * (c m ^ (e + 1) * ∏ i ∈ S, (c m - c i))
          - c a * ∑ m, d m * (c m ^ e * ∏ i ∈ S, (c m - c i)) := by
      rw [Finset.mul_sum, ← Finset.sum_sub_distrib]
      refine Finset.sum_congr rfl fun m _ => ?_
      rw [Finset.prod_insert ha]
      ring
    rw [this]
    refine (abs_sub _ _).trans ?_
    rw [abs_mul, pow_succ]
    have := mul_le_mul (hc a) i2 (abs_nonneg _) zero_le_one
    linarith

theorem moment_bound {c d : Fin s → ℝ} {r γ : ℝ} (hc : ∀ m, |c m| ≤ 1) (hr : ∀ k < s, |∑ m, d m * c m ^ k| ≤ r)
    (hγ : 0 < γ) (hg : ∀ i j, i ≠ j → γ ≤ |c i - c j|) (j : Fin s) : |d j| * γ ^ (s - 1) ≤ r * 2 ^ (s - 1) := by
  have hcard : (Finset.univ.erase j).card = s - 1 := by
    rw [Finset.card_erase_of_mem (Finset.mem_univ j)]; simp
  have hs := j.pos
  have h := moments hc hr (Finset.univ.erase j) 0 (by rw [hcard]; omega)
  rw [Finset.sum_eq_single j, pow_zero, one_mul, abs_mul, hcard, Finset.abs_prod] at h
  · refine le_trans (mul_le_mul_of_nonneg_left ?_ (abs_nonneg _)) h
    rw [← hcard, ← Finset.prod_const]
    exact Finset.prod_le_prod (fun _ _ => hγ.le) fun i hi => hg j i (Finset.ne_of_mem_erase hi).symm
  · intro m _ hm
    rw [Finset.prod_eq_zero (Finset.mem_erase.2 ⟨hm, Finset.mem_univ m⟩) (sub_self _), mul_zero, mul_zero]
  · intro h; exact absurd (Finset.mem_univ j) h

/-! ### the certificate -/

namespace GCert

/-- entries, 0 outside. -/
def ic (g : GCert) (i : ℕ) : ℤ := g.c.getD i 0
@[inherit_doc ic] def iA (g : GCert) (i j : ℕ) : ℤ := (g.rows.getD i []).getD j 0
@[inherit_doc ic] def ib (g : GCert) (i : ℕ) : ℤ := g.b.getD i 0

end GCert

/-- coefficients of the Legendre polynomial on `[0, 1]`. -/
def lcoef (s k : ℕ) : ℤ := (-1) ^ k * ((s + k).factorial / (k.factorial * k.factorial * (s - k).factorial) : ℕ)

/-- `T^s` times the value at `x/T`. -/
def lval (s : ℕ) (T x : ℤ) : ℤ := isum (s + 1) fun k => lcoef s k * (x ^ k * T ^ (s - k))

/-- the Legendre polynomial changes its sign at the nodes, the nodes are apart. -/
def okRoot (g : GCert) : Bool :=
  decide (2 ≤ g.s ∧ g.s ≤ 16) && decide (lcoef g.s g.s ≠ 0) && (allLt g.s fun i =>
    decide (lval g.s (10 ^ 90) (g.ic i - 1) * lval g.s (10 ^ 90) (g.ic i + 1) < 0) &&
    decide (1 < g.ic i) && decide (g.ic i + 1 < 10 ^ 90) &&
    allLt g.s fun j => i == j || decide ((10 ^ 90 : ℤ) ≤ 50 * |g.ic i - g.ic j|))

/-- orthogonality. -/
def okOrth (g : GCert) : Bool :=
  allLt g.s fun m => isum (g.s + 1) (fun k => lcoef g.s k * ((2 * g.s + 1).factorial / (k + m + 1) : ℕ)) == 0

/-- order conditions to 85 digits. -/
def okCond (g : GCert) : Bool :=
  (allLt g.s fun k => allLt g.s fun i =>
    decide (|((k : ℤ) + 1) * isum g.s (fun j => g.iA i j * g.ic j ^ k) - g.ic i ^ (k + 1)| * 10 ^ 85
      ≤ ((k : ℤ) + 1) * (10 ^ 90) ^ (k + 1))) &&
  (allLt g.s fun k => decide (|((k : ℤ) + 1) * isum g.s (fun j => g.ib j * g.ic j ^ k) - (10 ^ 90) ^ (k + 1)| * 10 ^ 85
      ≤ ((k : ℤ) + 1) * (10 ^ 90) ^ (k + 1))) &&
  (allLt g.s fun i => decide (isum g.s (fun j => |g.iA i j|) ≤ 2 * 10 ^ 90)) &&
  decide (isum g.s (fun j => |g.ib j|) ≤ 2 * 10 ^ 90)

/-- a table near the certificate. -/
def okNear (t : GTab) (g : GCert) (E : ℤ) : Bool :=
  t.s == g.s && (allLt t.s fun i => allLt t.s fun j =>
    decide (|t.iA i j * 10 ^ 90 - g.iA i j * 10 ^ t.da| * (1000 * E) ≤ 499 * (10 ^ t.da * 10 ^ 90))) &&
  (allLt t.s fun i => decide (|(t.ib i : ℤ) * 10 ^ 90 - g.ib i * 10 ^ t.db| * 10 ^ 85 ≤ 10 ^ t.db * 10 ^ 90))

theorem certs_root : certs.all okRoot = true := by decide +kernel

theorem certs_orth : certs.all okOrth = true := by decide +kernel

theorem certs_cond : certs.all okCond = true := by decide +kernel

theorem gaussD_near : gaussD.all (fun t => certs.any fun g => okNear t g (10 ^ 12)) = true := by decide +kernel

theorem gaussL_near : gaussL.all (fun t => certs.any fun g => okNear t g (10 ^ 33)) = true := by decide +kernel

/-! ### the exact nodes -/

/-- the Legendre polynomial. -/
def legP (s : ℕ) : ℝ[X] := ∑ k ∈ Finset.range (s + 1), monomial k (lcoef s k : ℝ)

theorem legP_coeff (s k : ℕ) : (legP s).coeff k = if k < s + 1 then (lcoef s k : ℝ) else 0 := by
  rw [legP, finsetSum_coeff]
  simp only [coeff_monomial, Finset.sum_ite_eq', Finset.mem_range]

theorem legP_degree (h : lcoef s s ≠ 0) : (legP s).natDegree = s := by
  refine natDegree_eq_of_le_of_coeff_ne_zero ?_ ?_
  · rw [natDegree_le_iff_coeff_eq_zero]
    intro k hk
    rw [legP_coeff, if_neg (by omega)]
  · rw [legP_coeff, if_pos (by omega)]
    exact_mod_cast h

theorem lval_spec (s : ℕ) {T : ℤ} (hT : T ≠ 0) (x : ℤ) : (lval s T x : ℝ) = (T : ℝ) ^ s * (legP s).eval ((x : ℝ) / T) := by
  have hT' : (T : ℝ) ≠ 0 := by exact_mod_cast hT
  rw [lval, isum_spec, legP, eval_finsetSum, Finset.mul_sum]
  push_cast
  rw [Fin.sum_univ_eq_sum_range (fun k => (lcoef s k : ℝ) * ((x : ℝ) ^ k * (T : ℝ) ^ (s - k)))]
  refine Finset.sum_congr rfl fun k hk => ?_
  have hk : k ≤ s := Nat.lt_succ_iff.1 (Finset.mem_range.1 hk)
  rw [eval_monomial, div_pow]
  have e : (T : ℝ) ^ s = (T : ℝ) ^ k * (T : ℝ) ^ (s - k) := by rw [← pow_add, Nat.add_sub_cancel' hk]
  rw [e]
  have : (T : ℝ) ^ k ≠ 0 := pow_ne_zero _ hT'
  field_simp

theorem sign_root {p : ℝ[X]} {a b : ℝ} (hab : a < b) (h : p.eval a * p.eval b < 0) : ∃ x, a < x ∧ x < b ∧ p.eval x = 0 := by
  have hc : ContinuousOn (fun x => p.eval x) (Set.Icc a b) := p.continuous.continuousOn
  rcases mul_neg_iff.1 h with ⟨h1, h2⟩ | ⟨h1, h2⟩
  · obtain ⟨x, hx, e⟩ := intermediate_value_Ioo' hab.le hc ⟨h2, h1⟩
    exact ⟨x, hx.1, hx.2, e⟩
  · obtain ⟨x, hx, e⟩ := intermediate_value_Ioo hab.le hc ⟨h1, h2⟩
    exact ⟨x, hx.1, hx.2, e⟩

theorem nodal_legP (hl : lcoef s s ≠ 0) {c : Fin s → ℝ} (hc : Function.Injective c) (h0 : ∀ i, (legP s).eval (c i) = 0) :
    legP s = C (lcoef s s : ℝ) * Lagrange.nodal Finset.univ c := by
  have hl' : (lcoef s s : ℝ) ≠ 0 := by exact_mod_cast hl
  have hd : (legP s).degree = s := by
    rw [degree_eq_natDegree, legP_degree hl]
    intro h
    have := legP_coeff s s
    rw [h, coeff_zero, if_pos (by omega)] at this
    exact hl' this.symm
  have hn : (C (lcoef s s : ℝ) * Lagrange.nodal Finset.univ c).degree = s := by
    rw [degree_C_mul hl', Lagrange.degree_nodal]; simp
  refine eq_of_degree_sub_lt_of_eval_index_eq (s := Finset.univ) (v := c) hc.injOn ?_ fun i _ => ?_
  · have : (legP s - C (lcoef s s : ℝ) * Lagrange.nodal Finset.univ c).degree < (legP s).degree := by
      refine degree_sub_lt (by rw [hd, hn]) ?_ ?_
      · intro h
        rw [h] at hd
        simp at hd
      · rw [leadingCoeff_mul, leadingCoeff_C, Lagrange.nodal_monic.leadingCoeff, mul_one, leadingCoeff, legP_degree hl,
          legP_coeff, if_pos (by omega)]
    rw [hd] at this
    simpa using this
  · rw [h0, eval_mul, Lagrange.eval_nodal_at_node (Finset.mem_univ i), mul_zero]

theorem pow_near {x y : ℝ} (hx : |x| ≤ 1) (hy : |y| ≤ 1) (k : ℕ) : |x ^ k - y ^ k| ≤ k * |x - y| := by
  induction k with
  | zero => simp
  | succ k ih =>
    have e : x ^ (k + 1) - y ^ (k + 1) = x * (x ^ k - y ^ k) + (x - y) * y ^ k := by ring
    rw [e]
    refine (abs_add_le _ _).trans ?_
    rw [abs_mul, abs_mul, abs_pow]
    have h1 := mul_le_mul hx ih (abs_nonneg _) zero_le_one
    have h2 := mul_le_mul_of_nonneg_left (pow_le_one₀ (abs_nonneg y) hy (n := k)) (abs_nonneg (x - y))
    push_cast
    linarith

/-- the moments with the exact nodes. -/
theorem moment_near {a c c' : Fin s → ℝ} {x x' τ σ : ℝ} (hs : s ≤ 16) (hc : ∀ i, |c i| ≤ 1) (hc' : ∀ i, |c' i| ≤ 1)
    (hx : |x| ≤ 1) (hx' : |x'| ≤ 1) (hn : ∀ i, |c i - c' i| ≤ τ) (hxn : |x - x'| ≤ τ) (ha : ∑ j, |a j| ≤ 2) {k : ℕ} (hk : k < s)
    (h : |∑ j, a j * c' j ^ k - x' ^ (k + 1) / (k + 1)| ≤ σ) :
    |∑ j, a j * c j ^ k - x ^ (k + 1) / (k + 1)| ≤ σ + 48 * τ := by
  have τ0 : 0 ≤ τ := (abs_nonneg _).trans hxn
  have hk16 : (k : ℝ) ≤ 15 := by exact_mod_cast (by omega : k ≤ 15)
  have k0 : (0 : ℝ) ≤ k := Nat.cast_nonneg k
  have e : ∑ j, a j * c j ^ k - x ^ (k + 1) / (k + 1) = ∑ j, a j * (c j ^ k - c' j ^ k)
      + (∑ j, a j * c' j ^ k - x' ^ (k + 1) / (k + 1)) - (x ^ (k + 1) - x' ^ (k + 1)) / (k + 1) := by
    simp only [mul_sub, Finset.sum_sub_distrib]
    ring
  have h1 : |∑ j, a j * (c j ^ k - c' j ^ k)| ≤ 30 * τ := by
    refine (Finset.abs_sum_le_sum_abs _ _).trans ?_
    have : ∀ j ∈ Finset.univ, |a j * (c j ^ k - c' j ^ k)| ≤ |a j| * (15 * τ) := by
      intro j _
      rw [abs_mul]
      refine mul_le_mul_of_nonneg_left ((pow_near (hc j) (hc' j) k).trans ?_) (abs_nonneg _)
      exact mul_le_mul hk16 (hn j) (abs_nonneg _) (by norm_num)
    refine (Finset.sum_le_sum this).trans ?_
    rw [← Finset.sum_mul]
    have := mul_le_mul_of_nonneg_right ha (by positivity : 0 ≤ 15 * τ)
    linarith
  have h2 : |(x ^ (k + 1) - x' ^ (k + 1)) / (k + 1)| ≤ τ := by
    rw [abs_div, abs_of_pos (by positivity : (0 : ℝ) < k + 1), div_le_iff₀ (by positivity)]
    refine (pow_near hx hx' (k + 1)).trans ?_
    push_cast
    have := mul_le_mul_of_nonneg_left hxn (by positivity : (0 : ℝ) ≤ k + 1)
    linarith
  rw [e]
  refine (abs_sub _ _).trans ?_
  have := abs_add_le (∑ j, a j * (c j ^ k - c' j ^ k)) (∑ j, a j * c' j ^ k - x' ^ (k + 1) / (k + 1))
  linarith

theorem orth_legP {g : GCert} (h : okOrth g = true) {m : ℕ} (hm : m < g.s) : J (legP g.s * X ^ m : ℝ[X]) = 0 := by
  have h1 := eq_of_beq (allLt_spec h m hm)
  rw [isum_spec] at h1
  have h2 := congrArg (fun z : ℤ => (z : ℝ)) h1
  push_cast at h2
  have hL : ((2 * g.s + 1).factorial : ℝ) ≠ 0 := by positivity
  have e : J (legP g.s * X ^ m : ℝ[X]) = ∑ k : Fin (g.s + 1), (lcoef g.s k : ℝ) * (1 / ((k : ℝ) + m + 1)) := by
    rw [legP, Finset.sum_mul, map_sum, Fin.sum_univ_eq_sum_range (fun k => (lcoef g.s k : ℝ) * (1 / ((k : ℝ) + m + 1)))]
    refine Finset.sum_congr rfl fun k _ => ?_
    rw [← monomial_one_right_eq_X_pow, monomial_mul_monomial, J_monomial, mul_one, smul_eq_mul]
    push_cast
    ring
  rw [e]
  refine (mul_eq_zero.1 ?_).resolve_left hL
  rw [← h2, Finset.mul_sum]
  refine Finset.sum_congr rfl fun k _ => ?_
  have hd : (k : ℕ) + m + 1 ∣ (2 * g.s + 1).factorial := Nat.dvd_factorial (by omega) (by omega)
  obtain ⟨q, hq⟩ := hd
  have e1 : ((2 * g.s + 1).factorial : ℤ) / ((k : ℤ) + m + 1) = q := by
    rw [hq]
    push_cast
    exact Int.mul_ediv_cancel_left _ (by positivity)
  have e2 : ((2 * g.s + 1).factorial : ℝ) = ((k : ℝ) + m + 1) * q := by exact_mod_cast hq
  rw [e1, e2]
  have : (k : ℝ) + m + 1 ≠ 0 := by positivity
  field_simp
  push_cast
  ring

/-- `10^90`. -/
def TT : ℝ := 10 ^ 90

theorem root_spec {g : GCert} (h : okRoot g = true) : 2 ≤ g.s ∧ g.s ≤ 16 ∧ lcoef g.s g.s ≠ 0 ∧
    ∃ c : Fin g.s → ℝ, (∀ i, (legP g.s).eval (c i) = 0) ∧ (∀ i, |c i - g.ic i / TT| ≤ 1 / TT) ∧
      (∀ i, 0 < c i ∧ c i < 1) ∧ (∀ i : Fin g.s, |(g.ic i : ℝ) / TT| ≤ 1) ∧ ∀ i j, i ≠ j → 1 / 100 ≤ |c i - c j| := by
  have hT0 : (0 : ℝ) < TT := by unfold TT; positivity
  simp only [okRoot, Bool.and_eq_true, decide_eq_true_eq] at h
  obtain ⟨⟨⟨h1, h2⟩, h3⟩, h4⟩ := h
  refine ⟨h1, h2, h3, ?_⟩
  have h5 := fun i : Fin g.s => allLt_spec h4 i i.2
  simp only [Bool.and_eq_true, decide_eq_true_eq] at h5
  have hroot : ∀ i : Fin g.s, ∃ x, ((g.ic i - 1 : ℤ) : ℝ) / TT < x ∧ x < ((g.ic i + 1 : ℤ) : ℝ) / TT ∧
      (legP g.s).eval x = 0 := by
    intro i
    refine sign_root ?_ ?_
    · refine div_lt_div_of_pos_right ?_ hT0
      exact_mod_cast (by omega : g.ic i - 1 < g.ic i + 1)
    · have hz : ((lval g.s (10 ^ 90) (g.ic i - 1) * lval g.s (10 ^ 90) (g.ic i + 1) : ℤ) : ℝ) < 0 := by
        exact_mod_cast (h5 i).1.1.1
      rw [Int.cast_mul, lval_spec _ (by positivity), lval_spec _ (by positivity)] at hz
      have eT : ((10 ^ 90 : ℤ) : ℝ) = TT := by unfold TT; norm_num
      rw [eT] at hz
      have hp : 0 < TT ^ g.s * TT ^ g.s := by positivity
      by_contra hcon
      have := mul_nonneg hp.le (not_lt.1 hcon)
      linarith
  choose c hc1 hc2 hc3 using hroot
  have hb : ∀ i : Fin g.s, (g.ic i : ℝ) / TT - 1 / TT < c i ∧ c i < (g.ic i : ℝ) / TT + 1 / TT := by
    intro i
    have a1 := hc1 i
    have a2 := hc2 i
    push_cast at a1 a2
    rw [sub_div] at a1
    rw [add_div] at a2
    exact ⟨a1, a2⟩
  have hi : ∀ i : Fin g.s, 1 / TT < (g.ic i : ℝ) / TT ∧ (g.ic i : ℝ) / TT + 1 / TT < 1 := by
    intro i
    constructor
    · refine div_lt_div_of_pos_right ?_ hT0
      exact_mod_cast (h5 i).1.1.2
    · rw [← add_div, div_lt_one hT0]
      unfold TT
      exact_mod_cast (h5 i).1.2
  have hinv : 0 < 1 / TT := by positivity
  refine ⟨c, hc3, fun i => ?_, fun i => ?_, fun i => ?_, fun i j hij => ?_⟩
  · rw [abs_le]
    constructor <;> linarith [(hb i).1, (hb i).2]
  · exact ⟨by linarith [(hb i).1, (hi i).1], by linarith [(hb i).2, (hi i).2]⟩
  · rw [abs_le]
    constructor <;> linarith [(hi i).1, (hi i).2]
  · have h6 := allLt_spec (h5 i).2 j j.2
    rw [Bool.or_eq_true, beq_iff_eq, decide_eq_true_eq] at h6
    have h7 := h6.resolve_left fun e => hij (Fin.ext e)
    have h8 : TT ≤ 50 * |(g.ic i : ℝ) - g.ic j| := by
      unfold TT
      exact_mod_cast h7
    have h9 : 1 / 50 ≤ |(g.ic i : ℝ) / TT - g.ic j / TT| := by
      rw [← sub_div, abs_div, abs_of_pos hT0, div_le_div_iff₀ (by norm_num) hT0]
      linarith
    have hsmall : 1 / TT ≤ 1 / 1000 := by
      unfold TT
      exact one_div_le_one_div_of_le (by norm_num) (by norm_num)
    have a1 : |c i - g.ic i / TT| ≤ 1 / TT := by
      rw [abs_le]; constructor <;> linarith [(hb i).1, (hb i).2]
    have a2 : |c j - g.ic j / TT| ≤ 1 / TT := by
      rw [abs_le]; constructor <;> linarith [(hb j).1, (hb j).2]
    have e : (g.ic i : ℝ) / TT - g.ic j / TT = (c i - c j) - (c i - g.ic i / TT) + (c j - g.ic j / TT) := by ring
    rw [e] at h9
    have t1 := abs_add_le ((c i - c j) - (c i - g.ic i / TT)) (c j - g.ic j / TT)
    have t2 := abs_sub (c i - c j) (c i - g.ic i / TT)
    linarith

theorem cond_real {m : ℕ} {a c : ℤ} {v : Fin m → ℤ} {cc : Fin m → ℤ} {k : ℕ} (ha : a = ∑ j, v j * cc j ^ k)
    (h : |((k : ℤ) + 1) * a - c ^ (k + 1)| * 10 ^ 85 ≤ ((k : ℤ) + 1) * (10 ^ 90) ^ (k + 1)) :
    |∑ j, (v j : ℝ) / TT * ((cc j : ℝ) / TT) ^ k - ((c : ℝ) / TT) ^ (k + 1) / (k + 1)| ≤ 1 / 10 ^ 85 := by
  have hT0 : (0 : ℝ) < TT := by unfold TT; positivity
  have h1 : |((k : ℝ) + 1) * a - c ^ (k + 1)| * 10 ^ 85 ≤ ((k : ℝ) + 1) * TT ^ (k + 1) := by
    unfold TT
    exact_mod_cast h
  have e : ∑ j, (v j : ℝ) / TT * ((cc j : ℝ) / TT) ^ k - ((c : ℝ) / TT) ^ (k + 1) / (k + 1)
      = (((k : ℝ) + 1) * a - c ^ (k + 1)) / (((k : ℝ) + 1) * TT ^ (k + 1)) := by
    have e1 : ∑ j, (v j : ℝ) / TT * ((cc j : ℝ) / TT) ^ k = (a : ℝ) / TT ^ (k + 1) := by
      rw [ha]
      push_cast
      rw [Finset.sum_div]
      refine Finset.sum_congr rfl fun j _ => ?_
      rw [div_pow, pow_succ]
      field_simp
    rw [e1, div_pow]
    have : (k : ℝ) + 1 ≠ 0 := by positivity
    field_simp
  have hd : (0 : ℝ) < ((k : ℝ) + 1) * TT ^ (k + 1) := by positivity
  rw [e, abs_div, abs_of_pos hd, div_le_div_iff₀ hd (by positivity), one_mul]
  exact h1

theorem abs_real {m : ℕ} {a : ℤ} {v : Fin m → ℤ} (ha : a = ∑ j, |v j|) (h : a ≤ 2 * 10 ^ 90) :
    ∑ j, |(v j : ℝ) / TT| ≤ 2 := by
  have hT0 : (0 : ℝ) < TT := by unfold TT; positivity
  simp only [abs_div, abs_of_pos hT0]
  rw [← Finset.sum_div, div_le_iff₀ hT0]
  rw [ha] at h
  unfold TT
  exact_mod_cast h

/-- **the Gauss method with the nodes, the matrix and the weights of the certificate, to 49 digits.** -/
theorem gauss_exact {g : GCert} (hg : g ∈ certs) : ∃ (c : Fin g.s → ℝ) (A : Fin g.s → Fin g.s → ℝ) (b : Fin g.s → ℝ),
    GaussMethod c A b ∧ (∀ i, 0 < c i ∧ c i < 1) ∧ (∀ i j : Fin g.s, |(g.iA i j : ℝ) / TT - A i j| ≤ 1 / 10 ^ 49) ∧
      ∀ j : Fin g.s, |(g.ib j : ℝ) / TT - b j| ≤ 1 / 10 ^ 49 := by
  have r1 := List.all_eq_true.1 certs_root g hg
  have r2 := List.all_eq_true.1 certs_orth g hg
  have r3 := List.all_eq_true.1 certs_cond g hg
  obtain ⟨s2, s16, hl, c, c1, c2, c3, c4, c5⟩ := root_spec r1
  simp only [okCond, Bool.and_eq_true, decide_eq_true_eq] at r3
  obtain ⟨⟨⟨k1, k2⟩, k3⟩, k4⟩ := r3
  have hinj : Function.Injective c := by
    intro i j hij
    by_contra hne
    have := c5 i j hne
    rw [hij, sub_self, abs_zero] at this
    norm_num at this
  have hG := gauss_of hinj fun m hm => by
    have e := orth_legP r2 hm
    have hl' : (lcoef g.s g.s : ℝ) ≠ 0 := by exact_mod_cast hl
    rw [nodal_legP hl hinj c1, mul_assoc, ← smul_eq_C_mul, map_smul, smul_eq_mul] at e
    exact (mul_eq_zero.1 e).resolve_left hl'
  have hc1 : ∀ i, |c i| ≤ 1 := fun i => by rw [abs_of_pos (c3 i).1]; exact (c3 i).2.le
  have small : ∀ (a : Fin g.s → ℝ) (d : Fin g.s → ℝ) (x x' : ℝ), |x| ≤ 1 → |x'| ≤ 1 → |x - x'| ≤ 1 / TT → ∑ j, |a j| ≤ 2 →
      (∀ k < g.s, |∑ j, a j * ((g.ic j : ℝ) / TT) ^ k - x' ^ (k + 1) / (k + 1)| ≤ 1 / 10 ^ 85) →
      (∀ k < g.s, ∑ j, d j * c j ^ k = x ^ (k + 1) / (k + 1)) → ∀ j, |a j - d j| ≤ 1 / 10 ^ 49 := by
    intro a d x x' x1 x2 x3 ha h1 h2 j
    have hm := moment_bound (c := c) (d := fun j => a j - d j) (r := 1 / 10 ^ 85 + 48 * (1 / TT)) (γ := 1 / 100) hc1
      (fun k hk => by
        have := moment_near s16 hc1 c4 x1 x2 c2 x3 ha hk (h1 k hk)
        rw [← h2 k hk, ← Finset.sum_sub_distrib] at this
        simpa only [sub_mul] using this) (by norm_num) c5 j
    have e1 : (1 / 100 : ℝ) ^ (g.s - 1) * 100 ^ (g.s - 1) = 1 := by rw [← mul_pow]; norm_num
    have e2 := mul_le_mul_of_nonneg_right hm (by positivity : (0 : ℝ) ≤ 100 ^ (g.s - 1))
    rw [mul_assoc, e1, mul_one, mul_assoc, ← mul_pow] at e2
    have e3 : ((2 : ℝ) * 100) ^ (g.s - 1) ≤ (2 * 100) ^ 15 := pow_le_pow_right₀ (by norm_num) (by omega)
    refine e2.trans ((mul_le_mul_of_nonneg_left e3 (by unfold TT; positivity)).trans ?_)
    unfold TT
    norm_num
  refine ⟨c, _, _, hG, c3, fun i j => ?_, fun j => ?_⟩
  · refine small (fun j => (g.iA i j : ℝ) / TT) _ (c i) ((g.ic i : ℝ) / TT) (hc1 i) (c4 i) (c2 i) ?_ ?_ (hG.colloc i) j
    · have := allLt_spec k3 i i.2
      rw [decide_eq_true_eq] at this
      exact abs_real (isum_spec _ _) this
    · intro k hk
      have := allLt_spec (allLt_spec k1 k hk) i i.2
      rw [decide_eq_true_eq] at this
      exact cond_real (cc := fun j => g.ic j) (isum_spec _ _) this
  · refine small (fun j => (g.ib j : ℝ) / TT) _ 1 1 (by norm_num) (by norm_num) (by rw [sub_self, abs_zero]; unfold TT; positivity)
      ?_ ?_ (fun k hk => by rw [one_pow]; exact hG.quad k (by omega)) j
    · exact abs_real (isum_spec _ _) k4
    · intro k hk
      have := allLt_spec k2 k hk
      rw [decide_eq_true_eq] at this
      have hT0 : TT ≠ 0 := by unfold TT; positivity
      have h := cond_real (cc := fun j => g.ic j) (v := fun j => g.ib j) (c := 10 ^ 90) (isum_spec _ _) this
      have e : (((10 ^ 90 : ℤ) : ℝ) / TT) = 1 := by
        unfold TT
        norm_num
      rw [e] at h
      exact h

end

end Odes.Symp
