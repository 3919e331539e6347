import Verif.Lemmas.Colloc
import Verif.Lemmas.GermFlow
import Mathlib.Analysis.Calculus.MeanValue
import Mathlib.Analysis.Calculus.ContDiff.Operations

/-!
# Taylor polynomials of smooth functions of several variables

Homogeneous parts by iterated partial derivatives, the remainder with a constant uniform on a compact set, and the Taylor
polynomials at a family of points as one polynomial with bounded coefficients.
-/

namespace Odes.Colloc

open Odes.Germ

noncomputable section

variable {n m : ℕ} {K : Set (Fin n → ℝ)} {g : (Fin n → ℝ) → ℝ} {Θ : Type}

/-- partial derivative. -/
def pd (j : Fin n) (g : (Fin n → ℝ) → ℝ) : (Fin n → ℝ) → ℝ := fun x => fderiv ℝ g x (Pi.single j 1)

/-- `m` times continuously differentiable near the points of `K`. -/
def Sm (K : Set (Fin n → ℝ)) (m : ℕ) (g : (Fin n → ℝ) → ℝ) : Prop := ∀ x ∈ K, ContDiffAt ℝ m g x

theorem Sm.pd (h : Sm K (m + 1) g) (j : Fin n) : Sm K m (pd j g) := fun x hx =>
  ((h x hx).fderiv_right (m := m) (by norm_cast)).clm_apply contDiffAt_const

theorem Sm.mono {q : ℕ} (h : Sm K m g) (hq : q ≤ m) : Sm K q g := fun x hx => (h x hx).of_le (by exact_mod_cast hq)

theorem Sm.bound (hK : IsCompact K) (h : Sm K m g) : ∃ C : ℝ, 0 ≤ C ∧ ∀ x ∈ K, |g x| ≤ C := by
  obtain ⟨C, hC⟩ := hK.exists_bound_of_continuousOn (f := g) fun x hx => (h x hx).continuousAt.continuousWithinAt
  exact ⟨|C|, abs_nonneg C, fun x hx => (hC x hx).trans (le_abs_self C)⟩

/-- the homogeneous part of degree `k` of the Taylor expansion of `g` at `x`. -/
def hom : ℕ → ((Fin n → ℝ) → ℝ) → (Fin n → ℝ) → (Fin n → ℝ) → ℝ
  | 0, g, x, _ => g x
  | k + 1, g, x, d => 1 / ((k : ℝ) + 1) * ∑ j, d j * hom k (pd j g) x d

theorem hom_smul (k : ℕ) (g : (Fin n → ℝ) → ℝ) (x d : Fin n → ℝ) (s : ℝ) : hom k g x (s • d) = s ^ k * hom k g x d := by
  induction k generalizing g with
  | zero => simp [hom]
  | succ k ih =>
    simp only [hom, ih, Pi.smul_apply, smul_eq_mul]
    rw [Finset.mul_sum, Finset.mul_sum, Finset.mul_sum]
    exact Finset.sum_congr rfl fun j _ => by ring

theorem fderiv_sum (x d : Fin n → ℝ) : fderiv ℝ g x d = ∑ j, d j * pd j g x := by
  have e : d = ∑ j, d j • (Pi.single j 1 : Fin n → ℝ) := by
    funext i
    simp [Finset.sum_apply, Pi.single_apply]
  conv_lhs => rw [e]
  rw [map_sum]
  exact Finset.sum_congr rfl fun j _ => by rw [map_smul, smul_eq_mul]; rfl

/-- **Taylor's theorem**, the constant being uniform. -/
theorem hom_near (hK : IsCompact K) (m : ℕ) (g : (Fin n → ℝ) → ℝ) (hg : Sm K m g) : ∃ C : ℝ, 0 ≤ C ∧ ∀ x d : Fin n → ℝ,
    (∀ s ∈ Set.Icc (0 : ℝ) 1, x + s • d ∈ K) → |g (x + d) - ∑ k ∈ Finset.range m, hom k g x d| ≤ C * ‖d‖ ^ m := by
  induction m generalizing g with
  | zero =>
    obtain ⟨C, c0, hC⟩ := hg.bound hK
    refine ⟨C, c0, fun x d h => ?_⟩
    have := hC _ (h 1 ⟨zero_le_one, le_rfl⟩)
    simpa using this
  | succ m ih =>
    have hc := fun j => ih (pd j g) (hg.pd j)
    choose C c0 hC using hc
    refine ⟨∑ j, C j, Finset.sum_nonneg fun j _ => c0 j, fun x d h => ?_⟩
    have hd : ∀ z ∈ Set.Icc (0 : ℝ) 1, HasDerivWithinAt
        (fun z : ℝ => g (x + z • d) - ∑ k ∈ Finset.range (m + 1), z ^ k * hom k g x d)
        (∑ j, d j * (pd j g (x + z • d) - ∑ k ∈ Finset.range m, hom k (pd j g) x (z • d))) (Set.Icc 0 1) z := by
      intro z hz
      have d1 : HasDerivAt (fun z : ℝ => x + z • d) d z := by
        simpa using ((hasDerivAt_id z).smul_const d).const_add x
      have d2 : HasFDerivAt g (fderiv ℝ g (x + z • d)) (x + z • d) :=
        ((hg _ (h z hz)).differentiableAt (by norm_cast)).hasFDerivAt
      have d3 := d2.comp_hasDerivAt z d1
      rw [fderiv_sum] at d3
      have d4 : HasDerivAt (fun z : ℝ => ∑ k ∈ Finset.range (m + 1), z ^ k * hom k g x d)
          (∑ k ∈ Finset.range m, ∑ j, d j * hom k (pd j g) x (z • d)) z := by
        have e : (fun z : ℝ => ∑ k ∈ Finset.range (m + 1), z ^ k * hom k g x d)
            = fun z : ℝ => ∑ k ∈ Finset.range m, z ^ (k + 1) * hom (k + 1) g x d + hom 0 g x d := by
          funext z
          rw [Finset.sum_range_succ', pow_zero, one_mul]
        rw [e]
        refine HasDerivAt.add_const _ (HasDerivAt.fun_sum fun k _ => ?_)
        refine ((hasDerivAt_pow (k + 1) z).mul_const _).congr_deriv ?_
        simp only [hom, hom_smul]
        have : (k : ℝ) + 1 ≠ 0 := by positivity
        rw [Finset.mul_sum, Finset.mul_sum]
        refine Finset.sum_congr rfl fun j _ => ?_
        push_cast
        field_simp
      refine (d3.sub d4).hasDerivWithinAt.congr_deriv ?_
      rw [Finset.sum_comm, ← Finset.sum_sub_distrib]
      exact Finset.sum_congr rfl fun j _ => by rw [mul_sub, Finset.mul_sum]
    have hb : ∀ z ∈ Set.Ico (0 : ℝ) 1,
        ‖∑ j, d j * (pd j g (x + z • d) - ∑ k ∈ Finset.range m, hom k (pd j g) x (z • d))‖
          ≤ (∑ j, C j) * ‖d‖ ^ (m + 1) := by
      intro z hz
      refine (norm_sum_le _ _).trans ?_
      rw [Finset.sum_mul]
      refine Finset.sum_le_sum fun j _ => ?_
      rw [norm_mul, pow_succ]
      have h1 := hC j x (z • d) fun s hs => by
        rw [smul_smul]
        exact h _ ⟨mul_nonneg hs.1 hz.1, by nlinarith [hs.1, hs.2, hz.1, hz.2]⟩
      have h2 : ‖z • d‖ ≤ ‖d‖ := by
        rw [norm_smul, Real.norm_eq_abs, abs_of_nonneg hz.1]
        nlinarith [hz.2, norm_nonneg d]
      have h3 := h1.trans (mul_le_mul_of_nonneg_left (pow_le_pow_left₀ (norm_nonneg _) h2 m) (c0 j))
      rw [← Real.norm_eq_abs] at h3
      refine (mul_le_mul (norm_le_pi_norm d j) h3 (norm_nonneg _) (norm_nonneg d)).trans (le_of_eq ?_)
      ring
    have := norm_image_sub_le_of_norm_deriv_le_segment' hd hb 1 ⟨zero_le_one, le_rfl⟩
    have e0 : g (x + (0 : ℝ) • d) - ∑ k ∈ Finset.range (m + 1), (0 : ℝ) ^ k * hom k g x d = 0 := by
      rw [Finset.sum_range_succ']
      simp [hom]
    simp only [e0, sub_zero, mul_one, one_smul, one_pow, one_mul] at this
    rwa [Real.norm_eq_abs] at this

/-! ### polynomials with bounded coefficients -/

/-- the value of the coefficients at `θ`. -/
def at_ (θ : Θ) : MvPolynomial (Fin n) (bdd Θ) →+* MvPolynomial (Fin n) ℝ := MvPolynomial.map (ev θ : bdd Θ →+* ℝ)

theorem at_C (θ : Θ) (a : bdd Θ) : at_ θ (MvPolynomial.C a : MvPolynomial (Fin n) (bdd Θ)) = MvPolynomial.C (a.1 θ) := by
  rw [at_, MvPolynomial.map_C]; rfl

theorem at_X (θ : Θ) (j : Fin n) : at_ θ (MvPolynomial.X j : MvPolynomial (Fin n) (bdd Θ)) = MvPolynomial.X j := by
  rw [at_, MvPolynomial.map_X]

theorem at_pderiv (θ : Θ) (j : Fin n) (p : MvPolynomial (Fin n) (bdd Θ)) :
    at_ θ (MvPolynomial.pderiv j p) = MvPolynomial.pderiv j (at_ θ p) := by
  rw [at_, MvPolynomial.pderiv_map]

theorem ev_aeval (θ : Θ) (v : Fin n → bdd Θ) (p : MvPolynomial (Fin n) (bdd Θ)) :
    ev θ (MvPolynomial.aeval v p) = MvPolynomial.aeval (fun j => ev θ (v j)) (at_ θ p) := by
  induction p using MvPolynomial.induction_on with
  | C a => rw [at_C, MvPolynomial.aeval_C, MvPolynomial.aeval_C]; rfl
  | add p q hp hq => rw [map_add, map_add, hp, hq, map_add, map_add]
  | mul_X p i hp => rw [map_mul, map_mul, hp, map_mul, map_mul, at_X, MvPolynomial.aeval_X, MvPolynomial.aeval_X]

theorem at_D (θ : Θ) (P : Fin n → MvPolynomial (Fin n) (bdd Θ)) (g : MvPolynomial (Fin n) (bdd Θ)) :
    at_ θ (D P g) = D (fun j => at_ θ (P j)) (at_ θ g) := by
  rw [D, D, map_sum]
  exact Finset.sum_congr rfl fun j _ => by rw [map_mul, at_pderiv]

theorem ev_taylor (θ : Θ) (P : Fin n → MvPolynomial (Fin n) (bdd Θ)) (ε : bdd Θ) (v : Fin n → bdd Θ) (N : ℕ)
    (g : MvPolynomial (Fin n) (bdd Θ)) :
    ev θ (taylor P ε v N g) = taylor (fun j => at_ θ (P j)) (ev θ ε) (fun j => ev θ (v j)) N (at_ θ g) := by
  have hi : ∀ m, at_ θ ((D P)^[m] g) = (D fun j => at_ θ (P j))^[m] (at_ θ g) := by
    intro m
    induction m with
    | zero => rfl
    | succ m ih => rw [Function.iterate_succ_apply', Function.iterate_succ_apply', at_D, ih]
  unfold taylor
  rw [map_sum]
  refine Finset.sum_congr rfl fun m _ => ?_
  rw [map_smul, map_mul, map_pow, ev_aeval, hi]

theorem at_bound (p : MvPolynomial (Fin n) (bdd Θ)) (R : ℝ) :
    ∃ C : ℝ, 0 ≤ C ∧ ∀ θ (d : Fin n → ℝ), ‖d‖ ≤ R → |MvPolynomial.aeval d (at_ θ p)| ≤ C := by
  induction p using MvPolynomial.induction_on with
  | C a =>
    obtain ⟨B, hB⟩ := a.2
    refine ⟨|B|, abs_nonneg B, fun θ d _ => ?_⟩
    rw [at_C, MvPolynomial.aeval_C]
    exact (hB θ).trans (le_abs_self B)
  | add p q hp hq =>
    obtain ⟨C1, c1, h1⟩ := hp
    obtain ⟨C2, c2, h2⟩ := hq
    refine ⟨C1 + C2, by positivity, fun θ d hd => ?_⟩
    rw [map_add, map_add]
    exact (abs_add_le _ _).trans (add_le_add (h1 θ d hd) (h2 θ d hd))
  | mul_X p i hp =>
    obtain ⟨C1, c1, h1⟩ := hp
    refine ⟨C1 * |R|, by positivity, fun θ d hd => ?_⟩
    rw [map_mul, map_mul, at_X, MvPolynomial.aeval_X, abs_mul]
    exact mul_le_mul (h1 θ d hd) (((norm_le_pi_norm d i).trans hd).trans (le_abs_self R)) (abs_nonneg _) c1

open Classical in
/-- a bounded function. -/
def toB (f : Θ → ℝ) : bdd Θ := if h : f ∈ bdd Θ then ⟨f, h⟩ else 0

theorem toB_apply {f : Θ → ℝ} {C : ℝ} (h : ∀ θ, |f θ| ≤ C) (θ : Θ) : (toB f).1 θ = f θ := by
  have : f ∈ bdd Θ := ⟨C, h⟩
  rw [toB, dif_pos this]

/-- the homogeneous parts of the Taylor expansions at the points `x`. -/
def homP (x : Θ → Fin n → ℝ) : ℕ → ((Fin n → ℝ) → ℝ) → MvPolynomial (Fin n) (bdd Θ)
  | 0, g => MvPolynomial.C (toB fun θ => g (x θ))
  | k + 1, g => MvPolynomial.C (algebraMap ℝ _ (1 / ((k : ℝ) + 1))) * ∑ j, MvPolynomial.X j * homP x k (pd j g)

theorem at_homP (hK : IsCompact K) {x : Θ → Fin n → ℝ} (hx : ∀ θ, x θ ∈ K) (k : ℕ) (g : (Fin n → ℝ) → ℝ) (hg : Sm K k g)
    (θ : Θ) (d : Fin n → ℝ) : MvPolynomial.aeval d (at_ θ (homP x k g)) = hom k g (x θ) d := by
  induction k generalizing g with
  | zero =>
    obtain ⟨C, -, hC⟩ := hg.bound hK
    rw [homP, at_C, MvPolynomial.aeval_C, toB_apply (fun θ => hC _ (hx θ))]
    rfl
  | succ k ih =>
    rw [homP, map_mul, map_mul, at_C, MvPolynomial.aeval_C, map_sum, map_sum, hom]
    congr 1
    refine Finset.sum_congr rfl fun j _ => ?_
    rw [map_mul, map_mul, at_X, MvPolynomial.aeval_X, ih _ (hg.pd j)]

/-- the Taylor polynomials of degree less than `m`. -/
def tay (x : Θ → Fin n → ℝ) (m : ℕ) (g : (Fin n → ℝ) → ℝ) : MvPolynomial (Fin n) (bdd Θ) :=
  ∑ k ∈ Finset.range m, homP x k g

theorem tay_near (hK : IsCompact K) {x : Θ → Fin n → ℝ} (m : ℕ) (g : (Fin n → ℝ) → ℝ) (hg : Sm K m g)
    (hx : ∀ θ, x θ ∈ K) : ∃ C : ℝ, 0 ≤ C ∧ ∀ θ (d : Fin n → ℝ), (∀ s ∈ Set.Icc (0 : ℝ) 1, x θ + s • d ∈ K) →
      |g (x θ + d) - MvPolynomial.aeval d (at_ θ (tay x m g))| ≤ C * ‖d‖ ^ m := by
  obtain ⟨C, c0, hC⟩ := hom_near hK m g hg
  refine ⟨C, c0, fun θ d h => ?_⟩
  have e : MvPolynomial.aeval d (at_ θ (tay x m g)) = ∑ k ∈ Finset.range m, hom k g (x θ) d := by
    rw [tay, map_sum, map_sum]
    exact Finset.sum_congr rfl fun k hk => at_homP hK hx k g (hg.mono (Finset.mem_range.1 hk).le) θ d
  rw [e]
  exact hC _ _ h

end

end Odes.Colloc
