import Verif.Lemmas.Sdirkl
import Mathlib.Analysis.Matrix.Spectrum
import Mathlib.Tactic.NormNum
import Mathlib.Tactic.Positivity
import Mathlib.Tactic.Linarith

/-!
# Expansion, uniqueness, linearity and stability of the step
-/

namespace Odes.Spec

open Matrix Finset

variable {α : Type} [Field α] {n s : ℕ}

/-- `A^k S`. -/
def powS (A : Fin s → Fin s → α) (S : Fin s → α) : ℕ → Fin s → α
  | 0 => S
  | k + 1 => fun i => ∑ j, A i j * powS A S k j

/-- `D A^k S`: coefficient of `(dt L)^(k+1)` in the step. -/
def weight (A : Fin s → Fin s → α) (S D : Fin s → α) (k : ℕ) : α := ∑ i, D i * powS A S k i

/-- `D A^k`. -/
def powD (A : Fin s → Fin s → α) (D : Fin s → α) : ℕ → Fin s → α
  | 0 => D
  | k + 1 => fun j => ∑ i, powD A D k i * A i j

theorem powD_powS (A : Fin s → Fin s → α) (D : Fin s → α) : ∀ (k : ℕ) (S : Fin s → α),
    ∑ i, powD A D k i * S i = ∑ i, D i * powS A S k i
  | 0, S => rfl
  | k + 1, S => by
    have e : ∀ k, powS A S (k + 1) = powS A (fun i => ∑ j, A i j * S j) k := by
      intro k
      induction k with
      | zero => rfl
      | succ k ih => funext i; rw [powS, ih]; rfl
    rw [e k, ← powD_powS A D k]
    simp only [powD, Finset.sum_mul, Finset.mul_sum]
    rw [Finset.sum_comm]
    refine Finset.sum_congr rfl fun i _ => Finset.sum_congr rfl fun j _ => by ring

variable {A : Fin s → Fin s → α} {S D : Fin s → α} {dt : α} {L : Matrix (Fin n) (Fin n) α}

/-- expansion of the step in powers of `dt L`, with remainder. -/
theorem IsZStep.expand {g u u' : Fin n → α} (h : IsZStep A S D dt L g u u') :
    ∃ Z : Fin s → Fin n → α,
      (∀ i, Z i = dt • (L *ᵥ (S i • u + ∑ j, A i j • Z j)) + (dt * S i) • g) ∧
      ∀ p, u' = u + (∑ k ∈ range p, (weight A S D k * dt ^ (k + 1)) •
        ((L ^ k) *ᵥ (L *ᵥ u + g))) + dt ^ p • ((L ^ p) *ᵥ ∑ i, powD A D p i • Z i) := by
  obtain ⟨Z, hZ, hu⟩ := h
  refine ⟨Z, hZ, ?_⟩
  have hZ' : ∀ i, Z i = (dt * S i) • (L *ᵥ u + g) + dt • (L *ᵥ ∑ j, A i j • Z j) := by
    intro i
    conv_lhs => rw [hZ i]
    rw [Matrix.mulVec_add, Matrix.mulVec_smul]
    module
  have hk : ∀ k, ∑ i, powD A D k i • Z i = (weight A S D k * dt) • (L *ᵥ u + g)
      + dt • (L *ᵥ ∑ i, powD A D (k + 1) i • Z i) := by
    intro k
    conv_lhs => rw [Finset.sum_congr rfl fun i _ => by rw [hZ' i]]
    generalize L *ᵥ u + g = w
    simp only [smul_add, Finset.sum_add_distrib, smul_smul, ← Finset.sum_smul]
    congr 1
    · congr 1
      rw [weight, ← powD_powS, Finset.sum_mul]
      exact Finset.sum_congr rfl fun i _ => by ring
    · rw [Finset.sum_congr rfl fun i _ => by rw [mul_comm, ← smul_smul],
        ← Finset.smul_sum]
      congr 1
      simp only [Matrix.mulVec_sum, Matrix.mulVec_smul, powD, Finset.sum_smul, Finset.smul_sum,
        smul_smul]
      rw [Finset.sum_comm]
  intro q
  induction q with
  | zero =>
    rw [hu]; simp only [range_zero, sum_empty, pow_zero, one_smul, Matrix.one_mulVec, powD]
    abel
  | succ q ih =>
    rw [ih, hk q, Finset.sum_range_succ, Matrix.mulVec_add, Matrix.mulVec_smul,
      Matrix.mulVec_smul, Matrix.mulVec_mulVec, ← pow_succ]
    module

/-- the step with row sums different from `S` needs the same injectivity for uniqueness. -/
theorem IsZStep.unique {g u u' u'' : Fin n → α} (hA : ∀ i j, i < j → A i j = 0)
    (hL : ∀ i, IsUnit (1 - (dt * A i i) • L)) (h' : IsZStep A S D dt L g u u')
    (h'' : IsZStep A S D dt L g u u'') : u' = u'' := by
  obtain ⟨k, hk, rfl⟩ := h'
  obtain ⟨l, hl, rfl⟩ := h''
  have e : ∀ m : ℕ, ∀ i : Fin s, i.1 < m → k i = l i := by
    intro m
    induction m with
    | zero => intro i hi; omega
    | succ m ih =>
      intro i hi
      have hs : ∀ f : Fin s → Fin n → α, ∑ j, A i j • f j
          = A i i • f i + ∑ j ∈ Finset.univ.filter (· < i), A i j • f j := by
        intro f
        rw [← Finset.sum_filter_add_sum_filter_not Finset.univ (· < i), add_comm]
        congr 1
        rw [Finset.sum_eq_single i]
        · intro j hj hne
          have : ¬ j < i := by simpa using hj
          rw [hA i j (lt_of_le_of_ne (not_lt.1 this) (Ne.symm hne)), zero_smul]
        · intro h; simp at h
      have hlow : ∑ j ∈ Finset.univ.filter (· < i), A i j • k j
          = ∑ j ∈ Finset.univ.filter (· < i), A i j • l j := by
        refine Finset.sum_congr rfl fun j hj => ?_
        have : j < i := by simpa using hj
        rw [ih j (by omega)]
      have h1 := hk i
      have h2 := hl i
      rw [hs] at h1 h2
      rw [hlow] at h1
      have h3 : (1 - (dt * A i i) • L) *ᵥ (k i - l i) = 0 := by
        rw [Matrix.sub_mulVec, Matrix.one_mulVec, Matrix.smul_mulVec, Matrix.mulVec_sub]
        simp only [Matrix.mulVec_add, Matrix.mulVec_smul] at h1 h2
        linear_combination (norm := module) h1 - h2
      have := (Matrix.mulVec_injective_iff_isUnit.2 (hL i))
      have h4 : k i - l i = 0 := this (by rw [h3, Matrix.mulVec_zero])
      exact sub_eq_zero.1 h4
  have : k = l := funext fun i => e (i.1 + 1) i (Nat.lt_succ_self _)
  rw [this]

theorem IsZStep.comb {g u u' h v v' : Fin n → α} (a b : α) (h1 : IsZStep A S D dt L g u u')
    (h2 : IsZStep A S D dt L h v v') :
    IsZStep A S D dt L (a • g + b • h) (a • u + b • v) (a • u' + b • v') := by
  obtain ⟨Y, hY, rfl⟩ := h1
  obtain ⟨Z, hZ, rfl⟩ := h2
  refine ⟨fun i => a • Y i + b • Z i, fun i => ?_, ?_⟩
  · have e : ∑ j, A i j • (a • Y j + b • Z j) = a • ∑ j, A i j • Y j + b • ∑ j, A i j • Z j := by
      rw [Finset.smul_sum, Finset.smul_sum, ← Finset.sum_add_distrib]
      exact Finset.sum_congr rfl fun j _ => by module
    have h1 := hY i
    have h2 := hZ i
    beta_reduce
    conv_lhs => rw [h1, h2]
    rw [e]
    simp only [Matrix.mulVec_add, Matrix.mulVec_smul]
    module
  · have e : ∑ i, D i • (a • Y i + b • Z i) = a • ∑ i, D i • Y i + b • ∑ i, D i • Z i := by
      rw [Finset.smul_sum, Finset.smul_sum, ← Finset.sum_add_distrib]
      exact Finset.sum_congr rfl fun j _ => by module
    rw [e]; module

/-- a left eigenvector reduces the step to a scalar one. -/
theorem IsZStep.left {u u' e : Fin n → α} {lam : α} (he : e ᵥ* L = lam • e)
    (h : IsZStep A S D dt L 0 u u') :
    ∃ ζ : Fin s → α, (∀ i, ζ i = (dt * lam) * (S i * (e ⬝ᵥ u) + ∑ j, A i j * ζ j)) ∧
      e ⬝ᵥ u' = e ⬝ᵥ u + ∑ i, D i * ζ i := by
  obtain ⟨Z, hZ, rfl⟩ := h
  refine ⟨fun i => e ⬝ᵥ Z i, fun i => ?_, ?_⟩
  · beta_reduce
    conv_lhs => rw [hZ i]
    rw [smul_zero, add_zero, dotProduct_smul, dotProduct_mulVec, he, smul_dotProduct,
      dotProduct_add, dotProduct_smul, dotProduct_sum]
    simp only [dotProduct_smul, smul_eq_mul]
    ring
  · rw [dotProduct_add, dotProduct_sum]
    simp only [dotProduct_smul, smul_eq_mul]

/-- the scalar step does not increase: the method is stable on the negative axis. -/
def StableNeg (A : Fin s → Fin s → ℝ) (S D : Fin s → ℝ) : Prop :=
  ∀ z a : ℝ, ∀ ζ : Fin s → ℝ, z ≤ 0 → (∀ i, ζ i = z * (S i * a + ∑ j, A i j * ζ j)) →
    (a + ∑ i, D i * ζ i) ^ 2 ≤ a ^ 2

/-- unweighted case. -/
theorem IsZStep.energy_symm {A : Fin s → Fin s → ℝ} {S D : Fin s → ℝ} {dt : ℝ}
    {L : Matrix (Fin n) (Fin n) ℝ} {u u' : Fin n → ℝ} (hst : StableNeg A S D) (hdt : 0 ≤ dt)
    (hL : L.IsSymm) (hneg : ∀ v : Fin n → ℝ, v ⬝ᵥ (L *ᵥ v) ≤ 0)
    (h : IsZStep A S D dt L 0 u u') : u' ⬝ᵥ u' ≤ u ⬝ᵥ u := by
  have hH : L.IsHermitian := by rw [Matrix.IsHermitian, Matrix.conjTranspose_eq_transpose_of_trivial]; exact hL
  let B := hH.eigenvectorBasis
  have hB : ∀ k, L *ᵥ (B k).ofLp = hH.eigenvalues k • (B k).ofLp := hH.mulVec_eigenvectorBasis
  have hleft : ∀ k, (B k).ofLp ᵥ* L = hH.eigenvalues k • (B k).ofLp := by
    intro k
    rw [← hB k, ← Matrix.mulVec_transpose, hL.eq]
  have hval : ∀ k, hH.eigenvalues k ≤ 0 := by
    intro k
    have h1 := hneg (B k).ofLp
    rw [hB k, dotProduct_smul, smul_eq_mul] at h1
    have h2 : (B k).ofLp ⬝ᵥ (B k).ofLp = 1 := by
      have := B.orthonormal.1 k
      have h3 := real_inner_self_eq_norm_sq (B k)
      rw [this] at h3
      rw [EuclideanSpace.inner_eq_star_dotProduct] at h3
      simpa using h3
    rw [h2, mul_one] at h1
    exact h1
  have hpars : ∀ v : Fin n → ℝ, v ⬝ᵥ v = ∑ k, ((B k).ofLp ⬝ᵥ v) ^ 2 := by
    intro v
    have h1 := B.sum_sq_norm_inner_right (WithLp.toLp 2 v)
    have h2 := real_inner_self_eq_norm_sq (WithLp.toLp 2 v)
    rw [EuclideanSpace.inner_eq_star_dotProduct] at h2
    have h3 : v ⬝ᵥ v = ‖(WithLp.toLp 2 v : EuclideanSpace ℝ (Fin n))‖ ^ 2 := by simpa using h2
    rw [h3, ← h1]
    refine Finset.sum_congr rfl fun k _ => ?_
    rw [EuclideanSpace.inner_eq_star_dotProduct]
    simp [dotProduct_comm]
  rw [hpars u', hpars u]
  refine Finset.sum_le_sum fun k _ => ?_
  obtain ⟨ζ, h1, h2⟩ := h.left (hleft k)
  rw [h2]
  exact hst _ _ ζ (mul_nonpos_of_nonneg_of_nonpos hdt (hval k)) h1

end Odes.Spec

namespace Odes.Spec

open Matrix Finset

variable {n s : ℕ}

/-- weighted case: `L` symmetric for the scalar product with positive weights `w`. -/
theorem IsZStep.energy {A : Fin s → Fin s → ℝ} {S D : Fin s → ℝ} {dt : ℝ}
    {L : Matrix (Fin n) (Fin n) ℝ} {u u' : Fin n → ℝ} (hst : StableNeg A S D) (hdt : 0 ≤ dt)
    (w : Fin n → ℝ) (hw : ∀ i, 0 < w i) (hL : ∀ i j, w i * L i j = w j * L j i)
    (hneg : ∀ v : Fin n → ℝ, ∑ i, w i * v i * (L *ᵥ v) i ≤ 0)
    (h : IsZStep A S D dt L 0 u u') : ∑ i, w i * u' i ^ 2 ≤ ∑ i, w i * u i ^ 2 := by
  have hr : ∀ i, 0 < √(w i) := fun i => Real.sqrt_pos.2 (hw i)
  have hrr : ∀ i, √(w i) * √(w i) = w i := fun i => Real.mul_self_sqrt (hw i).le
  let M : Matrix (Fin n) (Fin n) ℝ := fun i j => √(w i) * L i j / √(w j)
  have hM : ∀ v : Fin n → ℝ, M *ᵥ (fun i => √(w i) * v i) = fun i => √(w i) * (L *ᵥ v) i := by
    intro v
    funext i
    simp only [Matrix.mulVec, dotProduct, M, Finset.mul_sum]
    refine Finset.sum_congr rfl fun j _ => ?_
    have := (hr j).ne'
    field_simp
  have hsym : M.IsSymm := by
    ext i j
    show √(w j) * L j i / √(w i) = √(w i) * L i j / √(w j)
    have h1 := (hr i).ne'
    have h2 := (hr j).ne'
    rw [div_eq_div_iff h1 h2]
    have := hL i j
    rw [← hrr i, ← hrr j] at this
    linarith
  have key : ∀ v : Fin n → ℝ, (fun i => √(w i) * v i) ⬝ᵥ (fun i => √(w i) * v i)
      = ∑ i, w i * v i ^ 2 := by
    intro v
    refine Finset.sum_congr rfl fun i _ => ?_
    rw [← hrr i]; ring
  have hn : ∀ v : Fin n → ℝ, v ⬝ᵥ (M *ᵥ v) ≤ 0 := by
    intro v
    have e : v = fun i => √(w i) * (v i / √(w i)) := by
      funext i
      rw [mul_div_cancel₀ _ (hr i).ne']
    have hx : ∀ x : Fin n → ℝ, (fun i => √(w i) * x i) ⬝ᵥ (M *ᵥ fun i => √(w i) * x i) ≤ 0 := by
      intro x
      rw [hM]
      refine le_trans (le_of_eq ?_) (hneg x)
      refine Finset.sum_congr rfl fun i _ => ?_
      rw [← hrr i]
      ring
    rw [e]
    exact hx _
  have hz : IsZStep A S D dt M 0 (fun i => √(w i) * u i) (fun i => √(w i) * u' i) := by
    obtain ⟨Z, hZ, rfl⟩ := h
    refine ⟨fun k i => √(w i) * Z k i, fun k => ?_, ?_⟩
    · have e : S k • (fun i => √(w i) * u i) + ∑ j, A k j • (fun i => √(w i) * Z j i)
          = fun i => √(w i) * (S k • u + ∑ j, A k j • Z j) i := by
        funext i
        simp only [Pi.add_apply, Pi.smul_apply, Finset.sum_apply, smul_eq_mul, mul_add,
          Finset.mul_sum]
        congr 1
        · ring
        · exact Finset.sum_congr rfl fun j _ => by ring
      rw [e, hM]
      funext i
      show √(w i) * Z k i = _
      conv_lhs => rw [hZ k]
      simp only [smul_zero, add_zero, Pi.smul_apply, smul_eq_mul]
      ring
    · funext i
      simp only [Pi.add_apply, Pi.smul_apply, Finset.sum_apply, smul_eq_mul, mul_add,
          Finset.mul_sum]
      congr 1
      exact Finset.sum_congr rfl fun j _ => by ring
  have := hz.energy_symm hst hdt hsym hn
  rwa [key, key] at this

end Odes.Spec
