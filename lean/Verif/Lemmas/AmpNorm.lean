import Verif.Lemmas.Rock4StabTab
import Mathlib.Analysis.Matrix.Spectrum

/-!
# From the amplification factor to the norm of a step
-/

namespace Odes

open Matrix
open Spec

variable {n : ℕ}

/-- `A` is symmetric for the scalar product with positive weights `w` and its spectrum lies in
`[-ρ, 0]`. -/
structure SymSpec (w : Fin n → ℝ) (A : Matrix (Fin n) (Fin n) ℝ) (ρ : ℝ) : Prop where
  pos : ∀ i, 0 < w i
  sym : ∀ i j, w i * A i j = w j * A j i
  hi : ∀ v : Fin n → ℝ, ∑ i, w i * v i * (A *ᵥ v) i ≤ 0
  lo : ∀ v : Fin n → ℝ, -(ρ * ∑ i, w i * v i ^ 2) ≤ ∑ i, w i * v i * (A *ᵥ v) i

/-- coordinates in an orthonormal basis of eigenvectors. -/
theorem SymSpec.modes {w : Fin n → ℝ} {A : Matrix (Fin n) (Fin n) ℝ} {ρ : ℝ} (hA : SymSpec w A ρ) :
    ∃ (φ : Fin n → (Fin n → ℝ) →ₗ[ℝ] ℝ) (lam : Fin n → ℝ),
      (∀ k v, φ k (A *ᵥ v) = lam k * φ k v) ∧ (∀ k, lam k ≤ 0 ∧ -ρ ≤ lam k) ∧
      ∀ v, ∑ i, w i * v i ^ 2 = ∑ k, φ k v ^ 2 := by
  have hr : ∀ i, 0 < √(w i) := fun i => Real.sqrt_pos.2 (hA.pos i)
  have hrr : ∀ i, √(w i) * √(w i) = w i := fun i => Real.mul_self_sqrt (hA.pos i).le
  let M : Matrix (Fin n) (Fin n) ℝ := fun i j => √(w i) * A i j / √(w j)
  have hM : ∀ v : Fin n → ℝ, M *ᵥ (fun i => √(w i) * v i) = fun i => √(w i) * (A *ᵥ v) i := by
    intro v
    funext i
    simp only [Matrix.mulVec, dotProduct, M, Finset.mul_sum]
    refine Finset.sum_congr rfl fun j _ => ?_
    have := (hr j).ne'
    field_simp
  have hsym : M.IsSymm := by
    ext i j
    show √(w j) * A j i / √(w i) = √(w i) * A i j / √(w j)
    have h1 := (hr i).ne'
    have h2 := (hr j).ne'
    rw [div_eq_div_iff h1 h2]
    have := hA.sym i j
    rw [← hrr i, ← hrr j] at this
    linarith
  have hH : M.IsHermitian := by
    rw [Matrix.IsHermitian, Matrix.conjTranspose_eq_transpose_of_trivial]; exact hsym
  let B := hH.eigenvectorBasis
  have hB : ∀ k, M *ᵥ (B k).ofLp = hH.eigenvalues k • (B k).ofLp := hH.mulVec_eigenvectorBasis
  have hone : ∀ k, (B k).ofLp ⬝ᵥ (B k).ofLp = 1 := by
    intro k
    have := B.orthonormal.1 k
    have h3 := real_inner_self_eq_norm_sq (B k)
    rw [this] at h3
    rw [EuclideanSpace.inner_eq_star_dotProduct] at h3
    simpa using h3
  have hpars : ∀ v : Fin n → ℝ, v ⬝ᵥ v = ∑ k, ((B k).ofLp ⬝ᵥ v) ^ 2 := by
    intro v
    have h1 := B.sum_sq_norm_inner_right (WithLp.toLp 2 v)
    have h2 := real_inner_self_eq_norm_sq (WithLp.toLp 2 v)
    rw [EuclideanSpace.inner_eq_star_dotProduct] at h2
    have h3 : v ⬝ᵥ v = ‖(WithLp.toLp 2 v : EuclideanSpace ℝ (Fin n))‖ ^ 2 := by simpa using h2
    rw [h3, ← h1]
    refine Finset.sum_congr rfl fun k _ => ?_
    rw [EuclideanSpace.inner_eq_star_dotProduct]
    simp [dotProduct_comm]
  have key : ∀ v : Fin n → ℝ, ∑ i, w i * v i ^ 2
      = (fun i => √(w i) * v i) ⬝ᵥ (fun i => √(w i) * v i) := by
    intro v
    refine Finset.sum_congr rfl fun i _ => ?_
    rw [← hrr i]; ring
  have hform : ∀ v : Fin n → ℝ, v ⬝ᵥ (M *ᵥ v) ≤ 0 ∧ -(ρ * (v ⬝ᵥ v)) ≤ v ⬝ᵥ (M *ᵥ v) := by
    intro v
    have e : v = fun i => √(w i) * (v i / √(w i)) := by
      funext i
      rw [mul_div_cancel₀ _ (hr i).ne']
    have hx : ∀ x : Fin n → ℝ, (fun i => √(w i) * x i) ⬝ᵥ (M *ᵥ fun i => √(w i) * x i)
        = ∑ i, w i * x i * (A *ᵥ x) i := by
      intro x
      rw [hM]
      refine Finset.sum_congr rfl fun i _ => ?_
      rw [← hrr i]
      ring
    rw [e, hx, ← key]
    exact ⟨hA.hi _, hA.lo _⟩
  have hval : ∀ k, hH.eigenvalues k ≤ 0 ∧ -ρ ≤ hH.eigenvalues k := by
    intro k
    have h1 := hform (B k).ofLp
    rw [hB k, dotProduct_smul, smul_eq_mul, hone k] at h1
    constructor <;> linarith
  let φ : Fin n → (Fin n → ℝ) →ₗ[ℝ] ℝ := fun k =>
    { toFun := fun v => (B k).ofLp ⬝ᵥ fun i => √(w i) * v i
      map_add' := fun u v => by
        rw [← dotProduct_add]; congr 1; funext i; simp only [Pi.add_apply]; ring
      map_smul' := fun c v => by
        rw [RingHom.id_apply, ← dotProduct_smul]
        congr 1; funext i; simp only [Pi.smul_apply, smul_eq_mul]; ring }
  refine ⟨φ, hH.eigenvalues, fun k v => ?_, hval, fun v => ?_⟩
  · show (B k).ofLp ⬝ᵥ (fun i => √(w i) * (A *ᵥ v) i) = _ * ((B k).ofLp ⬝ᵥ fun i => √(w i) * v i)
    rw [← hM, dotProduct_mulVec, ← mulVec_transpose, hsym.eq, hB k, smul_dotProduct, smul_eq_mul]
  · rw [key, hpars]
    rfl

/-- a formula whose amplification factor is at most `β` on `[-hρ, 0]`. -/
theorem SymSpec.step_norm {w : Fin n → ℝ} {A : Matrix (Fin n) (Fin n) ℝ} {ρ : ℝ} (hA : SymSpec w A ρ)
    (R : Gen.Formula ℝ) {h β : ℝ} (hh : 0 ≤ h) (hβ : ∀ z, -(h * ρ) ≤ z → z ≤ 0 → |amp R z| ≤ β)
    (y : Fin n → ℝ) :
    ∑ i, w i * Gen.step R (fun v => A *ᵥ v) h y i ^ 2 ≤ β ^ 2 * ∑ i, w i * y i ^ 2 := by
  obtain ⟨φ, lam, hφ, hval, hsum⟩ := hA.modes
  rw [hsum, hsum, Finset.mul_sum]
  refine Finset.sum_le_sum fun k _ => ?_
  rw [step_left R A (φ k) (hφ k) h y, mul_pow]
  refine mul_le_mul_of_nonneg_right ?_ (sq_nonneg _)
  rw [← sq_abs]
  refine pow_le_pow_left₀ (abs_nonneg _) (hβ _ ?_ ?_) 2
  · nlinarith [(hval k).2]
  · exact mul_nonpos_of_nonneg_of_nonpos hh (hval k).1

/-- the difference of two steps for `y' = A y + b` is a step for `y' = A y`. -/
theorem step_sub_affine (R : Gen.Formula ℝ) (A : Matrix (Fin n) (Fin n) ℝ) (b : Fin n → ℝ) (h : ℝ)
    (y z : Fin n → ℝ) : Gen.step R (fun v => A *ᵥ v + b) h y - Gen.step R (fun v => A *ᵥ v + b) h z
      = Gen.step R (fun v => A *ᵥ v) h (y - z) := by
  have hg : ∀ j, Gen.gRec (fun v => A *ᵥ v + b) R.mu R.kap h y j
      - Gen.gRec (fun v => A *ᵥ v + b) R.mu R.kap h z j
      = Gen.gRec (fun v => A *ᵥ v) R.mu R.kap h (y - z) j := by
    intro j
    induction j using Nat.strong_induction_on with
    | _ j ih =>
      match j, ih with
      | 0, _ => rfl
      | 1, _ =>
        funext i
        simp only [Gen.gRec, Pi.sub_apply, Pi.add_apply, mulVec_sub]
        ring
      | j + 2, ih =>
        have i1 := ih (j + 1) (by omega)
        have i2 := ih j (by omega)
        funext i
        simp only [Gen.gRec]
        rw [← i1, ← i2, mulVec_sub]
        simp only [Gen.gRec, Pi.sub_apply, Pi.add_apply]
        ring
  have e1 : ∀ (g u : Fin n → ℝ) (c : ℝ), (fun i => g i + c * u i) = g + c • u := fun _ _ _ => rfl
  have e2 : ∀ (g u v : Fin n → ℝ) (c d : ℝ), (fun i => g i + c * u i + d * v i)
      = g + c • u + d • v := fun _ _ _ _ _ => rfl
  have e3 : ∀ (g u v w : Fin n → ℝ) (c d e : ℝ), (fun i => g i + c * u i + d * v i + e * w i)
      = g + c • u + d • v + e • w := fun _ _ _ _ _ _ _ => rfl
  have e4 : ∀ (g u v w x : Fin n → ℝ) (c d e f : ℝ),
      (fun i => g i + c * u i + d * v i + e * w i + f * x i)
      = g + c • u + d • v + e • w + f • x := fun _ _ _ _ _ _ _ _ _ => rfl
  unfold Gen.step Gen.finishing
  simp only [← hg, e1, e2, e3, e4, mulVec_add, mulVec_smul, mulVec_sub]
  module

end Odes
