import Verif.Lemmas.RadauB
import Verif.Lemmas.RkErr
import Verif.Props.RadauErr

/-! # C116: Radau5 on nonlinear dissipative problems

Stability and error of whole runs of Radau5 on `y' = F(x,y)` for every `F` which is dissipative for some inner
product, with the constants printed in the code: the error is at most the sum of `1.3 h^4 M` over the steps (`M` a
bound of the fourth derivative of the solution) plus three times the defects left by the Newton iterations.  No
constant depends on the stiffness, the dimension or the inner product. -/

namespace Odes.Spec

variable {n : ℕ}

/-- `F` is dissipative for the inner product `B`: `⟨F(x,y) - F(x,z), y - z⟩ ≤ 0`. -/
structure DissipativeF (B : LinearMap.BilinForm ℝ (Fin n → ℝ)) (F : ℝ → (Fin n → ℝ) → Fin n → ℝ) : Prop where
  symm : ∀ x y, B x y = B y x
  pos : ∀ x, x ≠ 0 → 0 < B x x
  diss : ∀ t y z, B (F t y - F t z) (y - z) ≤ 0

/-- `y 0` solves the equation on `[a,b]`, `y 1 ... y 4` are its derivatives, and the last is bounded by `M`. -/
structure SmoothSolution (B : LinearMap.BilinForm ℝ (Fin n → ℝ)) (F : ℝ → (Fin n → ℝ) → Fin n → ℝ)
    (y : ℕ → ℝ → Fin n → ℝ) (a b M : ℝ) : Prop where
  deriv : ∀ k, k < 4 → ∀ t, a ≤ t → t ≤ b → HasDerivAt (y k) (y (k + 1) t) t
  eq : ∀ t, a ≤ t → t ≤ b → y 1 t = F t (y 0 t)
  bound : ∀ t, a ≤ t → t ≤ b → len B (y 4 t) ≤ M

/-- what the stage increments `Z` leave of the equations `A⁻¹ Z = h F(x + c h, v + Z)`. -/
noncomputable def stageResidual (A : Matrix (Fin 3) (Fin 3) ℝ) (c : Fin 3 → ℝ) (F : ℝ → (Fin n → ℝ) → Fin n → ℝ) (x h : ℝ)
    (v : Fin n → ℝ) (Z : Matrix (Fin 3) (Fin n) ℝ) (i : Fin 3) : Fin n → ℝ :=
  fun k => (A⁻¹ * Z) i k - h * F (x + c i * h) (fun l => v l + Z i l) k

/-- the error of the linearisation `F(v + Zp) + J (Z - Zp)` used in the last Newton iteration, summed over the stages,
times `h`, and the effect of the digits of the printed constants. -/
noncomputable def newtonDefect (B : LinearMap.BilinForm ℝ (Fin n → ℝ)) (c : Fin 3 → ℝ)
    (F : ℝ → (Fin n → ℝ) → Fin n → ℝ) (J : Matrix (Fin n) (Fin n) ℝ) (x h : ℝ) (v : Fin n → ℝ)
    (Zp Z W : Matrix (Fin 3) (Fin n) ℝ) : ℝ :=
  h * ∑ i, len B (F (x + c i * h) (fun l => v l + Zp i l) + J.mulVec (Z i - Zp i) - F (x + c i * h) (fun l => v l + Z i l))
    + 1e-19 * ∑ i, (len B (W i) + h * len B (F (x + c i * h) (fun l => v l + Zp i l)) + h * len B (J.mulVec (Zp i)))

end Odes.Spec

namespace Odes.Radau

open Classical
open Odes.Rodas (Energy)
open Odes.Spec (Collocation DissipativeF SmoothSolution stageResidual newtonDefect len)

variable {n : ℕ} {L : Lin X n} {Lr : Lin ℝ n} {P : Prob X n} {Q : Prob ℝ n} {g : Cfg n} {sf u : ℝ}
  {Shape : Matrix (Fin n) (Fin n) ℝ → Prop} {a r : Fin n → ℝ}
  {B : LinearMap.BilinForm ℝ (Fin n → ℝ)} {F : ℝ → (Fin n → ℝ) → Fin n → ℝ} {A : Matrix (Fin 3) (Fin 3) ℝ}

theorem energy_zero (hF : DissipativeF B F) : Energy B (0 : (Fin n → ℝ) →ₗ[ℝ] (Fin n → ℝ)) :=
  ⟨hF.symm, hF.pos, fun x => by simp⟩

/-- stage increments from their residuals. -/
theorem of_residual {c : Fin 3 → ℝ} {x h : ℝ} {v : Fin n → ℝ} {Z : Matrix (Fin 3) (Fin n) ℝ} (hA : Collocation nodes A)
    (i : Fin 3) : Z i = radauA i 0 • (h • F (x + c 0 * h) (fun l => v l + Z 0 l) + stageResidual A c F x h v Z 0)
      + radauA i 1 • (h • F (x + c 1 * h) (fun l => v l + Z 1 l) + stageResidual A c F x h v Z 1)
      + radauA i 2 • (h • F (x + c 2 * h) (fun l => v l + Z 2 l) + stageResidual A c F x h v Z 2) := by
  have hI : radauA * (A⁻¹ * Z) = Z := by
    rw [radauA_unique hA, radauA_inv, ← Matrix.mul_assoc, radauA_mul_inv, Matrix.one_mul]
  funext k
  have e := congrFun (congrFun hI i) k
  rw [Matrix.mul_apply, Fin.sum_univ_three] at e
  rw [← e]
  simp only [stageResidual, Pi.add_apply, Pi.smul_apply, smul_eq_mul]
  ring

/-- C116: **two steps side by side**: the distance of two results is at most that of the initial values, plus three times
the residuals of the stages.  For exact stages the step is a contraction. -/
theorem radau_b_stable (hA : Collocation nodes A) (hF : DissipativeF B F) {x h : ℝ} (h0 : 0 < h) {v u : Fin n → ℝ}
    {Z U : Matrix (Fin 3) (Fin n) ℝ} {δ δ' : ℝ} (hZ : ∀ i, len B (stageResidual A nodes F x h v Z i) ≤ δ)
    (hU : ∀ i, len B (stageResidual A nodes F x h u U i) ≤ δ') :
    len B ((fun i => v i + Z 2 i) - fun i => u i + U 2 i) ≤ len B (v - u) + 3 * (δ + δ') := by
  have hE := energy_zero hF
  obtain ⟨K, hK⟩ : ∃ K : Fin 3 → Fin n → ℝ, K = fun i => h • (F (x + nodes i * h) (fun l => v l + Z i l)
      - F (x + nodes i * h) (fun l => u l + U i l)) := ⟨_, rfl⟩
  obtain ⟨ρ, hρ⟩ : ∃ ρ : Fin 3 → Fin n → ℝ, ρ = fun i => stageResidual A nodes F x h v Z i - stageResidual A nodes F x h u U i :=
    ⟨_, rfl⟩
  have st : ∀ i, (fun l => v l + Z i l) - (fun l => u l + U i l) = (v - u)
      + (radauA i 0 • (K 0 + ρ 0) + radauA i 1 • (K 1 + ρ 1) + radauA i 2 • (K 2 + ρ 2)) := by
    intro i
    have e1 := of_residual (F := F) (c := nodes) (x := x) (h := h) (v := v) (Z := Z) hA i
    have e2 := of_residual (F := F) (c := nodes) (x := x) (h := h) (v := u) (Z := U) hA i
    have e3 : (fun l => v l + Z i l) - (fun l => u l + U i l) = (v - u) + (Z i - U i) := by
      funext l
      simp only [Pi.sub_apply, Pi.add_apply]
      ring
    rw [e3, e1, e2, hK, hρ]
    module
  have dd : ∀ i, B (K i) ((fun l => v l + Z i l) - (fun l => u l + U i l)) ≤ 0 := by
    intro i
    rw [hK, map_smul, LinearMap.smul_apply, smul_eq_mul]
    exact mul_nonpos_of_nonneg_of_nonpos h0.le (hF.diss _ _ _)
  have rr : ∀ i, Rodas.nrm B (ρ i) ≤ δ + δ' := by
    intro i
    rw [hρ]
    dsimp only
    rw [sub_eq_add_neg]
    refine (Rodas.nrm_add hE _ _).trans (add_le_add (hZ i) ?_)
    have : Rodas.nrm B (-stageResidual A nodes F x h u U i) = Rodas.nrm B (stageResidual A nodes F x h u U i) := by
      unfold Rodas.nrm; simp
    rw [this]
    exact hU i
  exact RadauB.step_bound hE _ _ _ _ _ _ _ _ _ _ (st 0) (st 1) (st 2) (dd 0) (dd 1) (dd 2) (rr 0) (rr 1) (rr 2)

/-! ### the residual of the solution -/

theorem len_taylor (hE : Energy B (0 : (Fin n → ℝ) →ₗ[ℝ] (Fin n → ℝ))) {a b M : ℝ} (m : ℕ) {y : ℕ → ℝ → Fin n → ℝ}
    (hd : ∀ j, j < m → ∀ t, a ≤ t → t ≤ b → HasDerivAt (y j) (y (j + 1) t) t)
    (hM : ∀ t, a ≤ t → t ≤ b → len B (y m t) ≤ M) {t : ℝ} (ht : a ≤ t) {x : ℝ} (h0 : 0 ≤ x) (hx : t + x ≤ b) :
    len B (y 0 (t + x) - ∑ k ∈ Finset.range m, (x ^ k / (k.factorial : ℝ)) • y k t) ≤ M * x ^ m / m.factorial := by
  obtain ⟨w, hw⟩ : ∃ w, w = y 0 (t + x) - ∑ k ∈ Finset.range m, (x ^ k / (k.factorial : ℝ)) • y k t := ⟨_, rfl⟩
  have k := Spec.taylor_seq (E := ℝ) (a := a) (b := b) (M := len B w * M) m (y := fun j t => B w (y j t))
    (fun j hj t h1 h2 => by
      have := (LinearMap.toContinuousLinearMap (B w)).hasFDerivAt.comp_hasDerivAt t (hd j hj t h1 h2)
      exact this)
    (fun t h1 h2 => by
      rw [Real.norm_eq_abs, abs_le]
      have c1 := RadauB.cs hE w (y m t)
      have c2 := RadauB.cs hE (-w) (y m t)
      have e : Rodas.nrm B (-w) = Rodas.nrm B w := by unfold Rodas.nrm; simp
      rw [e, map_neg, LinearMap.neg_apply] at c2
      have c3 := mul_le_mul_of_nonneg_left (hM t h1 h2) (Rodas.nrm_nonneg (B := B) w)
      have c4 : Rodas.nrm B w * Rodas.nrm B (y m t) ≤ len B w * M := c3
      constructor <;> linarith) ht hx x h0 le_rfl
  have e : B w (y 0 (t + x)) - ∑ k ∈ Finset.range m, (x ^ k / (k.factorial : ℝ)) • B w (y k t) = B w w := by
    conv_rhs => arg 2; rw [hw]
    simp only [map_sub, map_sum, map_smul]
  rw [e, Real.norm_eq_abs, ← Rodas.nrm_sq hE, abs_of_nonneg (sq_nonneg _)] at k
  rw [← hw]
  have hn := Rodas.nrm_nonneg (B := B) w
  show Rodas.nrm B w ≤ _
  have k' : Rodas.nrm B w ^ 2 ≤ Rodas.nrm B w * (M * x ^ m / m.factorial) := by
    refine k.trans (le_of_eq ?_)
    show Rodas.nrm B w * M * x ^ m / _ = _
    ring
  rcases hn.eq_or_lt with h | h
  · rw [← h]
    have : 0 ≤ M := (Rodas.nrm_nonneg _).trans (hM t ht (by linarith))
    positivity
  · rw [sq] at k'
    exact le_of_mul_le_mul_left k' h

theorem ainv_nodes (j : Fin 3) :
    radauAinv j 0 * nodes 0 + radauAinv j 1 * nodes 1 + radauAinv j 2 * nodes 2 = 1 ∧
    radauAinv j 0 * nodes 0 ^ 2 + radauAinv j 1 * nodes 1 ^ 2 + radauAinv j 2 * nodes 2 ^ 2 = 2 * nodes j ∧
    radauAinv j 0 * nodes 0 ^ 3 + radauAinv j 1 * nodes 1 ^ 3 + radauAinv j 2 * nodes 2 ^ 3 = 3 * nodes j ^ 2 := by
  have hI : radauAinv * radauA = 1 := mul_eq_one_comm.1 radauA_mul_inv
  have key : ∀ k : Fin 3, ∑ i, radauAinv j i * (nodes i ^ ((k : ℕ) + 1) / ((k : ℕ) + 1)) = nodes j ^ (k : ℕ) := by
    intro k
    have e : ∀ i, nodes i ^ ((k : ℕ) + 1) / ((k : ℕ) + 1) = ∑ l, radauA i l * nodes l ^ (k : ℕ) := fun i =>
      (radauA_collocation i k).symm
    simp only [e, Finset.mul_sum]
    rw [Finset.sum_comm]
    have e2 : ∀ l, ∑ i, radauAinv j i * (radauA i l * nodes l ^ (k : ℕ))
        = (1 : Matrix (Fin 3) (Fin 3) ℝ) j l * nodes l ^ (k : ℕ) := by
      intro l
      rw [← hI, Matrix.mul_apply, Finset.sum_mul]
      exact Finset.sum_congr rfl fun i _ => by ring
    simp only [e2, Matrix.one_apply, ite_mul, one_mul, zero_mul, Finset.sum_ite_eq, Finset.mem_univ, if_true]
  have k0 := key 0
  have k1 := key 1
  have k2 := key 2
  rw [Fin.sum_univ_three] at k0 k1 k2
  norm_num at k0 k1 k2
  exact ⟨by linarith, by linarith, by linarith⟩

theorem ainv_abs (j : Fin 3) : |radauAinv j 0| ≤ 5.54 ∧ |radauAinv j 1| ≤ 7.54 ∧ |radauAinv j 2| ≤ 5 := by
  obtain ⟨s1, s2⟩ := s6_enc
  fin_cases j <;> refine ⟨?_, ?_, ?_⟩ <;> rw [abs_le] <;> constructor <;> simp [radauAinv] <;> linarith

theorem nodes_enc : nodes 0 ≤ 0.1551 ∧ nodes 1 ≤ 0.645 ∧ nodes 2 = 1 ∧ (∀ j, 0 ≤ nodes j ∧ nodes j ≤ 1) := by
  obtain ⟨s1, s2⟩ := s6_enc
  have e0 : nodes 0 = (4 - Real.sqrt 6) / 10 := rfl
  have e1 : nodes 1 = (4 + Real.sqrt 6) / 10 := rfl
  have e2 : nodes 2 = 1 := rfl
  refine ⟨by rw [e0]; linarith, by rw [e1]; linarith, e2, fun j => ?_⟩
  fin_cases j
  · show 0 ≤ nodes 0 ∧ nodes 0 ≤ 1
    rw [e0]; constructor <;> linarith
  · show 0 ≤ nodes 1 ∧ nodes 1 ≤ 1
    rw [e1]; constructor <;> linarith
  · show 0 ≤ nodes 2 ∧ nodes 2 ≤ 1
    rw [e2]; constructor <;> norm_num

/-- the increments of a solution leave a residual of order 4. -/
theorem solution_residual (hA : Collocation nodes A) (hF : DissipativeF B F) {y : ℕ → ℝ → Fin n → ℝ} {a b M : ℝ}
    (hy : SmoothSolution B F y a b M) {x h : ℝ} (h0 : 0 < h) (ha : a ≤ x) (hb : x + h ≤ b) (j : Fin 3) :
    len B (stageResidual A nodes F x h (y 0 x) (Matrix.of fun i => y 0 (x + nodes i * h) - y 0 x) j) ≤ 0.43 * h ^ 4 * M := by
  have hE := energy_zero hF
  obtain ⟨c0, c1, c2, c3⟩ := nodes_enc
  have M0 : 0 ≤ M := (Rodas.nrm_nonneg _).trans (hy.bound x ha (by linarith))
  have inn : ∀ i, 0 ≤ nodes i * h ∧ x + nodes i * h ≤ b := by
    intro i
    refine ⟨mul_nonneg (c3 i).1 h0.le, ?_⟩
    have := mul_le_mul_of_nonneg_right (c3 i).2 h0.le
    linarith
  have t0 := fun i => len_taylor hE 4 hy.deriv hy.bound ha (inn i).1 (inn i).2
  have t1 := len_taylor hE 3 (y := fun k => y (k + 1)) (fun k hk => hy.deriv (k + 1) (by omega)) hy.bound ha (inn j).1
    (inn j).2
  obtain ⟨E, hEd⟩ : ∃ E : Fin 3 → Fin n → ℝ, E = fun i => y 0 (x + nodes i * h)
      - ∑ k ∈ Finset.range 4, ((nodes i * h) ^ k / (k.factorial : ℝ)) • y k x := ⟨_, rfl⟩
  obtain ⟨E', hEd'⟩ : ∃ E' : Fin n → ℝ, E' = y 1 (x + nodes j * h)
      - ∑ k ∈ Finset.range 3, ((nodes j * h) ^ k / (k.factorial : ℝ)) • y (k + 1) x := ⟨_, rfl⟩
  have e : stageResidual A nodes F x h (y 0 x) (Matrix.of fun i => y 0 (x + nodes i * h) - y 0 x) j
      = radauAinv j 0 • E 0 + radauAinv j 1 • E 1 + radauAinv j 2 • E 2 + (-h) • E' := by
    obtain ⟨a1, a2, a3⟩ := ainv_nodes j
    funext k
    have q : (fun l => y 0 x l + (Matrix.of fun i => y 0 (x + nodes i * h) - y 0 x) j l) = y 0 (x + nodes j * h) := by
      funext l
      simp
    unfold stageResidual
    rw [q, ← hy.eq _ (by linarith [(inn j).1]) (inn j).2, radauA_unique hA, radauA_inv, Matrix.mul_apply,
      Fin.sum_univ_three, hEd, hEd']
    simp only [Finset.sum_range_succ, Finset.sum_range_zero, Matrix.of_apply, Pi.sub_apply, Pi.add_apply, Pi.smul_apply,
      smul_eq_mul, Nat.factorial]
    push_cast
    simp only [Pi.add_apply, Pi.smul_apply, Pi.zero_apply, smul_eq_mul]
    linear_combination (h * y 1 x k) * a1 + (h ^ 2 / 2 * y 2 x k) * a2 + (h ^ 3 / 6 * y 3 x k) * a3
  rw [e]
  obtain ⟨b0, b1, b2⟩ := ainv_abs j
  have n0 : Rodas.nrm B (E 0) ≤ M * (nodes 0 * h) ^ 4 / 24 := by
    have := t0 0; rw [hEd]; exact this
  have n1 : Rodas.nrm B (E 1) ≤ M * (nodes 1 * h) ^ 4 / 24 := by
    have := t0 1; rw [hEd]; exact this
  have n2 : Rodas.nrm B (E 2) ≤ M * (nodes 2 * h) ^ 4 / 24 := by
    have := t0 2; rw [hEd]; exact this
  have n3 : Rodas.nrm B E' ≤ M * (nodes j * h) ^ 3 / 6 := by
    rw [hEd']; exact t1
  have hM4 : 0 ≤ M * h ^ 4 := by positivity
  have m0 : M * (nodes 0 * h) ^ 4 / 24 ≤ 0.00058 * (M * h ^ 4) / 24 := by
    have := pow_le_pow_left₀ (c3 0).1 c0 4
    have := mul_le_mul_of_nonneg_right (this.trans (by norm_num : (0.1551 : ℝ) ^ 4 ≤ 0.00058)) hM4
    rw [mul_pow]; linarith
  have m1 : M * (nodes 1 * h) ^ 4 / 24 ≤ 0.1731 * (M * h ^ 4) / 24 := by
    have := pow_le_pow_left₀ (c3 1).1 c1 4
    have := mul_le_mul_of_nonneg_right (this.trans (by norm_num : (0.645 : ℝ) ^ 4 ≤ 0.1731)) hM4
    rw [mul_pow]; linarith
  have m2 : M * (nodes 2 * h) ^ 4 / 24 = M * h ^ 4 / 24 := by rw [c2, one_mul]
  have m3 : h * (M * (nodes j * h) ^ 3 / 6) ≤ M * h ^ 4 / 6 := by
    have := pow_le_pow_left₀ (c3 j).1 (c3 j).2 3
    have := mul_le_mul_of_nonneg_right this hM4
    rw [mul_pow]; linarith
  have s0 : Rodas.nrm B (radauAinv j 0 • E 0) ≤ 5.54 * (0.00058 * (M * h ^ 4) / 24) := by
    rw [Rodas.nrm_smul]; exact mul_le_mul b0 (n0.trans m0) (Rodas.nrm_nonneg _) (by norm_num)
  have s1 : Rodas.nrm B (radauAinv j 1 • E 1) ≤ 7.54 * (0.1731 * (M * h ^ 4) / 24) := by
    rw [Rodas.nrm_smul]; exact mul_le_mul b1 (n1.trans m1) (Rodas.nrm_nonneg _) (by norm_num)
  have s2 : Rodas.nrm B (radauAinv j 2 • E 2) ≤ 5 * (M * h ^ 4 / 24) := by
    rw [Rodas.nrm_smul]; exact mul_le_mul b2 (n2.trans m2.le) (Rodas.nrm_nonneg _) (by norm_num)
  have s3 : Rodas.nrm B ((-h) • E') ≤ M * h ^ 4 / 6 := by
    rw [Rodas.nrm_smul, abs_neg, abs_of_pos h0]
    exact (mul_le_mul_of_nonneg_left n3 h0.le).trans m3
  have u1 := Rodas.nrm_add hE (radauAinv j 0 • E 0 + radauAinv j 1 • E 1 + radauAinv j 2 • E 2) ((-h) • E')
  have u2 := Rodas.nrm_add hE (radauAinv j 0 • E 0 + radauAinv j 1 • E 1) (radauAinv j 2 • E 2)
  have u3 := Rodas.nrm_add hE (radauAinv j 0 • E 0) (radauAinv j 1 • E 1)
  show Rodas.nrm B _ ≤ _
  linarith

/-- C116: **error of one step**, for stage increments with residuals of at most `δ`. -/
theorem radau_b_step_error (hA : Collocation nodes A) (hF : DissipativeF B F) {y : ℕ → ℝ → Fin n → ℝ} {a b M : ℝ}
    (hy : SmoothSolution B F y a b M) {x h : ℝ} (h0 : 0 < h) (ha : a ≤ x) (hb : x + h ≤ b) {v : Fin n → ℝ}
    {Z : Matrix (Fin 3) (Fin n) ℝ} {δ : ℝ} (hZ : ∀ i, len B (stageResidual A nodes F x h v Z i) ≤ δ) :
    len B ((fun i => v i + Z 2 i) - y 0 (x + h)) ≤ len B (v - y 0 x) + (1.3 * h ^ 4 * M + 3 * δ) := by
  have k := radau_b_stable hA hF h0 hZ (solution_residual hA hF hy h0 ha hb)
  have e : (fun i => y 0 x i + (Matrix.of fun i => y 0 (x + nodes i * h) - y 0 x) 2 i) = y 0 (x + h) := by
    have : nodes 2 = 1 := rfl
    funext l
    simp [this]
  rw [e] at k
  have M0 : 0 ≤ h ^ 4 * M := mul_nonneg (by positivity) ((Rodas.nrm_nonneg _).trans (hy.bound x ha (by linarith)))
  linarith

/-! ### what the Newton iterations leave -/

theorem nrm_rows (hE : Energy B (0 : (Fin n → ℝ) →ₗ[ℝ] (Fin n → ℝ))) {ε : ℝ} (E : Matrix (Fin 3) (Fin 3) ℝ) (i : Fin 3)
    (hεE : ∀ l, |E i l| ≤ ε) (W : Matrix (Fin 3) (Fin n) ℝ) : Rodas.nrm B ((E * W) i) ≤ ε * ∑ l, Rodas.nrm B (W l) := by
  have e : (E * W) i = ∑ l, E i l • W l := by
    funext k
    rw [Matrix.mul_apply, Finset.sum_apply]
    rfl
  rw [e, Finset.mul_sum]
  refine (Rodas.nrm_sum hE _).trans (Finset.sum_le_sum fun l _ => ?_)
  rw [Rodas.nrm_smul]
  exact mul_le_mul_of_nonneg_right (hεE l) (Rodas.nrm_nonneg _)

/-- C116: **residual after the last Newton iteration**, with the printed constants. -/
theorem radau_newton_residual (hA : Collocation nodes A)
    (hE : Energy B (0 : (Fin n → ℝ) →ₗ[ℝ] (Fin n → ℝ))) {J : Matrix (Fin n) (Fin n) ℝ} {x h : ℝ}
    (h0 : 0 < h) {v : Fin n → ℝ} {Z0 Z W : Matrix (Fin 3) (Fin n) ℝ} {k : ℕ}
    (hi : Spec.Iterate (newtonMethod consts) F J x h v Z0 (k + 1) Z W) :
    ∃ Zp Wp, Spec.Iterate (newtonMethod consts) F J x h v Z0 k Zp Wp ∧
      ∀ i, len B (stageResidual A nodes F x h v Z i) ≤ newtonDefect B nodes F J x h v Zp Z W := by
  cases hi with
  | @succ _ Zp Wp D hp hD =>
  refine ⟨Zp, Wp, hp, fun i => ?_⟩
  have tr := radau_transformation hA
  obtain ⟨E', hE', hW⟩ : ∃ E' : Matrix (Fin 3) (Fin 3) ℝ, (∀ i l, |E' i l| ≤ 1e-19) ∧
      (newtonMethod consts).T * Wp = Zp + E' * Zp := by
    cases hp with
    | zero =>
      refine ⟨Tm consts * TIm consts - 1, fun i l => (tr i l).1, ?_⟩
      show Tm consts * (TIm consts * Z0) = _
      rw [Matrix.sub_mul, Matrix.one_mul, Matrix.mul_assoc]
      abel
    | succ =>
      refine ⟨0, fun i l => by simp; norm_num, ?_⟩
      rw [Matrix.zero_mul, add_zero]
  obtain ⟨Φ, hΦ⟩ : ∃ Φ, Φ = Spec.stageValues (newtonMethod consts) F x h v Zp := ⟨_, rfl⟩
  obtain ⟨Z, hZ⟩ : ∃ Z, Z = (newtonMethod consts).T * (Wp + D) := ⟨_, rfl⟩
  obtain ⟨Φ', hΦ'⟩ : ∃ Φ', Φ' = Spec.stageValues (newtonMethod consts) F x h v Z := ⟨_, rfl⟩
  rw [← hΦ] at hD
  rw [← hZ]
  have hL : Lam consts * (Wp + D) = h • (TIm consts * Φ) + h • (D * J.transpose) := by
    have e := congrArg (fun m => h • m) hD
    simp only [smul_sub, smul_smul, mul_one_div_cancel h0.ne', one_smul] at e
    change Lam consts * D - _ = h • (TIm consts * Φ) - Lam consts * Wp at e
    rw [Matrix.mul_add]
    have : Lam consts * D = h • (TIm consts * Φ) - Lam consts * Wp + h • (D * J.transpose) := by rw [← e]; abel
    rw [this]; abel
  have hTD : Tm consts * D = (Z - Zp) - E' * Zp := by
    have : Z = (newtonMethod consts).T * Wp + Tm consts * D := by rw [hZ, Matrix.mul_add]; rfl
    rw [this, hW]; abel
  have hR : A⁻¹ * Z - h • Φ' = (A⁻¹ * Tm consts - Tm consts * Lam consts) * (Wp + D)
      + h • ((Tm consts * TIm consts - 1) * Φ) + h • (Φ + (Z - Zp) * J.transpose - Φ')
      + (-h) • (E' * (Zp * J.transpose)) := by
    have e1 : A⁻¹ * Z = (A⁻¹ * Tm consts - Tm consts * Lam consts) * (Wp + D)
        + Tm consts * (Lam consts * (Wp + D)) := by
      rw [hZ, Matrix.sub_mul, Matrix.mul_assoc, Matrix.mul_assoc]
      show A⁻¹ * (Tm consts * (Wp + D)) = _
      abel
    have e2 : Tm consts * (Lam consts * (Wp + D)) = h • (Tm consts * TIm consts * Φ)
        + h • ((Z - Zp) * J.transpose) - h • (E' * (Zp * J.transpose)) := by
      rw [hL, Matrix.mul_add, Matrix.mul_smul, Matrix.mul_smul, ← Matrix.mul_assoc, ← Matrix.mul_assoc, hTD,
        Matrix.sub_mul (Z - Zp), Matrix.mul_assoc E', smul_sub, add_sub_assoc]
    rw [e1, e2, Matrix.sub_mul (Tm consts * TIm consts), Matrix.one_mul]
    module
  have hrow : stageResidual A nodes F x h v Z i = ((A⁻¹ * Tm consts - Tm consts * Lam consts) * (Wp + D)) i
      + h • ((Tm consts * TIm consts - 1) * Φ : Matrix (Fin 3) (Fin n) ℝ) i
      + h • (F (x + nodes i * h) (fun l => v l + Zp i l) + J.mulVec (Z i - Zp i)
        - F (x + nodes i * h) (fun l => v l + Z i l))
      + (-h) • (E' * (Zp * J.transpose) : Matrix (Fin 3) (Fin n) ℝ) i := by
    have hJ : ((Z - Zp) * J.transpose) i = J.mulVec (Z i - Zp i) := by
      funext l
      rw [Matrix.mul_apply]
      simp only [Matrix.mulVec, dotProduct, Matrix.transpose_apply]
      exact Finset.sum_congr rfl fun m _ => mul_comm _ _
    have e := congrFun hR i
    have e' : stageResidual A nodes F x h v Z i = (A⁻¹ * Z - h • Φ') i := by rw [hΦ']; rfl
    rw [e', e, ← hJ, hΦ, hΦ']
    rfl
  have hJ2 : ∀ l, (Zp * J.transpose) l = J.mulVec (Zp l) := by
    intro l
    funext m
    rw [Matrix.mul_apply]
    simp only [Matrix.mulVec, dotProduct, Matrix.transpose_apply]
    exact Finset.sum_congr rfl fun m _ => mul_comm _ _
  rw [hrow]
  have n1 := nrm_rows hE (A⁻¹ * Tm consts - Tm consts * Lam consts) i (fun l => (tr i l).2.2.1) (Wp + D)
  have n2 := mul_le_mul_of_nonneg_left (nrm_rows hE (Tm consts * TIm consts - 1) i (fun l => (tr i l).1) Φ) h0.le
  have n3 := mul_le_mul_of_nonneg_left (nrm_rows hE E' i (fun l => hE' i l) (Zp * J.transpose)) h0.le
  simp only [hJ2] at n3
  have hΦl : ∀ l, Φ l = F (x + nodes l * h) (fun m => v m + Zp l m) := by rw [hΦ]; intro l; rfl
  simp only [hΦl] at n2
  have n4 : Rodas.nrm B (F (x + nodes i * h) (fun l => v l + Zp i l) + J.mulVec (Z i - Zp i)
        - F (x + nodes i * h) (fun l => v l + Z i l)) ≤ ∑ i, Rodas.nrm B (F (x + nodes i * h) (fun l => v l + Zp i l)
        + J.mulVec (Z i - Zp i) - F (x + nodes i * h) (fun l => v l + Z i l)) :=
    Finset.single_le_sum (f := fun i => Rodas.nrm B (F (x + nodes i * h) (fun l => v l + Zp i l)
        + J.mulVec (Z i - Zp i) - F (x + nodes i * h) (fun l => v l + Z i l)))
      (fun i _ => Rodas.nrm_nonneg _) (Finset.mem_univ i)
  have n5 := mul_le_mul_of_nonneg_left n4 h0.le
  refine (Rodas.nrm_add hE _ _).trans ((add_le_add ((Rodas.nrm_add hE _ _).trans (add_le_add
    (Rodas.nrm_add hE _ _) le_rfl)) le_rfl).trans ?_)
  rw [Rodas.nrm_smul, Rodas.nrm_smul, Rodas.nrm_smul, abs_neg, abs_of_pos h0]
  unfold newtonDefect
  rw [Finset.sum_add_distrib, Finset.sum_add_distrib, ← Finset.mul_sum, ← Finset.mul_sum]
  change _ ≤ h * ∑ i, Rodas.nrm B _ + 1e-19 * (∑ i, Rodas.nrm B ((Wp + D) i) + h * ∑ i, Rodas.nrm B _
    + h * ∑ i, Rodas.nrm B _)
  linarith

/-- C116: **error of a whole run**: there are the steps `h` and the defects `δ` left by the last Newton iteration of every
step, with the Jacobian matrix of the code. -/
theorem radau_b_run_error (hn : 0 < n) (hL : LinX L Lr) (hS : LinSpec Lr Shape) (hP : ProbX P Q)
    (hg : Std g sf u) (hc : g.c = consts.map X.fin) (ha : RealTol g a r)
    (hSh : ∀ x y, Shape (jacM Q u x y)) (ho : g.onlyOneStep = false) (hF : DissipativeF B Q.F)
    {x0 xe : ℝ} (hx : x0 < xe) {y0 : Fin n → ℝ} {o : St n L.σ} {h : X} {s : St n L.σ}
    (hr : Returns (step L P g) (call o h (.fin x0) (.fin xe) (fins y0)) s)
    {y : ℕ → ℝ → Fin n → ℝ} {b M : ℝ} (hy : SmoothSolution B Q.F y x0 b M) :
    ∃ (x : ℝ) (v : Fin n → ℝ) (l : List (ℝ × ℝ)), s.x = .fin x ∧ s.Y = fins v ∧
      (∀ p ∈ l, 0 < p.1 ∧ ∃ (x1 x2 : ℝ) (v1 v2 : Fin n → ℝ) (Z0 Zp Wp Z W : Matrix (Fin 3) (Fin n) ℝ) (k : ℕ),
        x0 ≤ x2 ∧ x2 ≤ x1 ∧ x1 + p.1 ≤ x ∧ k < g.nit.toNat ∧
        Spec.Iterate (newtonMethod consts) Q.F (jacM Q u x2 v2) x1 p.1 v1 Z0 k Zp Wp ∧
        Spec.Iterate (newtonMethod consts) Q.F (jacM Q u x2 v2) x1 p.1 v1 Z0 (k + 1) Z W ∧
        p.2 = newtonDefect B nodes Q.F (jacM Q u x2 v2) x1 p.1 v1 Zp Z W) ∧
      (l.map fun p => p.1).sum = x - x0 ∧
      (x ≤ b → len B (v - y 0 x) ≤ len B (y0 - y 0 x0) + (l.map fun p => 1.3 * p.1 ^ 4 * M + 3 * p.2).sum) := by
  obtain ⟨x, v, p, h1, h2, hp⟩ := radau_run_is_newton hn hL hS hP hg hc nonzero_consts ha hSh ho hx hr
  have ge : ∀ {x v p}, Spec.RadauPath (newtonMethod consts) Q.F (jacM Q u)
      g.nit.toNat (ext consts) (Spec.Passes consts.U1 ![consts.DD1, consts.DD2, consts.DD3] a r Q.F) x0 y0 x v p →
      x0 ≤ x := by
    intro x v p hp
    induction hp with
    | refl => exact le_rfl
    | @step x x' x'' h hold v v' v'' p p' p'' Z W k _ _ _ h0 _ hk _ hi _ _ _ ih _ _ => linarith
  have key : ∀ {x v p}, Spec.RadauPath (newtonMethod consts) Q.F (jacM Q u)
      g.nit.toNat (ext consts) (Spec.Passes consts.U1 ![consts.DD1, consts.DD2, consts.DD3] a r Q.F) x0 y0 x v p →
      ∃ l : List (ℝ × ℝ),
      (∀ p ∈ l, 0 < p.1 ∧ ∃ (x1 x2 : ℝ) (v1 v2 : Fin n → ℝ) (Z0 Zp Wp Z W : Matrix (Fin 3) (Fin n) ℝ) (k : ℕ),
        x0 ≤ x2 ∧ x2 ≤ x1 ∧ x1 + p.1 ≤ x ∧ k < g.nit.toNat ∧
        Spec.Iterate (newtonMethod consts) Q.F (jacM Q u x2 v2) x1 p.1 v1 Z0 k Zp Wp ∧
        Spec.Iterate (newtonMethod consts) Q.F (jacM Q u x2 v2) x1 p.1 v1 Z0 (k + 1) Z W ∧
        p.2 = newtonDefect B nodes Q.F (jacM Q u x2 v2) x1 p.1 v1 Zp Z W) ∧
      (l.map fun p => p.1).sum = x - x0 ∧
      (x ≤ b → len B (v - y 0 x) ≤ len B (y0 - y 0 x0) + (l.map fun p => 1.3 * p.1 ^ 4 * M + 3 * p.2).sum) := by
    intro x v p hp
    induction hp with
    | refl => exact ⟨[], by simp, by simp, by simp⟩
    | @step x x' x'' h hold v v' v'' p p' p'' Z W k q1 q2 q3 h0 q4 hk q5 hi _ _ _ ih _ _ =>
      obtain ⟨l, l1, l2, l3⟩ := ih
      obtain ⟨k, rfl⟩ := Nat.exists_eq_add_of_le' hk
      obtain ⟨Zp, Wp, i1, i2⟩ := radau_newton_residual radauA_collocation (energy_zero hF) h0 hi
      refine ⟨(h, newtonDefect B nodes Q.F (jacM Q u x' v') x h v Zp Z W) :: l, ?_, ?_, ?_⟩
      · intro z hz
        rcases List.mem_cons.1 hz with rfl | hz
        · exact ⟨h0, x, x', v, v', _, Zp, Wp, Z, W, k, ge q2, q3, le_rfl, by omega, i1, hi, rfl⟩
        · obtain ⟨z0, x1, x2, v1, v2, Z0', Zp', Wp', Z', W', k', g1, g2, g3, g4⟩ := l1 z hz
          exact ⟨z0, x1, x2, v1, v2, Z0', Zp', Wp', Z', W', k', g1, g2, by linarith, g4⟩
      · rw [List.map_cons, List.sum_cons, l2]; ring
      · intro hb
        have b1 := radau_b_step_error radauA_collocation hF hy h0 (ge q1) hb i2
        have b2 := l3 (by linarith)
        rw [List.map_cons, List.sum_cons]
        linarith
  obtain ⟨l, l1, l2, l3⟩ := key hp
  exact ⟨x, v, l, h1, h2, l1, l2, l3⟩

/-! ### examples -/

theorem len_dot1 (w : Fin 1 → ℝ) : len (Rodas.dot 1) w = |w 0| := by
  unfold Spec.len
  rw [Rodas.dot_apply, dotProduct, Fin.sum_univ_one, Real.sqrt_mul_self_eq_abs]

/-- the nonlinear equation `y' = cos x - (y - sin x)^3` is dissipative, `sin` is a solution; a step of size 0.1 from the
value 1 at 0, with any stage increments. -/
example (Z : Matrix (Fin 3) (Fin 1) ℝ) {δ : ℝ}
    (hZ : ∀ i, |stageResidual radauA nodes (fun x (y : Fin 1 → ℝ) i => Real.cos x - (y i - Real.sin x) ^ 3) 0 0.1
      (fun _ => 1) Z i 0| ≤ δ) :
    |1 + Z 2 0 - Real.sin 0.1| ≤ 1 + (1.3e-4 + 3 * δ) := by
  have hF : DissipativeF (Rodas.dot 1) (fun x (y : Fin 1 → ℝ) i => Real.cos x - (y i - Real.sin x) ^ 3) := by
    refine ⟨fun x y => ?_, fun x hx => ?_, fun t y z => ?_⟩
    · rw [Rodas.dot_apply, Rodas.dot_apply]; exact dotProduct_comm _ _
    · rw [Rodas.dot_apply, dotProduct, Fin.sum_univ_one]
      exact mul_self_pos.2 fun h => hx (by funext i; fin_cases i; exact h)
    · rw [Rodas.dot_apply, dotProduct, Fin.sum_univ_one]
      simp only [Pi.sub_apply]
      have e : y 0 - z 0 = (y 0 - Real.sin t) - (z 0 - Real.sin t) := by ring
      rw [e]
      generalize y 0 - Real.sin t = p
      generalize z 0 - Real.sin t = q
      have : (Real.cos t - p ^ 3 - (Real.cos t - q ^ 3)) * (p - q) = -((p - q) ^ 2 * (p ^ 2 + p * q + q ^ 2)) := by ring
      rw [this]
      have : 0 ≤ p ^ 2 + p * q + q ^ 2 := by nlinarith [sq_nonneg (p + q), sq_nonneg p, sq_nonneg q]
      have := mul_nonneg (sq_nonneg (p - q)) this
      linarith
  have hy : SmoothSolution (Rodas.dot 1) (fun x (y : Fin 1 → ℝ) i => Real.cos x - (y i - Real.sin x) ^ 3)
      (fun k t _ => match k with
        | 0 => Real.sin t | 1 => Real.cos t | 2 => -Real.sin t | 3 => -Real.cos t | _ => Real.sin t) 0 1 1 := by
    refine ⟨fun k hk t _ _ => ?_, fun t _ _ => ?_, fun t _ _ => ?_⟩
    · rw [hasDerivAt_pi]
      intro _
      rcases k with _ | _ | _ | _ | k
      · exact Real.hasDerivAt_sin t
      · exact Real.hasDerivAt_cos t
      · exact (Real.hasDerivAt_sin t).neg
      · have := (Real.hasDerivAt_cos t).neg
        rwa [neg_neg] at this
      · omega
    · funext i; simp
    · rw [len_dot1]; exact Real.abs_sin_le_one t
  have k := radau_b_step_error radauA_collocation hF hy (x := 0) (h := 0.1) (by norm_num) le_rfl (by norm_num)
    (v := fun _ => 1) (Z := Z) (δ := δ) fun i => by rw [len_dot1]; exact hZ i
  rw [len_dot1, len_dot1] at k
  norm_num at k ⊢
  linarith

/-- a run on `y' = -y` which returns at the time 1: the Newton iterations are exact but for the digits of the constants. -/
example : ∃ (s : St 1 Sc) (v : Fin 1 → ℝ) (l : List (ℝ × ℝ)), Returns (step scalar decay dcfg) (dcall obj) s ∧
    s.x = .fin 1 ∧ s.Y = fins v ∧ (∀ p ∈ l, 0 < p.1) ∧ (l.map fun p => p.1).sum = 1 ∧
    |v 0 - 0.001 * Real.exp (-1)| ≤ (l.map fun p => 1.3 * p.1 ^ 4 * 0.001 + 3 * p.2).sum := by
  obtain ⟨s, hs, hx, -⟩ := decay_run (o := obj) rfl
  have hF : DissipativeF (Rodas.dot 1) decayQ.F := by
    refine ⟨fun x y => ?_, fun x hx => ?_, fun t y z => ?_⟩
    · rw [Rodas.dot_apply, Rodas.dot_apply]; exact dotProduct_comm _ _
    · rw [Rodas.dot_apply, dotProduct, Fin.sum_univ_one]
      exact mul_self_pos.2 fun h => hx (by funext i; fin_cases i; exact h)
    · rw [Rodas.dot_apply, dotProduct, Fin.sum_univ_one]
      show (-(y 0) - -(z 0)) * (y 0 - z 0) ≤ 0
      nlinarith [mul_self_nonneg (y 0 - z 0)]
  have hy : SmoothSolution (Rodas.dot 1) decayQ.F (fun k t _ => (-1) ^ k * (0.001 * Real.exp (-t))) 0 1 0.001 := by
    refine ⟨fun k _ t _ _ => ?_, fun t _ _ => ?_, fun t h0 _ => ?_⟩
    · rw [hasDerivAt_pi]
      intro i
      have h := (((hasDerivAt_neg t).exp).const_mul (0.001 : ℝ)).const_mul ((-1 : ℝ) ^ k)
      have e : (-1 : ℝ) ^ (k + 1) * (0.001 * Real.exp (-t)) = (-1) ^ k * (0.001 * (Real.exp (-t) * -1)) := by
        rw [pow_succ]; ring
      exact e ▸ h
    · funext i
      show (-1 : ℝ) ^ 1 * (0.001 * Real.exp (-t)) = -((-1) ^ 0 * (0.001 * Real.exp (-t)))
      ring
    · rw [len_dot1]
      have : Real.exp (-t) ≤ 1 := Real.exp_le_one_iff.2 (by linarith)
      have h1 := Real.exp_pos (-t)
      rw [abs_of_nonneg (by positivity)]
      norm_num
      linarith
  obtain ⟨x, v, l, h1, h2, h3, h4, h5⟩ := radau_b_run_error one_pos scalar_linX scalar_spec decay_probX
    (wcfg_std 7 false (by decide)) rfl (a := fun _ => 0.1) (r := fun _ => 0.1)
    ⟨funext fun _ => X.ofSci_eq _ _ _, funext fun _ => X.ofSci_eq _ _ _, fun _ => by norm_num,
      fun _ => by norm_num⟩ (fun _ _ => trivial) rfl hF one_pos (y0 := fun _ => 0.001) (o := obj) (h := .fin 1) hs hy
  obtain rfl : x = 1 := by rw [hx] at h1; injection h1 with h1; exact h1.symm
  refine ⟨s, v, l, hs, hx, h2, fun p hp => (h3 p hp).1, by rw [h4, sub_zero], ?_⟩
  have h6 := h5 le_rfl
  rw [len_dot1, len_dot1] at h6
  norm_num at h6 ⊢
  exact h6

end Odes.Radau
