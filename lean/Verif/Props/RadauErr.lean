import Verif.Lemmas.RadauErr
import Verif.Lemmas.RadauDecay
import Verif.Props.RadauRun
import Verif.Props.RodasErr

/-! # C105: Radau5 on dissipative linear problems

`y' = A (y - ye)` with `A` dissipative for some inner product (`Spec.Dissipative`).  Stability and error of whole
runs, with the constants printed in the code, whatever the starting values, the number of iterations and the
tolerances are.  All constants are explicit and none depends on `A`, the dimension or the inner product. -/

namespace Odes.Spec

variable {n : ℕ}

/-- `h^5/125 |A^5 v| + 3e-16 |v|` -/
noncomputable def radauBound (B : LinearMap.BilinForm ℝ (Fin n → ℝ)) (A : Matrix (Fin n) (Fin n) ℝ)
    (v : Fin n → ℝ) (h : ℝ) : ℝ :=
  h ^ 5 / 125 * len B ((A ^ 5).mulVec v) + 3e-16 * len B v

end Odes.Spec

namespace Odes.Radau

open Classical
open Odes.Rodas (Energy energy_of energy_one mulVecLin_pow Flow flow_of nrm_add nrm_smul)
open Odes.RadauLin (Iter mat3 map3 mat3_apply map3_apply mat3_mul mat3_sub mat3_one mat3_map3)

variable {n : ℕ} {L : Lin X n} {Lr : Lin ℝ n} {P : Prob X n} {Q : Prob ℝ n} {g : Cfg n} {sf u : ℝ}
  {Shape : Matrix (Fin n) (Fin n) ℝ → Prop} {a r : Fin n → ℝ}
  {B : LinearMap.BilinForm ℝ (Fin n → ℝ)} {A : Matrix (Fin n) (Fin n) ℝ} {ye : Fin n → ℝ}

/-- the problem `y' = A (y - ye)`: if the Jacobian is computed by differences then the entries which are not
stored are 0, otherwise the user's function gives `A`. -/
structure LinearProb (Q : Prob ℝ n) (A : Matrix (Fin n) (Fin n) ℝ) (ye : Fin n → ℝ) : Prop where
  F : ∀ x y, Q.F x y = A.mulVec (y - ye)
  jac : if Q.computeJacobianNumerically then ∀ i j, Q.stored i j = false → A i j = 0
    else ∀ x y d i j, Q.jac x y d i j = A i j

/-- the difference quotients of the code are exact. -/
theorem LinearProb.jac_eq (h : LinearProb Q A ye) (hu : 0 < u) (x : ℝ) (y : Fin n → ℝ) :
    jacM Q u x y = A := by
  ext i j
  have hj := h.jac
  show jacR Q u x y i j = A i j
  unfold jacR
  by_cases hn : Q.computeJacobianNumerically = true
  · rw [if_pos hn] at hj ⊢
    by_cases hs : Q.stored i j = true
    · have e : Function.update y j (y j + deltaR u (y j)) - ye = (y - ye) + Pi.single j (deltaR u (y j)) := by
        funext k
        by_cases hk : k = j
        · subst hk; simp; ring
        · simp [hk]
      rw [if_pos hs, h.F, h.F, e, Matrix.mulVec_add, Matrix.mulVec_single]
      have := (deltaR_pos hu (y j)).ne'
      simp
      field_simp
    · rw [if_neg hs, hj i j (by simpa using hs)]
  · rw [if_neg hn] at hj ⊢
    exact hj x y _ i j

/-- the iteration of the code on a linear problem. -/
theorem iter_of {h : ℝ} (h0 : 0 < h) {x : ℝ} {y : Fin n → ℝ} {Z0 Z W : Matrix (Fin 3) (Fin n) ℝ} {k : ℕ}
    (hi : Spec.Iterate (newtonMethod consts) (fun _ y => A.mulVec (y - ye)) A x h y Z0 k Z W) :
    1 ≤ k → Iter (h • A.mulVecLin) (y - ye) k (fun i => W i) ∧ Z = Tm consts * W := by
  have ht : ∀ D : Matrix (Fin 3) (Fin n) ℝ, ∀ i, (D * A.transpose) i = A.mulVec (D i) := by
    intro D i
    rw [Matrix.mul_apply_eq_vecMul, Matrix.vecMul_transpose]
  have hm : ∀ (M : Matrix (Fin 3) (Fin 3) ℝ) (D : Matrix (Fin 3) (Fin n) ℝ),
      (fun i => (M * D) i) = mat3 M fun i => D i := by
    intro M D
    funext i
    rw [mat3_apply]
    funext j
    simp [Matrix.mul_apply, Finset.sum_apply]
  -- one iteration
  have one : ∀ {Z W D : Matrix (Fin 3) (Fin n) ℝ},
      (1 / h) • (Lam consts * D) - D * A.transpose = TIm consts *
        Spec.stageValues (newtonMethod consts) (fun _ y => A.mulVec (y - ye)) x h y Z
        - (1 / h) • (Lam consts * W) →
      mat3 (Lam consts) (fun i => (W + D) i) - map3 (h • A.mulVecLin) (fun i => (W + D) i)
        = mat3 (TIm consts) (fun _ => (h • A.mulVecLin) (y - ye))
          + map3 (h • A.mulVecLin) (mat3 (TIm consts) (fun i => Z i) - fun i => W i) := by
    intro Z W D hD
    funext i
    have hr := congrArg (h • ·) (congrFun hD i)
    have e1 : (fun i => Spec.stageValues (newtonMethod consts) (fun _ y => A.mulVec (y - ye)) x h y Z i)
        = (fun i => A.mulVecLin (y - ye) + A.mulVecLin (Z i)) := by
      funext i
      show A.mulVec ((fun k => y k + Z i k) - ye) = _
      rw [Matrix.mulVecLin_apply, Matrix.mulVecLin_apply, ← Matrix.mulVec_add]
      congr 1
      funext k
      show y k + Z i k - ye k = y k - ye k + Z i k
      ring
    have e2 : (TIm consts * Spec.stageValues (newtonMethod consts) (fun _ y => A.mulVec (y - ye)) x h y Z) i
        = mat3 (TIm consts) (fun i => A.mulVecLin (y - ye) + A.mulVecLin (Z i)) i := by
      rw [← e1]; exact congrFun (hm (TIm consts) _) i
    have e3 : (Lam consts * D) i = mat3 (Lam consts) (fun i => D i) i := congrFun (hm (Lam consts) D) i
    have e4 : (Lam consts * W) i = mat3 (Lam consts) (fun i => W i) i := congrFun (hm (Lam consts) W) i
    have hr' : h • ((1 / h) • (Lam consts * D) i - (D * A.transpose) i)
        = h • ((TIm consts * Spec.stageValues (newtonMethod consts) (fun _ y => A.mulVec (y - ye)) x h y Z) i
          - (1 / h) • (Lam consts * W) i) := hr
    rw [ht, e2, e3, e4, smul_sub, smul_sub, smul_smul, smul_smul, mul_one_div_cancel h0.ne', one_smul,
      one_smul, sub_eq_iff_eq_add] at hr'
    have e5 : (fun i => (W + D) i) = (fun i => W i) + fun i => D i := rfl
    rw [e5, map_add, map_add]
    simp only [Pi.add_apply, Pi.sub_apply]
    rw [hr']
    have e6 : (fun i => A.mulVecLin (y - ye) + A.mulVecLin (Z i))
        = (fun _ => A.mulVecLin (y - ye)) + fun i => A.mulVecLin (Z i) := rfl
    have e7 : (fun i => A.mulVecLin (Z i)) = map3 A.mulVecLin (fun i => Z i) := rfl
    have e8 : (fun _ : Fin 3 => (h • A.mulVecLin) (y - ye)) = h • fun _ => A.mulVecLin (y - ye) := rfl
    rw [e6, e7, e8, map_add, map_smul, mat3_map3, LinearMap.map_sub (map3 (h • A.mulVecLin))]
    simp only [Pi.add_apply, Pi.smul_apply, Pi.sub_apply, smul_add, map3_apply, LinearMap.smul_apply,
      Matrix.mulVecLin_apply]
    abel
  induction hi with
  | zero => intro h; exact absurd h (by norm_num)
  | @succ k Z W D hi hD ih =>
    intro _
    refine ⟨?_, rfl⟩
    have h1 := one hD
    obtain rfl | hk := Nat.eq_zero_or_pos k
    · cases hi
      have e : mat3 (TIm consts) (fun i => Z0 i) - (fun i => ((newtonMethod consts).TI * Z0) i)
          = mat3 (TIm consts * Tm consts - 1) (0 : Fin 3 → Fin n → ℝ) := by
        rw [map_zero, sub_eq_zero]
        exact (hm (TIm consts) Z0).symm
      rw [e] at h1
      exact .succ .zero h1
    · obtain ⟨i1, i2⟩ := ih hk
      have e : mat3 (TIm consts) (fun i => Z i) - (fun i => W i)
          = mat3 (TIm consts * Tm consts - 1) (fun i => W i) := by
        rw [mat3_sub, mat3_one, i2, hm, mat3_mul]
      rw [e] at h1
      exact .succ i1 h1

/-- the value after a step. -/
theorem value_of {Z W : Matrix (Fin 3) (Fin n) ℝ} (hZ : Z = Tm consts * W) (y : Fin n → ℝ) :
    (fun i => y i + Z 2 i) - ye = (y - ye) + mat3 (Tm consts) (fun i => W i) 2 := by
  have : Z 2 = mat3 (Tm consts) (fun i => W i) 2 := by
    rw [hZ, mat3_apply]
    funext j
    simp [Matrix.mul_apply, Finset.sum_apply]
  rw [← this]
  funext i
  show y i + Z 2 i - ye i = y i - ye i + Z 2 i
  ring

/-- C105: **stability of one step.** -/
theorem radau_step_stable (hA : Spec.Dissipative B A) {h : ℝ} (h0 : 0 < h) {x : ℝ} {y : Fin n → ℝ}
    {Z0 Z W : Matrix (Fin 3) (Fin n) ℝ} {k : ℕ} (hk : 1 ≤ k)
    (hi : Spec.Iterate (newtonMethod consts) (fun _ y => A.mulVec (y - ye)) A x h y Z0 k Z W) :
    Spec.len B ((fun i => y i + Z 2 i) - ye) ≤ (1 + 1e-15) * Spec.len B (y - ye) := by
  obtain ⟨i1, i2⟩ := iter_of h0 hi hk
  rw [value_of i2]
  exact Odes.RadauLin.iter_stable (energy_of h0 hA) i1 hk

/-- C105: one step, from a value `v` at the time `t`. -/
theorem radau_step_error (hA : Spec.Dissipative B A) {h : ℝ} (h0 : 0 < h) {x : ℝ} {v : Fin n → ℝ}
    {Z0 Z W : Matrix (Fin 3) (Fin n) ℝ} {k : ℕ} (hk : 1 ≤ k)
    (hi : Spec.Iterate (newtonMethod consts) (fun _ y => A.mulVec (y - ye)) A x h v Z0 k Z W)
    {y : ℝ → Fin n → ℝ} (hy : Spec.LinearSolution A ye y) (t : ℝ) :
    Spec.len B ((fun i => v i + Z 2 i) - y (t + h))
      ≤ (1 + 1e-15) * Spec.len B (v - y t) + h * Spec.radauBound B A (A.mulVec (y t - ye)) h := by
  have hE := energy_of h0 hA
  obtain ⟨i1, i2⟩ := iter_of h0 hi hk
  obtain ⟨W', i3⟩ := Iter.exists hE (y t - ye) k
  have s1 := Odes.RadauLin.iter_stable hE (i1.sub i3) hk
  have s2 := Odes.RadauLin.iter_taylor hE i3 hk
  have s3 := (flow_of hy).taylor (energy_one hA) 6 t h0.le
  have hp : ∀ (k : ℕ) (v : Fin n → ℝ), ((h • A.mulVecLin) ^ k) v = h ^ k • (A.mulVecLin ^ k) v := by
    intro k v
    rw [smul_pow]; rfl
  have et : ∑ j ∈ Finset.range 6, (1 / (j.factorial : ℝ)) • ((h • A.mulVecLin) ^ j) (y t - ye)
      = ∑ j ∈ Finset.range 6, (h ^ j / (j.factorial : ℝ)) • (A.mulVecLin ^ j) (y t - ye) := by
    refine Finset.sum_congr rfl fun j _ => ?_
    rw [hp, smul_smul]
    congr 1
    ring
  rw [et] at s2
  have q1 : Odes.Rodas.nrm B ((h • A.mulVecLin) (y t - ye)) = h * Spec.len B (A.mulVec (y t - ye)) := by
    rw [LinearMap.smul_apply, nrm_smul, abs_of_pos h0]; rfl
  have q6 : Odes.Rodas.nrm B ((A.mulVecLin ^ 6) (y t - ye))
      = Spec.len B ((A ^ 5).mulVec (A.mulVec (y t - ye))) := by
    rw [mulVecLin_pow, Matrix.mulVec_mulVec, ← pow_succ]; rfl
  rw [q1, hp, nrm_smul, abs_of_pos (pow_pos h0 6), q6] at s2
  rw [q6] at s3
  have e : (fun i => v i + Z 2 i) - y (t + h)
      = ((v - ye - (y t - ye)) + mat3 (Tm consts) ((fun i => W i) - W') 2)
        + (((y t - ye) + mat3 (Tm consts) W' 2
            - ∑ j ∈ Finset.range 6, (h ^ j / (j.factorial : ℝ)) • (A.mulVecLin ^ j) (y t - ye))
          + (-1 : ℝ) • (y (t + h) - ye
            - ∑ j ∈ Finset.range 6, (h ^ j / (j.factorial : ℝ)) • (A.mulVecLin ^ j) (y t - ye))) := by
    have e1 : (fun i => v i + Z 2 i) - y (t + h) = ((fun i => v i + Z 2 i) - ye) - (y (t + h) - ye) := by abel
    rw [e1, value_of i2, map_sub, Pi.sub_apply, neg_one_smul]
    abel
  have e2 : v - ye - (y t - ye) = v - y t := by abel
  show Odes.Rodas.nrm B _ ≤ _
  rw [e]
  have s1' : Odes.Rodas.nrm B ((v - ye - (y t - ye)) + mat3 (Tm consts) ((fun i => W i) - W') 2)
      ≤ (1 + 1e-15) * Spec.len B (v - y t) := by
    refine s1.trans (le_of_eq ?_)
    rw [e2]; rfl
  refine (nrm_add hE _ _).trans (add_le_add s1' ((nrm_add hE _ _).trans ?_))
  rw [nrm_smul, abs_neg, abs_one, one_mul]
  refine (add_le_add s2 s3).trans ?_
  unfold Spec.radauBound
  have p5 : 0 ≤ h ^ 6 * Spec.len B ((A ^ 5).mulVec (A.mulVec (y t - ye))) :=
    mul_nonneg (by positivity) (Real.sqrt_nonneg _)
  generalize Spec.len B ((A ^ 5).mulVec (A.mulVec (y t - ye))) = a5 at *
  generalize Spec.len B (A.mulVec (y t - ye)) = a0 at *
  norm_num [Nat.factorial] at *
  nlinarith

theorem radauBound_nonneg (v : Fin n → ℝ) {h : ℝ} (h0 : 0 ≤ h) : 0 ≤ Spec.radauBound B A v h := by
  unfold Spec.radauBound Spec.len
  positivity

theorem radauBound_mono (v : Fin n → ℝ) {h H : ℝ} (h0 : 0 ≤ h) (hH : h ≤ H) :
    Spec.radauBound B A v h ≤ Spec.radauBound B A v H := by
  have h5 : 0 ≤ Spec.len B ((A ^ 5).mulVec v) := Real.sqrt_nonneg _
  unfold Spec.radauBound
  generalize Spec.len B ((A ^ 5).mulVec v) = a5 at *
  gcongr

/-- the bound decreases along a solution. -/
theorem radauBound_decay (hA : Spec.Dissipative B A) {y : ℝ → Fin n → ℝ}
    (hy : Spec.LinearSolution A ye y) {t s : ℝ} (hs : t ≤ s) {h : ℝ} (h0 : 0 ≤ h) :
    Spec.radauBound B A (A.mulVec (y s - ye)) h ≤ Spec.radauBound B A (A.mulVec (y t - ye)) h := by
  have d : ∀ k : ℕ, Spec.len B ((A ^ k).mulVec (A.mulVec (y s - ye)))
      ≤ Spec.len B ((A ^ k).mulVec (A.mulVec (y t - ye))) := by
    intro k
    have hk : ∀ k : ℕ, Flow A.mulVecLin (fun t => (A ^ k).mulVec (A.mulVec (y t - ye))) := by
      intro k
      induction k with
      | zero => simpa using (flow_of hy).image
      | succ k ih =>
        have := ih.image
        simp only [Matrix.mulVecLin_apply, Matrix.mulVec_mulVec] at this ⊢
        rw [← mul_assoc, ← pow_succ'] at this
        exact this
    exact (hk k).decay (energy_one hA) hs
  have d0 := d 0
  have d5 := d 5
  rw [pow_zero, Matrix.one_mulVec, Matrix.one_mulVec] at d0
  unfold Spec.radauBound
  generalize A.mulVec (y s - ye) = v at *
  generalize A.mulVec (y t - ye) = u at *
  gcongr

/-- C105: **a run of Radau5 on a dissipative linear problem.**  A run which returns at the time `x` has made steps
of positive sizes `l` adding up to `x - x0`; each step increases the distance to the equilibrium by a factor of at
most `1 + 1e-15`, and the distance of the result to a solution is at most the initial distance plus the sum of
`h (h^5/125 |A^5 v| + 3e-16 |v|)` over the steps, up to the same factors, where `v` is the derivative of the
solution at `x0`. -/
theorem radau_run_error (hn : 0 < n) (hL : LinX L Lr) (hS : LinSpec Lr Shape) (hP : ProbX P Q)
    (hg : Std g sf u) (hc : g.c = consts.map X.fin) (ha : RealTol g a r)
    (hSh : Shape A) (ho : g.onlyOneStep = false) (hQ : LinearProb Q A ye) (hA : Spec.Dissipative B A)
    {x0 xe : ℝ} (hx : x0 < xe)
    {y0 : Fin n → ℝ} {o : St n L.σ} {h : X} {s : St n L.σ}
    (hr : Returns (step L P g) (call o h (.fin x0) (.fin xe) (fins y0)) s)
    {y : ℝ → Fin n → ℝ} (hy : Spec.LinearSolution A ye y) :
    ∃ (x : ℝ) (v : Fin n → ℝ) (l : List ℝ), s.x = .fin x ∧ s.Y = fins v ∧ (∀ h ∈ l, 0 < h) ∧
      l.sum = x - x0 ∧
      Spec.len B (v - ye) ≤ (1 + 1e-15) ^ l.length * Spec.len B (y0 - ye) ∧
      Spec.len B (v - y x) ≤ (1 + 1e-15) ^ l.length * (Spec.len B (y0 - y x0)
        + (l.map fun h => h * Spec.radauBound B A (A.mulVec (y x0 - ye)) h).sum) ∧
      ∀ H, (∀ h ∈ l, h ≤ H) → Spec.len B (v - y x) ≤ (1 + 1e-15) ^ l.length * (Spec.len B (y0 - y x0)
        + (x - x0) * Spec.radauBound B A (A.mulVec (y x0 - ye)) H) := by
  have hJ : jacM Q u = fun _ _ => A := by funext x y; exact hQ.jac_eq hg.uround_pos x y
  have hF : Q.F = fun _ y => A.mulVec (y - ye) := by funext x y; exact hQ.F x y
  obtain ⟨x, v, p, h1, h2, hp⟩ := radau_run_is_newton hn hL hS hP hg hc nonzero_consts ha
    (fun x y => by rw [hJ]; exact hSh) ho hx hr
  rw [hJ, hF] at hp
  have key : ∀ {x v p}, Spec.RadauPath (newtonMethod consts) (fun _ y => A.mulVec (y - ye)) (fun _ _ => A)
      g.nit.toNat (ext consts) (Spec.Passes consts.U1 ![consts.DD1, consts.DD2, consts.DD3] a r
        fun _ y => A.mulVec (y - ye)) x0 y0 x v p →
      ∃ l : List ℝ, (∀ h ∈ l, 0 < h) ∧ x = x0 + l.sum ∧
      Spec.len B (v - ye) ≤ (1 + 1e-15) ^ l.length * Spec.len B (y0 - ye) ∧
      Spec.len B (v - y x) ≤ (1 + 1e-15) ^ l.length * (Spec.len B (y0 - y x0)
        + (l.map fun h => h * Spec.radauBound B A (A.mulVec (y x0 - ye)) h).sum) := by
    intro x v p hp
    induction hp with
    | refl => exact ⟨[], by simp, by simp, by simp, by simp⟩
    | @step x x' x'' h hold v v' v'' p p' p'' Z W k _ _ _ h0 _ hk _ hi _ _ _ ih _ _ =>
      obtain ⟨l, l1, l2, l3, l4⟩ := ih
      have b0 := radau_step_stable hA h0 hk hi
      have b1 := radau_step_error hA h0 hk hi hy x
      have hsum : 0 ≤ l.sum := List.sum_nonneg fun x hx => (l1 x hx).le
      have b2 := mul_le_mul_of_nonneg_left (radauBound_decay hA hy (by linarith : x0 ≤ x) h0.le) h0.le
      have b3 : 0 ≤ h * Spec.radauBound B A (A.mulVec (y x0 - ye)) h :=
        mul_nonneg h0.le (radauBound_nonneg _ h0.le)
      have b4 : (1 : ℝ) ≤ (1 + 1e-15) ^ (l.length + 1) := one_le_pow₀ (by norm_num)
      have b5 := mul_le_mul_of_nonneg_left l3 (by norm_num : (0 : ℝ) ≤ 1 + 1e-15)
      have b6 := mul_le_mul_of_nonneg_left l4 (by norm_num : (0 : ℝ) ≤ 1 + 1e-15)
      have b7 := mul_le_mul_of_nonneg_right b4 b3
      rw [← mul_assoc, ← pow_succ'] at b5 b6
      rw [one_mul] at b7
      refine ⟨h :: l, ?_, ?_, ?_, ?_⟩
      · intro z hz
        rcases List.mem_cons.1 hz with rfl | hz
        · exact h0
        · exact l1 z hz
      · rw [List.sum_cons, l2]; ring
      · rw [List.length_cons]; exact b0.trans b5
      · rw [List.length_cons, List.map_cons, List.sum_cons]
        refine b1.trans ((add_le_add b6 (b2.trans b7)).trans (le_of_eq ?_))
        generalize (1 + 1e-15 : ℝ) ^ (l.length + 1) = q
        ring
  obtain ⟨l, l1, l2, l3, l4⟩ := key hp
  refine ⟨x, v, l, h1, h2, l1, by linarith, l3, l4, fun H hH => l4.trans ?_⟩
  refine mul_le_mul_of_nonneg_left ?_ (pow_nonneg (by norm_num) _)
  have e : x - x0 = l.sum := by linarith
  have e2 : l.sum * Spec.radauBound B A (A.mulVec (y x0 - ye)) H
      = (l.map fun x => x * Spec.radauBound B A (A.mulVec (y x0 - ye)) H).sum := by
    rw [List.sum_map_mul_right, List.map_id']
  rw [e, e2, add_le_add_iff_left]
  refine List.sum_le_sum fun x hx => ?_
  exact mul_le_mul_of_nonneg_left (radauBound_mono _ (l1 x hx).le (hH x hx)) (l1 x hx).le

/-! ### a run -/

/-- `y' = -y` on reals. -/
noncomputable def decayQ : Prob ℝ 1 where
  F _ y := fun i => -(y i)
  jac _ _ _ := fun _ _ => -1
  computeJacobianNumerically := false
  stored _ _ := true

theorem decay_probX : ProbX decay decayQ where
  F _ _ := by funext i; exact X.fin_neg _
  jac _ _ _ := rfl
  num := rfl
  stored := rfl

/-- the hypotheses are met by a run on `y' = -y` which returns at the time 1, and the theorem bounds its distance
to the solution `0.001 exp(-t)`. -/
example : ∃ (s : St 1 Sc) (v : Fin 1 → ℝ) (l : List ℝ), Returns (step scalar decay dcfg) (dcall obj) s ∧
    s.x = .fin 1 ∧ s.Y = fins v ∧ (∀ h ∈ l, 0 < h) ∧ l.sum = 1 ∧
    |v 0 - 0.001 * Real.exp (-1)| ≤ (1 + 1e-15) ^ l.length *
      (l.map fun h => h * (h ^ 5 / 125 * 0.001 + 3e-16 * 0.001)).sum := by
  obtain ⟨s, hs, hx, -⟩ := decay_run (o := obj) rfl
  have hlen : ∀ w : Fin 1 → ℝ, Spec.len (Rodas.dot 1) w = |w 0| := by
    intro w
    unfold Spec.len
    rw [Rodas.dot_apply, dotProduct, Fin.sum_univ_one, Real.sqrt_mul_self_eq_abs]
  have hm : ∀ w : Fin 1 → ℝ, (!![(-1 : ℝ)]).mulVec w = -w := by
    intro w; funext i; fin_cases i; simp [Matrix.mulVec, dotProduct]
  have hA : Spec.Dissipative (Rodas.dot 1) !![(-1 : ℝ)] := by
    refine ⟨fun x y => ?_, fun x hx => ?_, fun x => ?_⟩
    · rw [Rodas.dot_apply, Rodas.dot_apply]; exact dotProduct_comm _ _
    · rw [Rodas.dot_apply, dotProduct, Fin.sum_univ_one]
      exact mul_self_pos.2 fun h => hx (by funext i; fin_cases i; exact h)
    · rw [hm, Rodas.dot_apply, dotProduct, Fin.sum_univ_one]
      show -(x 0) * x 0 ≤ 0
      nlinarith [mul_self_nonneg (x 0)]
  have hy : Spec.LinearSolution !![(-1 : ℝ)] 0 (fun t _ => 0.001 * Real.exp (-t)) := by
    intro t
    rw [hasDerivAt_pi]
    intro i
    have h := ((hasDerivAt_neg t).exp).const_mul (0.001 : ℝ)
    have e : (!![(-1 : ℝ)]).mulVec ((fun _ => 0.001 * Real.exp (-t)) - 0) i
        = 0.001 * (Real.exp (-t) * -1) := by
      rw [hm]; simp
    exact e ▸ h
  have hQ : LinearProb decayQ !![(-1 : ℝ)] 0 := by
    refine ⟨fun x y => ?_, ?_⟩
    · rw [hm, sub_zero]; rfl
    · rw [if_neg (by decide)]
      intro x y d i j
      fin_cases i; fin_cases j; rfl
  obtain ⟨x, v, l, h1, h2, h3, h4, -, h6, -⟩ := radau_run_error one_pos scalar_linX scalar_spec decay_probX
    (wcfg_std 7 false (by decide)) rfl (a := fun _ => 0.1) (r := fun _ => 0.1)
    ⟨funext fun _ => X.ofSci_eq _ _ _, funext fun _ => X.ofSci_eq _ _ _, fun _ => by norm_num,
      fun _ => by norm_num⟩ trivial rfl hQ hA one_pos (y0 := fun _ => 0.001) (o := obj) (h := .fin 1) hs hy
  obtain rfl : x = 1 := by rw [hx] at h1; injection h1 with h1; exact h1.symm
  refine ⟨s, v, l, hs, hx, h2, h3, by rw [h4, sub_zero], ?_⟩
  have hp : ∀ (k : ℕ) (w : Fin 1 → ℝ), Spec.len (Rodas.dot 1) ((!![(-1 : ℝ)] ^ k).mulVec w) = |w 0| := by
    intro k
    induction k with
    | zero => intro w; rw [pow_zero, Matrix.one_mulVec, hlen]
    | succ k ih =>
      intro w
      rw [pow_succ, ← Matrix.mulVec_mulVec, ih, hm]
      simp
  unfold Spec.radauBound at h6
  simp only [hp, hlen, hm] at h6
  norm_num at h6 ⊢
  exact h6

end Odes.Radau
