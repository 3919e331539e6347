import Verif.Lemmas.RosReal
import Mathlib.Analysis.Calculus.MeanValue
import Mathlib.Analysis.Calculus.Deriv.MeanValue

/-!
# Error of one Rosenbrock step near a solution of a polynomial problem
-/

namespace Odes

noncomputable section

open Spec Germ

variable {n s : ℕ} {t0 te : ℝ}

/-- the Jacobian matrix. -/
def Jac (P : Fin n → MvPolynomial (Fin n) ℝ) (u : Fin n → ℝ) : Matrix (Fin n) (Fin n) ℝ :=
  Matrix.of fun i j => MvPolynomial.aeval u (MvPolynomial.pderiv j (P i))

theorem matLe_of {A : Matrix (Fin n) (Fin n) ℝ} {b : ℝ} (hb : 0 ≤ b) (h : ∀ i j, |A i j| ≤ b) :
    MatLe A (n * b) := by
  intro x
  rw [pi_norm_le_iff_of_nonneg (by positivity)]
  intro i
  rw [Real.norm_eq_abs, Matrix.mulVec, dotProduct]
  refine (Finset.abs_sum_le_sum_abs _ _).trans ?_
  have : ∀ j ∈ Finset.univ, |A i j * x j| ≤ b * ‖x‖ := by
    intro j _
    rw [abs_mul]
    exact mul_le_mul (h i j) (norm_le_pi_norm x j) (abs_nonneg _) hb
  refine (Finset.sum_le_sum this).trans (le_of_eq ?_)
  simp [mul_assoc]

theorem MatLe.add {A B : Matrix (Fin n) (Fin n) ℝ} {a b : ℝ} (hA : MatLe A a) (hB : MatLe B b) :
    MatLe (A + B) (a + b) := by
  intro x
  rw [Matrix.add_mulVec, add_mul]
  exact (norm_add_le _ _).trans (add_le_add (hA x) (hB x))

theorem MatLe.mono {A : Matrix (Fin n) (Fin n) ℝ} {a b : ℝ} (hA : MatLe A a) (h : a ≤ b) : MatLe A b :=
  fun x => (hA x).trans (mul_le_mul_of_nonneg_right h (norm_nonneg _))

/-- on a ball the Jacobian is bounded and Lipschitz. -/
theorem jac_bounds (P : Fin n → MvPolynomial (Fin n) ℝ) (R : ℝ) : ∃ B, 0 ≤ B ∧
    ∀ u v : Fin n → ℝ, ‖u‖ ≤ R → ‖v‖ ≤ R → MatLe (Jac P u) B ∧ MatLe (Jac P u - Jac P v) (B * ‖u - v‖) := by
  let g : Fin n → Fin n → loc n := fun i j => MvPolynomial.aeval locY (MvPolynomial.pderiv j (P i))
  have e : ∀ i j (u : Fin n → ℝ), (g i j).1 (0, u) = Jac P u i j := fun i j u =>
    (aeval_hom (locEv (n := n) (0, u)) (MvPolynomial.pderiv j (P i)) locY).symm
  choose L l0 hL using fun i j => (g i j).2 R
  have hS : 0 ≤ ∑ i, ∑ j, L i j := Finset.sum_nonneg fun i _ => Finset.sum_nonneg fun j _ => l0 i j
  have hle : ∀ i j, L i j ≤ ∑ i, ∑ j, L i j := fun i j =>
    (Finset.single_le_sum (f := L i) (fun j _ => l0 i j) (Finset.mem_univ j)).trans
      (Finset.single_le_sum (f := fun i => ∑ j, L i j)
        (fun i _ => Finset.sum_nonneg fun j _ => l0 i j) (Finset.mem_univ i))
  refine ⟨n * ∑ i, ∑ j, L i j, by positivity, fun u v hu hv => ⟨?_, ?_⟩⟩
  · refine matLe_of hS fun i j => ?_
    rw [← e]
    exact (hL i j 0 u v le_rfl zero_le_one hu hv).1.trans (hle i j)
  · rw [mul_assoc]
    refine matLe_of (by positivity) fun i j => ?_
    rw [Matrix.sub_apply, ← e, ← e]
    exact (hL i j 0 u v le_rfl zero_le_one hu hv).2.trans
      (mul_le_mul_of_nonneg_right (hle i j) (norm_nonneg _))

/-- functions that agree for short steps have the same class. -/
theorem cls_local {Θ : Type} {h u v : bdd Θ} {h0 : ℝ} (hp : 0 < h0) (hh : ∀ θ, 0 ≤ h.1 θ)
    (he : ∀ θ, h.1 θ ≤ h0 → u.1 θ = v.1 θ) : cls h u = cls h v := by
  obtain ⟨C, hC⟩ := (u - v).2
  refine cls_eq.2 ⟨|C| / h0 ^ 5, fun θ => ?_⟩
  have hC' : |u.1 θ - v.1 θ| ≤ |C| := (hC θ).trans (le_abs_self _)
  rw [abs_of_nonneg (hh θ)]
  rcases le_or_gt (h.1 θ) h0 with h1 | h1
  · rw [he θ h1, sub_self, abs_zero]
    have := hh θ
    positivity
  · have h2 : h0 ^ 5 ≤ h.1 θ ^ 5 := pow_le_pow_left₀ hp.le h1.le 5
    refine hC'.trans ?_
    rw [div_mul_eq_mul_div, le_div_iff₀ (by positivity)]
    exact mul_le_mul_of_nonneg_left h2 (abs_nonneg _)

/-- the value at `θ` of the field at a vector of bounded functions. -/
theorem polyField_val {Θ : Type} (P : Fin n → MvPolynomial (Fin n) ℝ) (v : Fin n → bdd Θ) (i : Fin n) (θ : Θ) :
    (polyField P v i).1 θ = polyField P (fun j => (v j).1 θ) i :=
  (polyField_hom (ev θ) P v i).symm

theorem aeval_val {Θ : Type} (p : MvPolynomial (Fin n) ℝ) (v : Fin n → bdd Θ) (θ : Θ) :
    (MvPolynomial.aeval v p).1 θ = MvPolynomial.aeval (fun j => (v j).1 θ) p :=
  (aeval_hom (ev θ) p v).symm

theorem sum_val {Θ ι : Type} (S : Finset ι) (v : ι → bdd Θ) (θ : Θ) : (∑ j ∈ S, v j).1 θ = ∑ j ∈ S, (v j).1 θ :=
  map_sum (ev θ) v S

/-- **the error of a step with the exact Jacobian that starts on the solution.** -/
theorem ros_local {P : Fin n → MvPolynomial (Fin n) ℝ} {y : ℝ → Fin n → ℝ}
    (hy : SolOn (polyField P) y t0 te) {R : ℝ} (hR : ∀ t ∈ Set.Icc t0 te, ‖y t‖ ≤ R)
    {M : Classic ℝ s} {γ η D0 : ℝ} (hM : Tri M γ) (hδ : Below η (M.result.add (Taylor.exact8.smul (-1))))
    (hD0 : 0 ≤ D0) (hel : ElemLe P y t0 te D0)
    {B h0 : ℝ} (hB : 0 ≤ B) (hJ : ∀ t ∈ Set.Icc t0 te, MatLe (Jac P (y t)) B) (h0p : 0 < h0) (h01 : h0 ≤ 1)
    (h0B : h0 * (γ * B) ≤ 1 / 2) :
    ∃ C, 0 ≤ C ∧ ∀ t h k, t0 ≤ t → 0 ≤ h → h ≤ h0 → t + h ≤ te → Stages M P (Jac P (y t)) h (y t) k →
      ‖y t + ∑ j, M.b j • k j - y (t + h)‖ ≤ C * h ^ 5 + 8 * η * D0 * h := by
  obtain ⟨Z, z0, hZ⟩ := stages_bound M hM P R hB
  obtain ⟨W, w0, hW⟩ := stages_diff M hM P R hB
  have hin : ∀ θ : Steps t0 te, θ.t ∈ Set.Icc t0 te := fun θ => ⟨θ.ge, by linarith [θ.pos, θ.fits]⟩
  have hsm : ∀ h, 0 ≤ h → h ≤ h0 → h * (γ * B) ≤ 1 / 2 := fun h _ h1 =>
    (mul_le_mul_of_nonneg_right h1 (mul_nonneg hM.pos hB)).trans h0B
  have hex : ∀ θ : Steps t0 te, ∃ k, θ.h ≤ h0 → Stages M P (Jac P (y θ.t)) θ.h (y θ.t) k := by
    intro θ
    by_cases h1 : θ.h ≤ h0
    · obtain ⟨k, hk⟩ := stages_exist M hM P (hJ _ (hin θ)) θ.pos (hsm _ θ.pos h1) (y θ.t)
      exact ⟨k, fun _ => hk⟩
    · exact ⟨0, fun h => absurd h h1⟩
  choose kk hkk using hex
  have kb : ∀ θ : Steps t0 te, θ.h ≤ h0 → ∀ i a, |kk θ i a| ≤ Z * θ.h := fun θ h1 i a =>
    (norm_le_pi_norm (kk θ i) a).trans (hZ _ _ _ _ (hJ _ (hin θ)) θ.pos θ.le (hsm _ θ.pos h1)
      (hR _ (hin θ)) (hkk θ h1) i)
  obtain ⟨κ, hκ⟩ : ∃ κ : Fin s → Fin n → bdd (Steps t0 te),
      ∀ θ : Steps t0 te, θ.h ≤ h0 → ∀ i a, θ.h * (κ i a).1 θ = kk θ i a := by
    refine ⟨fun i a => ⟨fun θ => if θ.h ≤ h0 then kk θ i a / θ.h else 0, Z, fun θ => ?_⟩, ?_⟩
    · show |if θ.h ≤ h0 then kk θ i a / θ.h else 0| ≤ Z
      by_cases h1 : θ.h ≤ h0
      · rw [if_pos h1, abs_div, abs_of_nonneg θ.pos]
        exact div_le_of_le_mul₀ θ.pos z0 (kb θ h1 i a)
      · rw [if_neg h1, abs_zero]; exact z0
    · intro θ h1 i a
      show θ.h * (if θ.h ≤ h0 then kk θ i a / θ.h else 0) = _
      rw [if_pos h1]
      rcases eq_or_ne θ.h 0 with h2 | h2
      · have := kb θ h1 i a
        rw [h2, mul_zero] at this
        rw [h2, zero_mul]
        exact (abs_nonpos_iff.1 this).symm
      · field_simp
  let c : ℝ → bdd (Steps t0 te) := fun r => algebraMap ℝ _ r
  have cval : ∀ r (θ : Steps t0 te), (c r).1 θ = r := fun _ _ => rfl
  let hh := Odes.hB t0 te
  have hc : ∀ r, cls hh (c r) = cst r := fun r => AlgHom.commutes _ r
  have hval : ∀ θ : Steps t0 te, hh.1 θ = θ.h := fun _ => rfl
  -- sums of the stages
  have hsum : ∀ (a : Fin s → ℝ) (θ : Steps t0 te), θ.h ≤ h0 → ∀ b,
      θ.h * ∑ j, a j * (κ j b).1 θ = (∑ j, a j • kk θ j) b := by
    intro a θ h1 b
    rw [Finset.mul_sum, Finset.sum_apply]
    refine Finset.sum_congr rfl fun j _ => ?_
    rw [Pi.smul_apply, smul_eq_mul, ← hκ θ h1]
    ring
  obtain ⟨C, c0, hC⟩ := local_error hy hR hD0 hel (fun b => yB hR b + hh * ∑ j, c (M.b j) * κ j b) _ hδ (fun D hD => by
    have hk := D.ros_step (eps_pow _) M hM.alpha hM.gam (fun i b => cls hh (κ i b)) (fun i => by
      funext b
      have e : cls hh (hh * κ i b) = cls hh (hh * polyField P (fun b => yB hR b
          + hh * ∑ j, c (M.alpha i j) * κ j b) b + hh ^ 2 * ∑ l,
            MvPolynomial.aeval (yB hR) (MvPolynomial.pderiv l (P b)) * ∑ j, c (M.gam i j) * κ j l) := by
        refine cls_local h0p (fun θ => θ.pos) fun θ h1 => ?_
        have h2 := congrFun (hkk θ h1 i) b
        have e1 : (fun b => (yB hR b + hh * ∑ j, c (M.alpha i j) * κ j b).1 θ)
            = y θ.t + ∑ j, M.alpha i j • kk θ j := by
          funext b
          rw [Pi.add_apply, ← hsum _ θ h1]
          show y θ.t b + θ.h * (∑ j, c (M.alpha i j) * κ j b).1 θ = _
          rw [sum_val]
          rfl
        have e2 : (∑ l, MvPolynomial.aeval (yB hR) (MvPolynomial.pderiv l (P b))
            * ∑ j, c (M.gam i j) * κ j l).1 θ
            = ∑ l, Jac P (y θ.t) b l * ∑ j, M.gam i j * (κ j l).1 θ := by
          rw [sum_val]
          refine Finset.sum_congr rfl fun l _ => ?_
          show (MvPolynomial.aeval (yB hR) (MvPolynomial.pderiv l (P b))).1 θ
            * (∑ j, c (M.gam i j) * κ j l).1 θ = _
          rw [aeval_val, sum_val]
          rfl
        show θ.h * (κ i b).1 θ = θ.h * (polyField P (fun b => yB hR b
          + hh * ∑ j, c (M.alpha i j) * κ j b) b).1 θ + θ.h ^ 2 * (∑ l,
            MvPolynomial.aeval (yB hR) (MvPolynomial.pderiv l (P b)) * ∑ j, c (M.gam i j) * κ j l).1 θ
        rw [hκ θ h1, h2, polyField_val, e1, e2, Pi.add_apply, Pi.smul_apply, Pi.smul_apply, smul_eq_mul,
          smul_eq_mul, pow_two, mul_assoc]
        congr 2
        rw [Finset.mul_sum, Matrix.mulVec, dotProduct]
        refine Finset.sum_congr rfl fun l _ => ?_
        rw [← hsum _ θ h1]
        ring
      simp only [map_add, map_mul, map_pow, map_sum, hc] at e
      rw [← polyField_hom] at e
      simp only [map_add, map_mul, map_sum, hc] at e
      simp only [Pi.add_apply, Pi.smul_apply, smul_eq_mul]
      rw [hD]
      simp only [Finset.sum_apply, Pi.smul_apply, smul_eq_mul]
      refine e.trans ?_
      congr 2
      congr 1
      funext b
      simp only [Pi.add_apply, Pi.smul_apply, smul_eq_mul, Finset.sum_apply]
      rfl)
    rw [← hk]
    funext b
    simp only [map_add, map_mul, map_sum, Pi.add_apply, Pi.smul_apply, smul_eq_mul, Finset.sum_apply]
    rfl)
  refine ⟨C, c0, fun t h k h1 h2 h3 h4 hk => ?_⟩
  have hS := h3.trans h01
  obtain ⟨θ, et, eh⟩ : ∃ θ : Steps t0 te, θ.t = t ∧ θ.h = h := ⟨⟨t, h, h1, h2, hS, h4⟩, rfl, rfl⟩
  have h5 := hC θ
  have h6 : θ.h ≤ h0 := by rw [eh]; exact h3
  have hu : k = kk θ := by
    have hk' := hkk θ h6
    rw [et, eh] at hk'
    have ht : t ∈ Set.Icc t0 te := by rw [← et]; exact hin θ
    have hz : MatLe (Jac P (y t) - Jac P (y t)) 0 := fun x => by simp
    funext i
    have := hW _ _ h _ _ k (kk θ) 0 (hJ t ht) (hJ t ht) hz le_rfl h2 hS (hsm h h2 h3) (hR t ht) (hR t ht)
      hk hk' i
    rw [sub_self, norm_zero, zero_mul, add_zero, mul_zero, mul_zero] at this
    exact sub_eq_zero.1 (norm_le_zero_iff.1 this)
  have e : (fun b => (yB hR b + hh * ∑ j, c (M.b j) * κ j b).1 θ) = y t + ∑ j, M.b j • k j := by
    funext b
    rw [hu, Pi.add_apply, ← hsum _ θ h6, ← et]
    show y θ.t b + θ.h * (∑ j, c (M.b j) * κ j b).1 θ = _
    rw [sum_val]
    rfl
  rw [e, et, eh] at h5
  exact h5

/-- second differences of a polynomial. -/
theorem second_diff1 (p : MvPolynomial (Fin n) ℝ) (R : ℝ) : ∃ W, 0 ≤ W ∧ ∀ u v a : Fin n → ℝ,
    ‖u‖ ≤ R → ‖v‖ ≤ R → ‖a‖ ≤ R → |MvPolynomial.aeval (u + a) p - MvPolynomial.aeval u p
      - (MvPolynomial.aeval (v + a) p - MvPolynomial.aeval v p)| ≤ W * (‖a‖ * ‖u - v‖) := by
  induction p using MvPolynomial.induction_on with
  | C c => exact ⟨0, le_rfl, fun u v a _ _ _ => by simp⟩
  | add p q hp hq =>
    obtain ⟨W, w0, hW⟩ := hp
    obtain ⟨V, v0, hV⟩ := hq
    refine ⟨W + V, by positivity, fun u v a hu hv ha => ?_⟩
    have := (abs_add_le _ _).trans (add_le_add (hW u v a hu hv ha) (hV u v a hu hv ha))
    rw [add_mul]
    refine le_trans (le_of_eq (congrArg _ ?_)) this
    simp only [map_add]; ring
  | mul_X p i hp =>
    obtain ⟨W, w0, hW⟩ := hp
    obtain ⟨L, l0, hL⟩ := (MvPolynomial.aeval (locY (n := n)) p).2 (2 * |R|)
    have e : ∀ u : Fin n → ℝ, (MvPolynomial.aeval (locY (n := n)) p).1 (0, u) = MvPolynomial.aeval u p :=
      fun u => (aeval_hom (locEv (n := n) (0, u)) p locY).symm
    refine ⟨W * |R| + 2 * L, by positivity, fun u v a hu hv ha => ?_⟩
    have hR := le_abs_self R
    have hR0 := abs_nonneg R
    have hua : ‖u + a‖ ≤ 2 * |R| := (norm_add_le _ _).trans (by linarith)
    have hva : ‖v + a‖ ≤ 2 * |R| := (norm_add_le _ _).trans (by linarith)
    have l1 := (hL 0 (u + a) u le_rfl zero_le_one hua (by linarith)).2
    have l2 := (hL 0 (u + a) (v + a) le_rfl zero_le_one hua hva).2
    rw [e, e] at l1 l2
    rw [add_sub_cancel_left] at l1
    rw [add_sub_add_right_eq_sub] at l2
    have h0 := hW u v a hu hv ha
    have hi1 : |v i| ≤ |R| := (norm_le_pi_norm v i).trans (by linarith)
    have hi2 : |u i - v i| ≤ ‖u - v‖ := norm_le_pi_norm (u - v) i
    have hi3 : |a i| ≤ ‖a‖ := norm_le_pi_norm a i
    simp only [map_mul, MvPolynomial.aeval_X, Pi.add_apply]
    have key : MvPolynomial.aeval (u + a) p * (u i + a i) - MvPolynomial.aeval u p * u i
        - (MvPolynomial.aeval (v + a) p * (v i + a i) - MvPolynomial.aeval v p * v i)
        = (MvPolynomial.aeval (u + a) p - MvPolynomial.aeval u p
            - (MvPolynomial.aeval (v + a) p - MvPolynomial.aeval v p)) * v i
          + (MvPolynomial.aeval (u + a) p - MvPolynomial.aeval u p) * (u i - v i)
          + (MvPolynomial.aeval (u + a) p - MvPolynomial.aeval (v + a) p) * a i := by ring
    rw [key]
    refine (abs_add_three _ _ _).trans ?_
    rw [abs_mul, abs_mul, abs_mul]
    have m1 := mul_le_mul h0 hi1 (abs_nonneg _) (by positivity)
    have m2 := mul_le_mul l1 hi2 (abs_nonneg _) (by positivity)
    have m3 := mul_le_mul l2 hi3 (abs_nonneg _) (by positivity)
    linarith

theorem second_diff (P : Fin n → MvPolynomial (Fin n) ℝ) (R : ℝ) : ∃ W, 0 ≤ W ∧ ∀ u v a : Fin n → ℝ,
    ‖u‖ ≤ R → ‖v‖ ≤ R → ‖a‖ ≤ R → ‖polyField P (u + a) - polyField P u
      - (polyField P (v + a) - polyField P v)‖ ≤ W * (‖a‖ * ‖u - v‖) := by
  obtain ⟨W, w0, hW⟩ := const_common (p := fun i W => ∀ u v a : Fin n → ℝ,
    ‖u‖ ≤ R → ‖v‖ ≤ R → ‖a‖ ≤ R → |MvPolynomial.aeval (u + a) (P i) - MvPolynomial.aeval u (P i)
      - (MvPolynomial.aeval (v + a) (P i) - MvPolynomial.aeval v (P i))| ≤ W * (‖a‖ * ‖u - v‖))
    (fun i C D h hC u v a hu hv ha => (hC u v a hu hv ha).trans
      (mul_le_mul_of_nonneg_right h (by positivity)))
    (fun i => by
      obtain ⟨W, -, h⟩ := second_diff1 (P i) R
      exact ⟨W, h⟩)
  refine ⟨W, w0, fun u v a hu hv ha => ?_⟩
  rw [pi_norm_le_iff_of_nonneg (by positivity)]
  exact fun i => hW i u v a hu hv ha

theorem gam_sum_le' (M : Classic ℝ s) {γ : ℝ} (hM : Tri M γ) (i : Fin s) {x : Fin s → Fin n → ℝ} {m : ℝ}
    (hm : 0 ≤ m) (hx : ∀ j, ‖x j‖ ≤ m) : ‖∑ j, M.gam i j • x j‖ ≤ (coefSum M + γ) * m := by
  have h := gam_sum_le M i hm fun j _ => Or.inr (hx j)
  rw [hM.diag, abs_of_nonneg hM.pos] at h
  have := mul_le_mul_of_nonneg_left (hx i) hM.pos
  linarith

/-- **the stages move with the value of the field**, up to `h²`. -/
theorem stages_slope (M : Classic ℝ s) {γ : ℝ} (hM : Tri M γ) (P : Fin n → MvPolynomial (Fin n) ℝ)
    (R : ℝ) {B : ℝ} (hB : 0 ≤ B) :
    ∃ G, 0 ≤ G ∧ ∀ J J' h u u' k k' κ, MatLe J B → MatLe J' B → MatLe (J - J') (κ + B * ‖u - u'‖) → 0 ≤ κ →
      0 ≤ h → h ≤ 1 → h * (γ * B) ≤ 1 / 2 → ‖u‖ ≤ R → ‖u'‖ ≤ R → Stages M P J h u k → Stages M P J' h u' k' →
      ∀ i, ‖k i - k' i - h • (polyField P u - polyField P u')‖ ≤ G * h ^ 2 * (‖u - u'‖ + κ) := by
  obtain ⟨Y, y0, hY⟩ := stages_bound M hM P R hB
  obtain ⟨Z, z0, hZ⟩ := stages_diff M hM P R hB
  have hA := coefSum_nonneg M
  obtain ⟨A, hAe⟩ : ∃ A, A = coefSum M := ⟨_, rfl⟩
  rw [← hAe] at hA
  obtain ⟨S, hS⟩ : ∃ S, S = |R| + A * Y := ⟨_, rfl⟩
  obtain ⟨L, l0, hL⟩ := polyField_lip P S
  obtain ⟨W, w0, hW⟩ := second_diff P S
  have hγ0 := hM.pos
  refine ⟨W * (A * Y) + L * (A * (Z * (1 + B))) + B * ((A + γ) * (Z * (1 + B))) + (1 + B) * ((A + γ) * Y),
    by positivity, ?_⟩
  intro J J' h u u' k k' κ hJ hJ' hd hκ h0 h1 hγ hu hu' hk hk' i
  have d0 := norm_nonneg (u - u')
  have kb := hY J h u k hJ h0 h1 hγ hu hk
  have kb' := hY J' h u' k' hJ' h0 h1 hγ hu' hk'
  have kd := hZ J J' h u u' k k' _ hJ hJ' hd (by positivity) h0 h1 hγ hu hu' hk hk'
  generalize hdd : ‖u - u'‖ = d at *
  have kd' : ∀ i, ‖k i - k' i‖ ≤ Z * (1 + B) * (d + κ) * h := by
    intro i
    refine (kd i).trans ?_
    have q1 : (κ + B * d) * h ≤ (κ + B * d) * 1 := mul_le_mul_of_nonneg_left h1 (by positivity)
    have q2 : d + (κ + B * d) * h ≤ (1 + B) * (d + κ) := by
      have : 0 ≤ B * κ := by positivity
      linarith
    have := mul_le_mul_of_nonneg_left q2 (by positivity : 0 ≤ Z * h)
    linarith
  have hm1 : 0 ≤ Z * (1 + B) * (d + κ) * h := by positivity
  have hm2 : 0 ≤ Y * h := by positivity
  have a1 : ‖∑ j, M.alpha i j • k j‖ ≤ A * (Y * h) := by
    rw [hAe]; exact alpha_sum_le M i hm2 fun j => Or.inr (kb j)
  have a1' : ‖∑ j, M.alpha i j • k' j‖ ≤ A * (Y * h) := by
    rw [hAe]; exact alpha_sum_le M i hm2 fun j => Or.inr (kb' j)
  have a2 : ‖∑ j, M.alpha i j • (k j - k' j)‖ ≤ A * (Z * (1 + B) * (d + κ) * h) := by
    rw [hAe]; exact alpha_sum_le M i hm1 fun j => Or.inr (kd' j)
  have a3 : ‖∑ j, M.gam i j • (k j - k' j)‖ ≤ (A + γ) * (Z * (1 + B) * (d + κ) * h) := by
    rw [hAe]; exact gam_sum_le' M hM i hm1 kd'
  have a4 : ‖∑ j, M.gam i j • k' j‖ ≤ (A + γ) * (Y * h) := by
    rw [hAe]; exact gam_sum_le' M hM i hm2 kb'
  have hAY : A * (Y * h) ≤ A * Y := by
    have := mul_le_mul_of_nonneg_left h1 (by positivity : 0 ≤ A * Y)
    linarith
  have hRS : R ≤ S := by
    have : 0 ≤ A * Y := by positivity
    rw [hS]; linarith [le_abs_self R]
  have hAS : A * Y ≤ S := by rw [hS]; linarith [abs_nonneg R]
  have hRAS : R + A * Y ≤ S := by rw [hS]; linarith [le_abs_self R]
  have b1 := hW u u' (∑ j, M.alpha i j • k j) (hu.trans hRS) (hu'.trans hRS) (a1.trans (hAY.trans hAS))
  have n1 : ‖u' + ∑ j, M.alpha i j • k j‖ ≤ S := (norm_add_le _ _).trans
    ((add_le_add hu' (a1.trans hAY)).trans hRAS)
  have n2 : ‖u' + ∑ j, M.alpha i j • k' j‖ ≤ S := (norm_add_le _ _).trans
    ((add_le_add hu' (a1'.trans hAY)).trans hRAS)
  have b2 := (hL _ _ n1 n2).2
  have e2 : u' + ∑ j, M.alpha i j • k j - (u' + ∑ j, M.alpha i j • k' j)
      = ∑ j, M.alpha i j • (k j - k' j) := by
    simp only [smul_sub, Finset.sum_sub_distrib]; abel
  rw [e2] at b2
  have b3 := hJ (∑ j, M.gam i j • (k j - k' j))
  have b4 := hd (∑ j, M.gam i j • k' j)
  have e : k i - k' i - h • (polyField P u - polyField P u')
      = h • ((polyField P (u + ∑ j, M.alpha i j • k j) - polyField P u
          - (polyField P (u' + ∑ j, M.alpha i j • k j) - polyField P u'))
        + (polyField P (u' + ∑ j, M.alpha i j • k j) - polyField P (u' + ∑ j, M.alpha i j • k' j))
        + (J.mulVec (∑ j, M.gam i j • (k j - k' j)) + (J - J').mulVec (∑ j, M.gam i j • k' j))) := by
    have e3 : J.mulVec (∑ j, M.gam i j • (k j - k' j)) + (J - J').mulVec (∑ j, M.gam i j • k' j)
        = J.mulVec (∑ j, M.gam i j • k j) - J'.mulVec (∑ j, M.gam i j • k' j) := by
      simp only [smul_sub, Finset.sum_sub_distrib, Matrix.mulVec_sub, Matrix.sub_mulVec]
      abel
    rw [e3]
    conv_lhs => rw [hk i, hk' i]
    module
  have c1 : ‖polyField P (u + ∑ j, M.alpha i j • k j) - polyField P u
      - (polyField P (u' + ∑ j, M.alpha i j • k j) - polyField P u')‖ ≤ W * (A * Y) * h * (d + κ) := by
    refine b1.trans ?_
    have q := mul_le_mul_of_nonneg_left (mul_le_mul_of_nonneg_right a1 d0) w0
    rw [hdd]
    have : 0 ≤ W * (A * Y) * h * κ := by positivity
    linarith
  have c2 : ‖polyField P (u' + ∑ j, M.alpha i j • k j) - polyField P (u' + ∑ j, M.alpha i j • k' j)‖
      ≤ L * (A * (Z * (1 + B))) * h * (d + κ) := by
    refine b2.trans ?_
    have := mul_le_mul_of_nonneg_left a2 l0
    linarith
  have c3 : ‖J.mulVec (∑ j, M.gam i j • (k j - k' j))‖ ≤ B * ((A + γ) * (Z * (1 + B))) * h * (d + κ) := by
    refine b3.trans ?_
    have := mul_le_mul_of_nonneg_left a3 hB
    linarith
  have c4 : ‖(J - J').mulVec (∑ j, M.gam i j • k' j)‖ ≤ (1 + B) * ((A + γ) * Y) * h * (d + κ) := by
    refine b4.trans ?_
    have q1 : κ + B * d ≤ (1 + B) * (d + κ) := by
      have : 0 ≤ B * κ := by positivity
      linarith
    have q := mul_le_mul q1 a4 (norm_nonneg _) (by positivity)
    linarith
  rw [e, norm_smul, Real.norm_eq_abs, abs_of_nonneg h0]
  have c5 := (norm_add₃_le (a := polyField P (u + ∑ j, M.alpha i j • k j) - polyField P u
      - (polyField P (u' + ∑ j, M.alpha i j • k j) - polyField P u'))
      (b := polyField P (u' + ∑ j, M.alpha i j • k j) - polyField P (u' + ∑ j, M.alpha i j • k' j))
      (c := J.mulVec (∑ j, M.gam i j • (k j - k' j)) + (J - J').mulVec (∑ j, M.gam i j • k' j))).trans
    (add_le_add (add_le_add c1 c2) ((norm_add_le _ _).trans (add_le_add c3 c4)))
  have := mul_le_mul_of_nonneg_left c5 h0
  refine this.trans (le_of_eq ?_)
  ring

/-- **the error of a step that starts near the solution**, with a matrix that differs from the Jacobian by
at most `κ`; `Λ` is a Lipschitz constant of the field. -/
theorem ros_step_error {P : Fin n → MvPolynomial (Fin n) ℝ} {y : ℝ → Fin n → ℝ}
    (hy : SolOn (polyField P) y t0 te) {R : ℝ} (hR : ∀ t ∈ Set.Icc t0 te, ‖y t‖ ≤ R)
    {M : Classic ℝ s} {γ η D0 Λ : ℝ} (hM : Tri M γ) (hδ : Below η (M.result.add (Taylor.exact8.smul (-1))))
    (hD0 : 0 ≤ D0) (hel : ElemLe P y t0 te D0)
    (hΛ : ∀ u v : Fin n → ℝ, ‖u‖ ≤ R + 1 → ‖v‖ ≤ R + 1 → ‖polyField P u - polyField P v‖ ≤ Λ * ‖u - v‖)
    {κm : ℝ} (hκm : 0 ≤ κm) :
    ∃ h0 C, 0 < h0 ∧ h0 ≤ 1 ∧ 0 ≤ C ∧ ∀ t h v J k κ, t0 ≤ t → 0 ≤ h → h ≤ h0 → t + h ≤ te →
      ‖v - y t‖ ≤ 1 → MatLe (J - Jac P v) κ → 0 ≤ κ → κ ≤ κm → Stages M P J h v k →
      ‖v + ∑ j, M.b j • k j - y (t + h)‖
        ≤ (1 + |∑ j, M.b j| * Λ * h + C * h ^ 2) * ‖v - y t‖ + C * h ^ 5 + 8 * η * D0 * h
          + C * κ * h ^ 2 := by
  obtain ⟨B, b0, hB⟩ := jac_bounds P (R + 1)
  have hBm : 0 ≤ B + κm := by positivity
  obtain ⟨h0, h0p, h01, h0B⟩ : ∃ h0 : ℝ, 0 < h0 ∧ h0 ≤ 1 ∧ h0 * (γ * (B + κm)) ≤ 1 / 2 := by
    have hq : 0 ≤ γ * (B + κm) := mul_nonneg hM.pos hBm
    refine ⟨1 / (2 * (1 + γ * (B + κm))), by positivity, ?_, ?_⟩
    · rw [div_le_one (by positivity)]; linarith
    · rw [div_mul_eq_mul_div, one_mul, div_le_div_iff₀ (by positivity) (by norm_num)]
      linarith
  have hJ : ∀ t ∈ Set.Icc t0 te, MatLe (Jac P (y t)) (B + κm) := fun t ht =>
    ((hB (y t) (y t) (by linarith [hR t ht]) (by linarith [hR t ht])).1).mono (by linarith)
  obtain ⟨C1, c1, hC1⟩ := ros_local hy hR hM hδ hD0 hel hBm hJ h0p h01 h0B
  obtain ⟨G, g0, hG⟩ := stages_slope M hM P (R + 1) hBm
  have hA := coefSum_nonneg M
  refine ⟨h0, C1 + coefSum M * G, h0p, h01, by positivity, ?_⟩
  intro t h v J k κ h1 h2 h3 h4 h5 h6 h7 h8 hk
  have ht : t ∈ Set.Icc t0 te := ⟨h1, by linarith⟩
  have hsm : h * (γ * (B + κm)) ≤ 1 / 2 :=
    (mul_le_mul_of_nonneg_right h3 (mul_nonneg hM.pos hBm)).trans h0B
  have hyt : ‖y t‖ ≤ R + 1 := by linarith [hR t ht]
  have hv : ‖v‖ ≤ R + 1 := by
    have e : v = (v - y t) + y t := by abel
    rw [e]
    exact (norm_add_le _ _).trans (by linarith [hR t ht])
  obtain ⟨k', hk'⟩ := stages_exist M hM P (hJ t ht) h2 hsm (y t)
  have d := hB v (y t) hv hyt
  have hJv : MatLe J (B + κm) := by
    have e : J = Jac P v + (J - Jac P v) := by abel
    rw [e]
    exact d.1.add (h6.mono h8)
  have d00 := norm_nonneg (v - y t)
  have hJd : MatLe (J - Jac P (y t)) (κ + (B + κm) * ‖v - y t‖) := by
    have e : J - Jac P (y t) = (J - Jac P v) + (Jac P v - Jac P (y t)) := by abel
    rw [e]
    refine (h6.add d.2).mono ?_
    have : 0 ≤ κm * ‖v - y t‖ := by positivity
    linarith
  have hd := hG _ _ h v (y t) k k' κ hJv (hJ t ht) hJd h7 h2 (h3.trans h01) hsm hv hyt hk hk'
  have hl := hC1 t h k' h1 h2 h3 h4 hk'
  have hs := b_sum_le M (x := fun j => k j - k' j - h • (polyField P v - polyField P (y t)))
    (by positivity) hd
  have hf := hΛ v (y t) hv hyt
  have e : v + ∑ j, M.b j • k j - y (t + h) = (v - y t)
      + ((h * ∑ j, M.b j) • (polyField P v - polyField P (y t))
        + ∑ j, M.b j • (k j - k' j - h • (polyField P v - polyField P (y t))))
      + (y t + ∑ j, M.b j • k' j - y (t + h)) := by
    have e1 : ∑ j, M.b j • (h • (polyField P v - polyField P (y t)))
        = (h * ∑ j, M.b j) • (polyField P v - polyField P (y t)) := by
      rw [Finset.mul_sum, Finset.sum_smul]
      exact Finset.sum_congr rfl fun j _ => by rw [smul_smul, mul_comm]
    rw [← e1]
    simp only [smul_sub, Finset.sum_sub_distrib]
    abel
  rw [e]
  have q0 := norm_add₃_le (a := v - y t)
    (b := (h * ∑ j, M.b j) • (polyField P v - polyField P (y t))
        + ∑ j, M.b j • (k j - k' j - h • (polyField P v - polyField P (y t))))
    (c := y t + ∑ j, M.b j • k' j - y (t + h))
  refine q0.trans ?_
  have q1 : ‖(h * ∑ j, M.b j) • (polyField P v - polyField P (y t))‖
      ≤ |∑ j, M.b j| * Λ * h * ‖v - y t‖ := by
    rw [norm_smul, Real.norm_eq_abs, abs_mul, abs_of_nonneg h2]
    have := mul_le_mul_of_nonneg_left hf (mul_nonneg h2 (abs_nonneg (∑ j, M.b j)))
    linarith
  have q2 := (norm_add_le ((h * ∑ j, M.b j) • (polyField P v - polyField P (y t)))
    (∑ j, M.b j • (k j - k' j - h • (polyField P v - polyField P (y t))))).trans (add_le_add q1 hs)
  generalize ‖v - y t‖ = d0 at *
  have p1 : 0 ≤ C1 * h ^ 2 * d0 := by positivity
  have p2 : 0 ≤ C1 * κ * h ^ 2 := by positivity
  have p3 : 0 ≤ coefSum M * G * h ^ 5 := by positivity
  nlinarith [p1, p2, p3, hs, hl, q2]

/-! ### difference quotients -/

theorem hasDerivAt_update (p : MvPolynomial (Fin n) ℝ) (v : Fin n → ℝ) (j : Fin n) (s : ℝ) :
    HasDerivAt (fun s => MvPolynomial.aeval (Function.update v j (v j + s)) p)
      (MvPolynomial.aeval (Function.update v j (v j + s)) (MvPolynomial.pderiv j p)) s := by
  induction p using MvPolynomial.induction_on with
  | C a => simpa using hasDerivAt_const s a
  | add p q hp hq =>
    simp only [map_add]
    exact hp.add hq
  | mul_X p i hp =>
    have hi : HasDerivAt (fun s => Function.update v j (v j + s) i) (if i = j then 1 else 0) s := by
      by_cases h : i = j
      · subst h
        simpa using (hasDerivAt_id s).const_add (v i)
      · simp only [Function.update_of_ne h, if_neg h]
        exact hasDerivAt_const s (v i)
    simp only [map_mul, MvPolynomial.aeval_X]
    have := hp.mul hi
    rw [Taylor1.pderiv_mulX, map_add, map_mul, MvPolynomial.aeval_X]
    have e : MvPolynomial.aeval (Function.update v j (v j + s)) (if j = i then p else 0)
        = MvPolynomial.aeval (Function.update v j (v j + s)) p * if i = j then 1 else 0 := by
      by_cases h : j = i
      · subst h; simp
      · rw [if_neg h, if_neg (Ne.symm h)]; simp
    rw [e]
    exact this

/-- **the error of a difference quotient**: at most half the second derivative times the increment. -/
theorem quotient_error (P : Fin n → MvPolynomial (Fin n) ℝ) (v : Fin n → ℝ) {s B : ℝ} (i j : Fin n) (s0 : 0 < s)
    (hB : ∀ r ∈ Set.Icc 0 s, |MvPolynomial.aeval (Function.update v j (v j + r))
      (MvPolynomial.pderiv j (MvPolynomial.pderiv j (P i)))| ≤ B) :
    |(polyField P (Function.update v j (v j + s)) i - polyField P v i) * (1 / s) - Jac P v i j|
      ≤ B / 2 * s := by
  let g : ℝ → ℝ := fun r => MvPolynomial.aeval (Function.update v j (v j + r)) (P i)
  let g' : ℝ → ℝ := fun r => MvPolynomial.aeval (Function.update v j (v j + r)) (MvPolynomial.pderiv j (P i))
  have e0 : Function.update v j (v j + 0) = v := by rw [add_zero, Function.update_eq_self]
  have hg : ∀ r, HasDerivAt g (g' r) r := fun r => hasDerivAt_update (P i) v j r
  have hg' := fun r => hasDerivAt_update (MvPolynomial.pderiv j (P i)) v j r
  have h1 : ∀ r ∈ Set.Icc 0 s, |g' r - g' 0| ≤ B * r := by
    intro r hr
    have := (convex_Icc (0 : ℝ) r).norm_image_sub_le_of_norm_hasDerivWithin_le
      (f := g') (C := B) (fun x _ => (hg' x).hasDerivWithinAt)
      (fun x hx => hB x ⟨hx.1, hx.2.trans hr.2⟩) ⟨le_rfl, hr.1⟩ ⟨hr.1, le_rfl⟩
    simpa [abs_of_nonneg hr.1] using this
  have key : ∀ σ : ℝ, σ = 1 ∨ σ = -1 → σ * (g s - g 0 - s * g' 0) ≤ B / 2 * s ^ 2 := by
    intro σ hσ
    let φ : ℝ → ℝ := fun r => B / 2 * r ^ 2 - σ * (g r - g 0 - r * g' 0)
    have hφ : ∀ r, HasDerivAt φ (B / 2 * (2 * r) - σ * (g' r - g' 0)) r := by
      intro r
      have a : HasDerivAt (fun r : ℝ => B / 2 * r ^ 2) (B / 2 * (2 * r)) r := by
        simpa using (hasDerivAt_pow 2 r).const_mul (B / 2)
      have b : HasDerivAt (fun r : ℝ => r * g' 0) (g' 0) r := by
        simpa using (hasDerivAt_id r).mul_const (g' 0)
      exact a.sub (((hg r).sub_const (g 0)).sub b |>.const_mul σ)
    have hm : MonotoneOn φ (Set.Icc 0 s) := by
      refine monotoneOn_of_deriv_nonneg (convex_Icc 0 s) (fun r _ => (hφ r).continuousAt.continuousWithinAt)
        (fun r _ => (hφ r).differentiableAt.differentiableWithinAt) fun r hr => ?_
      rw [interior_Icc] at hr
      rw [(hφ r).deriv]
      have := abs_le.1 (h1 r ⟨hr.1.le, hr.2.le⟩)
      rcases hσ with rfl | rfl <;> linarith [this.1, this.2]
    have := hm ⟨le_rfl, s0.le⟩ ⟨s0.le, le_rfl⟩ s0.le
    simp only [φ] at this
    have e : B / 2 * (0 : ℝ) ^ 2 - σ * (g 0 - g 0 - 0 * g' 0) = 0 := by ring
    rw [e] at this
    linarith
  have k1 := key 1 (Or.inl rfl)
  have k2 := key (-1) (Or.inr rfl)
  have eg : polyField P v i = g 0 := by simp only [g, e0]; rfl
  have eg' : Jac P v i j = g' 0 := by simp only [g', e0]; rfl
  have es : polyField P (Function.update v j (v j + s)) i = g s := rfl
  rw [eg, eg', es]
  have h3 : (g s - g 0) * (1 / s) - g' 0 = (g s - g 0 - s * g' 0) / s := by field_simp
  rw [h3, abs_div, abs_of_pos s0, div_le_iff₀ s0, abs_le]
  constructor <;> nlinarith

end

end Odes
