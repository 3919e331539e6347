import Verif.Spec.SympMap
import Mathlib.Analysis.Calculus.FDeriv.Symmetric
import Mathlib.Analysis.Calculus.FDeriv.Comp
import Mathlib.Analysis.Calculus.FDeriv.Add
import Mathlib.Analysis.Calculus.FDeriv.Mul
import Mathlib.Analysis.Calculus.FDeriv.Bilinear
import Mathlib.Analysis.Calculus.MeanValue
import Mathlib.Tactic.Linarith
import Mathlib.Tactic.Module
import Mathlib.Tactic.Positivity

/-!
# The Runge-Kutta map is symplectic up to the defect of the tableau and of the iterations
-/

namespace Odes.Spec

variable {E : Type} [NormedAddCommGroup E] [NormedSpace ℝ E] {s : ℕ}

/-- Hamiltonian systems have a derivative which is skew for the form. -/
theorem Hamiltonian.deriv_skew {w : E →L[ℝ] E →L[ℝ] ℝ} {H : E → ℝ} {f : E → E}
    (hH : Hamiltonian w H f) {y : E} {D : E →L[ℝ] E} (hD : HasFDerivAt f D y) (x z : E) :
    w (D x) z + w x (D z) = 0 := by
  have h2 : HasFDerivAt (fun y => w (f y)) (w.comp D) y := w.hasFDerivAt.comp y hD
  have := second_derivative_symmetric hH.grad h2 x z
  simp only [ContinuousLinearMap.comp_apply] at this
  rw [this, hH.skew x]
  ring

/-- the algebra: change of a bilinear form along a linear Runge-Kutta sweep. -/
theorem form_sweep {w : E →L[ℝ] E →L[ℝ] ℝ} {A : Fin s → Fin s → ℝ} {b : Fin s → ℝ} {h : ℝ}
    {x y x' y' : E} {kx ky zx zy : Fin s → E}
    (hzx : ∀ i, zx i = x + h • ∑ j, A i j • kx j) (hzy : ∀ i, zy i = y + h • ∑ j, A i j • ky j)
    (hx : x' = x + h • ∑ i, b i • kx i) (hy : y' = y + h • ∑ i, b i • ky i) :
    w x' y' - w x y = h * ∑ i, b i * (w (kx i) (zy i) + w (zx i) (ky i)) -
      h ^ 2 * ∑ i, ∑ j, defect A b i j * w (kx i) (ky j) := by
  have e1 : w x' y' - w x y = h * ∑ i, b i * (w (kx i) y + w x (ky i)) +
      h ^ 2 * ∑ i, ∑ j, b i * b j * w (kx i) (ky j) := by
    rw [hx, hy]
    simp only [map_add, map_smul, map_sum, ContinuousLinearMap.add_apply,
      ContinuousLinearMap.smul_apply, ContinuousLinearMap.sum_apply, smul_eq_mul, mul_add,
      Finset.sum_add_distrib, Finset.mul_sum]
    have : ∑ i, ∑ j, h * (b i * (h * (b j * w (kx j) (ky i)))) =
        ∑ i, ∑ j, h ^ 2 * (b i * b j * w (kx i) (ky j)) := by
      rw [Finset.sum_comm]
      exact Finset.sum_congr rfl fun i _ => Finset.sum_congr rfl fun j _ => by ring
    rw [this]
    ring
  have e2 : ∀ i, w (kx i) (zy i) = w (kx i) y + h * ∑ j, A i j * w (kx i) (ky j) := by
    intro i
    rw [hzy]
    simp only [map_add, map_smul, map_sum, smul_eq_mul]
  have e3 : ∀ i, w (zx i) (ky i) = w x (ky i) + h * ∑ j, A i j * w (kx j) (ky i) := by
    intro i
    rw [hzx]
    simp only [map_add, map_smul, map_sum, smul_eq_mul, ContinuousLinearMap.add_apply,
      ContinuousLinearMap.smul_apply, ContinuousLinearMap.sum_apply]
  rw [e1]
  have e4 : ∑ i, b i * (w (kx i) (zy i) + w (zx i) (ky i)) =
      ∑ i, b i * (w (kx i) y + w x (ky i)) +
      h * ∑ i, ∑ j, (b i * A i j + b j * A j i) * w (kx i) (ky j) := by
    have : ∑ i, ∑ j, (b i * A i j + b j * A j i) * w (kx i) (ky j) =
        ∑ i, ∑ j, b i * A i j * w (kx i) (ky j) + ∑ i, ∑ j, b i * A i j * w (kx j) (ky i) := by
      simp only [add_mul, Finset.sum_add_distrib]
      congr 1
      rw [Finset.sum_comm]
    rw [this, mul_add, Finset.mul_sum, Finset.mul_sum, ← Finset.sum_add_distrib,
      ← Finset.sum_add_distrib]
    refine Finset.sum_congr rfl fun i _ => ?_
    rw [e2, e3]
    have a1 : ∑ j, b i * A i j * w (kx i) (ky j) = b i * ∑ j, A i j * w (kx i) (ky j) := by
      rw [Finset.mul_sum]; exact Finset.sum_congr rfl fun j _ => by ring
    have a2 : ∑ j, b i * A i j * w (kx j) (ky i) = b i * ∑ j, A i j * w (kx j) (ky i) := by
      rw [Finset.mul_sum]; exact Finset.sum_congr rfl fun j _ => by ring
    rw [a1, a2]
    ring
  rw [e4]
  have e5 : ∑ i, ∑ j, defect A b i j * w (kx i) (ky j) =
      ∑ i, ∑ j, (b i * A i j + b j * A j i) * w (kx i) (ky j) -
      ∑ i, ∑ j, b i * b j * w (kx i) (ky j) := by
    simp only [defect, sub_mul, Finset.sum_sub_distrib]
  rw [e5]
  ring

/-- derivative of the stages after `m` sweeps with respect to the initial value. -/
noncomputable def dPicard (A : Fin s → Fin s → ℝ) (h : ℝ) (f : E → E) (u : E) : ℕ → Fin s → E →L[ℝ] E
  | 0 => fun _ => ContinuousLinearMap.id ℝ E
  | m + 1 => fun i => ContinuousLinearMap.id ℝ E +
      h • ∑ j, A i j • (fderiv ℝ f (picard A h f u m j)).comp (dPicard A h f u m j)

theorem picard_deriv {A : Fin s → Fin s → ℝ} {h : ℝ} {f : E → E} (hf : Differentiable ℝ f) (u : E)
    (m : ℕ) (i : Fin s) :
    HasFDerivAt (fun v => picard A h f v m i) (dPicard A h f u m i) u := by
  induction m generalizing i with
  | zero => exact hasFDerivAt_id u
  | succ m ih =>
    refine (hasFDerivAt_id u).add (HasFDerivAt.const_smul (HasFDerivAt.fun_sum fun j _ => ?_) h)
    exact HasFDerivAt.const_smul ((hf _).hasFDerivAt.comp u (ih j)) _

theorem rkMap_deriv {A : Fin s → Fin s → ℝ} {b : Fin s → ℝ} {h : ℝ} {f : E → E}
    (hf : Differentiable ℝ f) (m : ℕ) (u : E) :
    HasFDerivAt (rkMap A b h f m) (ContinuousLinearMap.id ℝ E +
      h • ∑ i, b i • (fderiv ℝ f (picard A h f u m i)).comp (dPicard A h f u m i)) u := by
  refine (hasFDerivAt_id u).add (HasFDerivAt.const_smul (HasFDerivAt.fun_sum fun j _ => ?_) h)
  exact HasFDerivAt.const_smul ((hf _).hasFDerivAt.comp u (picard_deriv hf u m j)) _

/-- exact change of the form under the derivative of the Runge-Kutta map after `m` sweeps. -/
theorem rkMap_form {A : Fin s → Fin s → ℝ} {b : Fin s → ℝ} {h : ℝ} {f : E → E}
    (hf : Differentiable ℝ f) {w : E →L[ℝ] E →L[ℝ] ℝ} {H : E → ℝ} (hH : Hamiltonian w H f) (m : ℕ)
    (u x y : E) :
    let D := fderiv ℝ (rkMap A b h f m) u
    let K := fun i => (fderiv ℝ f (picard A h f u m i)).comp (dPicard A h f u m i)
    let r := fun i => dPicard A h f u (m + 1) i - dPicard A h f u m i
    w (D x) (D y) - w x y = h * ∑ i, b i * (w (K i x) (r i y) + w (r i x) (K i y)) -
      h ^ 2 * ∑ i, ∑ j, defect A b i j * w (K i x) (K j y) := by
  intro D K r
  have hD : D = ContinuousLinearMap.id ℝ E + h • ∑ i, b i • K i := (rkMap_deriv hf m u).fderiv
  have key := form_sweep (w := w) (A := A) (b := b) (h := h) (x := x) (y := y) (x' := D x) (y' := D y)
    (kx := fun i => K i x) (ky := fun i => K i y) (zx := fun i => dPicard A h f u (m + 1) i x)
    (zy := fun i => dPicard A h f u (m + 1) i y)
    (fun i => by simp [dPicard, K, ContinuousLinearMap.sum_apply])
    (fun i => by simp [dPicard, K, ContinuousLinearMap.sum_apply])
    (by rw [hD]; simp [ContinuousLinearMap.sum_apply]) (by rw [hD]; simp [ContinuousLinearMap.sum_apply])
  rw [key]
  congr 2
  refine Finset.sum_congr rfl fun i _ => ?_
  have := hH.deriv_skew (hf (picard A h f u m i)).hasFDerivAt (dPicard A h f u m i x)
    (dPicard A h f u m i y)
  simp only [r, ContinuousLinearMap.sub_apply, map_sub, K, ContinuousLinearMap.comp_apply] at this ⊢
  congr 1
  linarith

/-! ### bounds -/

theorem norm_comb_le {F : Type} [NormedAddCommGroup F] [NormedSpace ℝ F] {c : Fin s → ℝ} {α h V : ℝ}
    (hc : ∑ j, |c j| ≤ α) {v : Fin s → F} (hV : 0 ≤ V) (hv : ∀ j, ‖v j‖ ≤ V) :
    ‖h • ∑ j, c j • v j‖ ≤ |h| * α * V := by
  rw [norm_smul, Real.norm_eq_abs, mul_assoc]
  refine mul_le_mul_of_nonneg_left ?_ (abs_nonneg h)
  refine (norm_sum_le _ _).trans ?_
  calc ∑ j, ‖c j • v j‖ ≤ ∑ j, |c j| * V := Finset.sum_le_sum fun j _ => by
        rw [norm_smul, Real.norm_eq_abs]
        exact mul_le_mul_of_nonneg_left (hv j) (abs_nonneg _)
    _ = (∑ j, |c j|) * V := (Finset.sum_mul ..).symm
    _ ≤ α * V := mul_le_mul_of_nonneg_right hc hV

section Bounds

variable {A : Fin s → Fin s → ℝ} {b : Fin s → ℝ} {h : ℝ} {f : E → E} {α L L2 : ℝ}

/-- derivative bounded by `L`. -/
theorem lip_of_deriv (hf : Differentiable ℝ f) (hL : ∀ y, ‖fderiv ℝ f y‖ ≤ L) (x y : E) :
    ‖f x - f y‖ ≤ L * ‖x - y‖ :=
  Convex.norm_image_sub_le_of_norm_fderiv_le (fun z _ => hf z) (fun z _ => hL z) convex_univ
    (Set.mem_univ y) (Set.mem_univ x)

theorem picard_diff (hα : ∀ i, ∑ j, |A i j| ≤ α) (hα0 : 0 ≤ α) (hL0 : 0 ≤ L)
    (hlip : ∀ x y, ‖f x - f y‖ ≤ L * ‖x - y‖) (u : E) (m : ℕ) (i : Fin s) :
    ‖picard A h f u (m + 1) i - picard A h f u m i‖ ≤ |h| * α * ‖f u‖ * (|h| * α * L) ^ m := by
  induction m generalizing i with
  | zero =>
    have : picard A h f u (0 + 1) i - picard A h f u 0 i = h • ∑ j, A i j • f u := by
      simp [picard]
    rw [this, pow_zero, mul_one]
    exact norm_comb_le (hα i) (norm_nonneg _) fun _ => le_rfl
  | succ m ih =>
    have : picard A h f u (m + 1 + 1) i - picard A h f u (m + 1) i =
        h • ∑ j, A i j • (f (picard A h f u (m + 1) j) - f (picard A h f u m j)) := by
      rw [picard, picard]
      simp only [smul_sub, Finset.sum_sub_distrib]
      abel
    rw [this]
    refine (norm_comb_le (hα i) (V := L * (|h| * α * ‖f u‖ * (|h| * α * L) ^ m)) (by positivity)
      fun j => (hlip _ _).trans (mul_le_mul_of_nonneg_left (ih j) hL0)).trans_eq ?_
    ring

theorem dPicard_le (hα : ∀ i, ∑ j, |A i j| ≤ α) (hα0 : 0 ≤ α) (hL : ∀ y, ‖fderiv ℝ f y‖ ≤ L)
    (hθ : |h| * α * L < 1) (u : E) (m : ℕ) (i : Fin s) :
    ‖dPicard A h f u m i‖ ≤ 1 / (1 - |h| * α * L) := by
  have hL0 : 0 ≤ L := (norm_nonneg _).trans (hL u)
  have hpos : 0 < 1 - |h| * α * L := by linarith
  have hid : ‖ContinuousLinearMap.id ℝ E‖ ≤ 1 := ContinuousLinearMap.norm_id_le
  induction m generalizing i with
  | zero =>
    refine hid.trans ?_
    rw [le_div_iff₀ hpos]
    have : 0 ≤ |h| * α * L := by positivity
    linarith
  | succ m ih =>
    refine (norm_add_le _ _).trans ?_
    have := norm_comb_le (h := h) (hα i) (V := L * (1 / (1 - |h| * α * L))) (by positivity)
      (v := fun j => (fderiv ℝ f (picard A h f u m j)).comp (dPicard A h f u m j))
      fun j => (ContinuousLinearMap.opNorm_comp_le _ _).trans
        (mul_le_mul (hL _) (ih j) (norm_nonneg _) hL0)
    refine (add_le_add hid this).trans_eq ?_
    field_simp
    ring

/-- the derivatives of the iterates converge. -/
theorem dPicard_diff (hf : Differentiable ℝ f) (hα : ∀ i, ∑ j, |A i j| ≤ α) (hα0 : 0 ≤ α)
    (hL : ∀ y, ‖fderiv ℝ f y‖ ≤ L) (hL2 : ∀ x y, ‖fderiv ℝ f x - fderiv ℝ f y‖ ≤ L2 * ‖x - y‖)
    (hL20 : 0 ≤ L2) (hθ : |h| * α * L < 1) (u : E) (m : ℕ) (i : Fin s) :
    ‖dPicard A h f u (m + 1) i - dPicard A h f u m i‖ ≤ (|h| * α * L) ^ (m + 1) +
      m * ((|h| * α) ^ 2 * L2 * ‖f u‖ / (1 - |h| * α * L)) * (|h| * α * L) ^ (m - 1) := by
  have hL0 : 0 ≤ L := (norm_nonneg _).trans (hL u)
  have hpos : 0 < 1 - |h| * α * L := by linarith
  have hid : ‖ContinuousLinearMap.id ℝ E‖ ≤ 1 := ContinuousLinearMap.norm_id_le
  set κ := (|h| * α) ^ 2 * L2 * ‖f u‖ / (1 - |h| * α * L) with hκ
  have hκ0 : 0 ≤ κ := by positivity
  induction m generalizing i with
  | zero =>
    have : dPicard A h f u (0 + 1) i - dPicard A h f u 0 i =
        h • ∑ j, A i j • (fderiv ℝ f u).comp (ContinuousLinearMap.id ℝ E) := by
      simp [dPicard, picard]
    rw [this]
    refine (norm_comb_le (hα i) hL0 fun j => ?_).trans_eq (by simp)
    rw [ContinuousLinearMap.comp_id]
    exact hL u
  | succ m ih =>
    have e : dPicard A h f u (m + 1 + 1) i - dPicard A h f u (m + 1) i =
        h • ∑ j, A i j • ((fderiv ℝ f (picard A h f u (m + 1) j)).comp
            (dPicard A h f u (m + 1) j - dPicard A h f u m j) +
          (fderiv ℝ f (picard A h f u (m + 1) j) - fderiv ℝ f (picard A h f u m j)).comp
            (dPicard A h f u m j)) := by
      rw [dPicard, dPicard]
      simp only [ContinuousLinearMap.comp_sub, ContinuousLinearMap.sub_comp, smul_add, smul_sub,
        Finset.sum_add_distrib, Finset.sum_sub_distrib]
      abel
    rw [e]
    refine (norm_comb_le (hα i) (V := L * ((|h| * α * L) ^ (m + 1) + m * κ * (|h| * α * L) ^ (m - 1)) +
      L2 * (|h| * α * ‖f u‖ * (|h| * α * L) ^ m) * (1 / (1 - |h| * α * L))) (by positivity) fun j => ?_).trans_eq ?_
    · refine (norm_add_le _ _).trans (add_le_add ?_ ?_)
      · exact (ContinuousLinearMap.opNorm_comp_le _ _).trans
          (mul_le_mul (hL _) (ih j) (norm_nonneg _) hL0)
      · refine (ContinuousLinearMap.opNorm_comp_le _ _).trans
          (mul_le_mul ((hL2 _ _).trans (mul_le_mul_of_nonneg_left ?_ hL20))
            (dPicard_le hα hα0 hL hθ u m j) (norm_nonneg _) (by positivity))
        exact picard_diff hα hα0 hL0 (lip_of_deriv hf hL) u m j
    · rw [show |h| * α * (L * ((|h| * α * L) ^ (m + 1) + m * κ * (|h| * α * L) ^ (m - 1)) +
        L2 * (|h| * α * ‖f u‖ * (|h| * α * L) ^ m) * (1 / (1 - |h| * α * L))) =
        (|h| * α * L) ^ (m + 2) + m * κ * ((|h| * α * L) * (|h| * α * L) ^ (m - 1)) +
        κ * (|h| * α * L) ^ m by rw [hκ]; ring]
      cases m with
      | zero => simp
      | succ m =>
        simp only [Nat.add_sub_cancel]
        push_cast
        ring

/-- bound of the change of the form. -/
theorem rkMap_form_le (hf : Differentiable ℝ f) {w : E →L[ℝ] E →L[ℝ] ℝ} {H : E → ℝ}
    (hH : Hamiltonian w H f) (hα : ∀ i, ∑ j, |A i j| ≤ α) (hα0 : 0 ≤ α)
    (hL : ∀ y, ‖fderiv ℝ f y‖ ≤ L) (hL2 : ∀ x y, ‖fderiv ℝ f x - fderiv ℝ f y‖ ≤ L2 * ‖x - y‖)
    (hL20 : 0 ≤ L2) (hθ : |h| * α * L < 1) {ε β : ℝ} (hε : ∀ i j, |defect A b i j| ≤ ε)
    (hβ : ∑ i, |b i| ≤ β) (u : E) (m : ℕ) (x y : E) :
    |w (fderiv ℝ (rkMap A b h f m) u x) (fderiv ℝ (rkMap A b h f m) u y) - w x y| ≤
      (2 * |h| * β * (L / (1 - |h| * α * L)) * ((|h| * α * L) ^ (m + 1) +
        m * ((|h| * α) ^ 2 * L2 * ‖f u‖ / (1 - |h| * α * L)) * (|h| * α * L) ^ (m - 1)) +
       h ^ 2 * s ^ 2 * ε * (L / (1 - |h| * α * L)) ^ 2) * ‖w‖ * ‖x‖ * ‖y‖ := by
  have hL0 : 0 ≤ L := (norm_nonneg _).trans (hL u)
  have hpos : 0 < 1 - |h| * α * L := by linarith
  have hK : ∀ i z, ‖(fderiv ℝ f (picard A h f u m i)).comp (dPicard A h f u m i) z‖ ≤
      L / (1 - |h| * α * L) * ‖z‖ := by
    intro i z
    refine (ContinuousLinearMap.le_opNorm _ _).trans (mul_le_mul_of_nonneg_right ?_ (norm_nonneg _))
    refine (ContinuousLinearMap.opNorm_comp_le _ _).trans ((mul_le_mul (hL _)
      (dPicard_le hα hα0 hL hθ u m i) (norm_nonneg _) hL0).trans_eq (by ring))
  set e := (|h| * α * L) ^ (m + 1) +
      m * ((|h| * α) ^ 2 * L2 * ‖f u‖ / (1 - |h| * α * L)) * (|h| * α * L) ^ (m - 1) with he
  have he0 : 0 ≤ e := by positivity
  have hr : ∀ i z, ‖(dPicard A h f u (m + 1) i - dPicard A h f u m i) z‖ ≤ e * ‖z‖ := fun i z =>
    (ContinuousLinearMap.le_opNorm _ _).trans (mul_le_mul_of_nonneg_right
      (dPicard_diff hf hα hα0 hL hL2 hL20 hθ u m i) (norm_nonneg _))
  set k := L / (1 - |h| * α * L) with hk
  have hk0 : 0 ≤ k := by positivity
  have hw : ∀ a c : E, |w a c| ≤ ‖w‖ * ‖a‖ * ‖c‖ := fun a c => w.le_opNorm₂ a c
  rw [rkMap_form hf hH m u x y]
  refine (abs_sub _ _).trans ?_
  rw [add_mul, add_mul, add_mul]
  refine add_le_add ?_ ?_
  · rw [abs_mul]
    have : |∑ i, b i * (w ((fderiv ℝ f (picard A h f u m i)).comp (dPicard A h f u m i) x)
          ((dPicard A h f u (m + 1) i - dPicard A h f u m i) y) +
        w ((dPicard A h f u (m + 1) i - dPicard A h f u m i) x)
          ((fderiv ℝ f (picard A h f u m i)).comp (dPicard A h f u m i) y))| ≤
        β * (2 * (‖w‖ * (k * e) * ‖x‖ * ‖y‖)) := by
      refine (Finset.abs_sum_le_sum_abs _ _).trans ?_
      refine (Finset.sum_le_sum fun i _ => ?_ : _ ≤ ∑ i, |b i| * (2 * (‖w‖ * (k * e) * ‖x‖ * ‖y‖))).trans ?_
      · rw [abs_mul]
        refine mul_le_mul_of_nonneg_left ((abs_add_le _ _).trans ?_) (abs_nonneg _)
        rw [two_mul]
        refine add_le_add ((hw _ _).trans ?_) ((hw _ _).trans ?_)
        · calc _ ≤ ‖w‖ * (k * ‖x‖) * (e * ‖y‖) := mul_le_mul
                (mul_le_mul_of_nonneg_left (hK i x) (ContinuousLinearMap.opNorm_nonneg w)) (hr i y) (norm_nonneg _) (by positivity)
            _ = _ := by ring
        · calc _ ≤ ‖w‖ * (e * ‖x‖) * (k * ‖y‖) := mul_le_mul
                (mul_le_mul_of_nonneg_left (hr i x) (ContinuousLinearMap.opNorm_nonneg w)) (hK i y) (norm_nonneg _) (by positivity)
            _ = _ := by ring
      · rw [← Finset.sum_mul]
        exact mul_le_mul_of_nonneg_right hβ (by positivity)
    refine (mul_le_mul_of_nonneg_left this (abs_nonneg h)).trans_eq (by ring)
  · rw [abs_mul, abs_of_nonneg (sq_nonneg h)]
    have : |∑ i, ∑ j, defect A b i j *
        w ((fderiv ℝ f (picard A h f u m i)).comp (dPicard A h f u m i) x)
          ((fderiv ℝ f (picard A h f u m j)).comp (dPicard A h f u m j) y)| ≤
        s * (s * (ε * (‖w‖ * (k * ‖x‖) * (k * ‖y‖)))) := by
      refine (Finset.abs_sum_le_sum_abs _ _).trans ?_
      refine (Finset.sum_le_card_nsmul _ _ (s * (ε * (‖w‖ * (k * ‖x‖) * (k * ‖y‖)))) fun i _ => ?_).trans_eq
        (by simp)
      refine (Finset.abs_sum_le_sum_abs _ _).trans ?_
      refine (Finset.sum_le_card_nsmul _ _ (ε * (‖w‖ * (k * ‖x‖) * (k * ‖y‖))) fun j _ => ?_).trans_eq
        (by simp)
      rw [abs_mul]
      refine mul_le_mul (hε i j) ((hw _ _).trans ?_) (abs_nonneg _) ((abs_nonneg _).trans (hε i j))
      exact mul_le_mul (mul_le_mul_of_nonneg_left (hK i x) (ContinuousLinearMap.opNorm_nonneg w)) (hK j y) (norm_nonneg _)
        (by positivity)
    refine (mul_le_mul_of_nonneg_left this (sq_nonneg h)).trans_eq (by ring)

end Bounds

end Odes.Spec
