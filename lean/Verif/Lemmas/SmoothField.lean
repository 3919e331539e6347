import Verif.Spec.ElemSmooth
import Verif.Lemmas.CollocReal
import Verif.Lemmas.GermErr
import Mathlib.Analysis.Calculus.FDeriv.Symmetric

/-!
# The expansion of a smooth field along a solution
-/

namespace Odes

noncomputable section

open Spec Germ Colloc

variable {n : ℕ} {t0 te : ℝ}

/-! ### multilinear maps -/

section multi

variable {A B : Type} [CommRing A] [CommRing B]

theorem L1_hom (φ : A →+* B) (c : Fin n → Fin n → A) (u : Fin n → A) (i : Fin n) :
    φ (L1 c u i) = L1 (fun i j => φ (c i j)) (fun j => φ (u j)) i := by
  simp only [L1, map_sum, map_mul]

theorem L2_hom (φ : A →+* B) (c : Fin n → Fin n → Fin n → A) (u v : Fin n → A) (i : Fin n) :
    φ (L2 c u v i) = L2 (fun i k j => φ (c i k j)) (fun j => φ (u j)) (fun j => φ (v j)) i := by
  simp only [L2, map_sum, map_mul]

theorem L3_hom (φ : A →+* B) (c : Fin n → Fin n → Fin n → Fin n → A) (u v w : Fin n → A) (i : Fin n) :
    φ (L3 c u v w i) = L3 (fun i l k j => φ (c i l k j)) (fun j => φ (u j)) (fun j => φ (v j)) (fun j => φ (w j)) i := by
  simp only [L3, map_sum, map_mul]

theorem elemC_hom (φ : A →+* B) (c0 : Fin n → A) (c1 : Fin n → Fin n → A) (c2 : Fin n → Fin n → Fin n → A)
    (c3 : Fin n → Fin n → Fin n → Fin n → A) (k : Fin 8) (i : Fin n) : φ (elemC c0 c1 c2 c3 k i)
      = elemC (fun i => φ (c0 i)) (fun i j => φ (c1 i j)) (fun i k j => φ (c2 i k j)) (fun i l k j => φ (c3 i l k j)) k i := by
  fin_cases k
  · rfl
  all_goals
    simp only [elemC, L1, L2, L3, Fin.reduceFinMk, Matrix.cons_val, Fin.isValue, map_sum, map_mul]
  all_goals rfl

theorem L1_add (c : Fin n → Fin n → A) (u v : Fin n → A) : L1 c (u + v) = L1 c u + L1 c v := by
  funext i
  simp only [L1, Pi.add_apply, mul_add, Finset.sum_add_distrib]

theorem L1_smul (c : Fin n → Fin n → A) (a : A) (u : Fin n → A) : L1 c (a • u) = a • L1 c u := by
  funext i
  simp only [L1, Pi.smul_apply, smul_eq_mul, Finset.mul_sum]
  exact Finset.sum_congr rfl fun j _ => by ring

theorem L2_add (c : Fin n → Fin n → Fin n → A) (u v w : Fin n → A) : L2 c (u + v) w = L2 c u w + L2 c v w := by
  funext i
  simp only [L2, Pi.add_apply, mul_add, Finset.sum_add_distrib, add_mul]

theorem L2_smul (c : Fin n → Fin n → Fin n → A) (a : A) (u v : Fin n → A) : L2 c (a • u) v = a • L2 c u v := by
  funext i
  simp only [L2, Pi.smul_apply, smul_eq_mul, Finset.mul_sum, Finset.sum_mul]
  exact Finset.sum_congr rfl fun j _ => Finset.sum_congr rfl fun k _ => by ring

theorem L2_symm {c : Fin n → Fin n → Fin n → A} (hc : ∀ i k j, c i k j = c i j k) (u v : Fin n → A) :
    L2 c u v = L2 c v u := by
  funext i
  simp only [L2, Finset.sum_mul]
  rw [Finset.sum_comm]
  exact Finset.sum_congr rfl fun j _ => Finset.sum_congr rfl fun k _ => by rw [hc]; ring

theorem L3_add (c : Fin n → Fin n → Fin n → Fin n → A) (u v w x : Fin n → A) :
    L3 c (u + v) w x = L3 c u w x + L3 c v w x := by
  funext i
  simp only [L3, Pi.add_apply, mul_add, Finset.sum_add_distrib, add_mul]

theorem L3_smul (c : Fin n → Fin n → Fin n → Fin n → A) (a : A) (u v w : Fin n → A) :
    L3 c (a • u) v w = a • L3 c u v w := by
  funext i
  simp only [L3, Pi.smul_apply, smul_eq_mul, Finset.mul_sum, Finset.sum_mul]
  exact Finset.sum_congr rfl fun j _ => Finset.sum_congr rfl fun k _ => Finset.sum_congr rfl fun l _ => by ring

theorem L3_symm {c : Fin n → Fin n → Fin n → Fin n → A} (hc : ∀ i l k j, c i l k j = c i l j k) (u v w : Fin n → A) :
    L3 c u v w = L3 c v u w := by
  funext i
  simp only [L3]
  refine Finset.sum_congr rfl fun l _ => ?_
  congr 1
  simp only [Finset.sum_mul]
  rw [Finset.sum_comm]
  exact Finset.sum_congr rfl fun j _ => Finset.sum_congr rfl fun k _ => by rw [hc]; ring

theorem L3_symm' {c : Fin n → Fin n → Fin n → Fin n → A} (hc : ∀ i l k j, c i l k j = c i k l j) (u v w : Fin n → A) :
    L3 c u v w = L3 c u w v := by
  funext i
  simp only [L3, Finset.sum_mul]
  rw [Finset.sum_comm]
  exact Finset.sum_congr rfl fun j _ => Finset.sum_congr rfl fun k _ => Finset.sum_congr rfl fun l _ => by rw [hc]; ring

theorem L2_smul' (c : Fin n → Fin n → Fin n → A) (a : A) (u v : Fin n → A) : L2 c u (a • v) = a • L2 c u v := by
  funext i
  simp only [L2, Pi.smul_apply, smul_eq_mul, Finset.mul_sum, Finset.sum_mul]
  exact Finset.sum_congr rfl fun j _ => Finset.sum_congr rfl fun k _ => by ring

theorem L3_smul' (c : Fin n → Fin n → Fin n → Fin n → A) (a : A) (u v w : Fin n → A) :
    L3 c u (a • v) w = a • L3 c u v w := by
  funext i
  simp only [L3, Pi.smul_apply, smul_eq_mul, Finset.mul_sum, Finset.sum_mul]
  exact Finset.sum_congr rfl fun j _ => Finset.sum_congr rfl fun k _ => Finset.sum_congr rfl fun l _ => by ring

theorem L3_smul'' (c : Fin n → Fin n → Fin n → Fin n → A) (a : A) (u v w : Fin n → A) :
    L3 c u v (a • w) = a • L3 c u v w := by
  funext i
  simp only [L3, Pi.smul_apply, smul_eq_mul, Finset.mul_sum, Finset.sum_mul]
  exact Finset.sum_congr rfl fun j _ => Finset.sum_congr rfl fun k _ => Finset.sum_congr rfl fun l _ => by ring

variable [Algebra ℝ A]

/-- the field with the given derivatives at `y`. -/
def cubic (c0 : Fin n → A) (c1 : Fin n → Fin n → A) (c2 : Fin n → Fin n → Fin n → A)
    (c3 : Fin n → Fin n → Fin n → Fin n → A) (y v : Fin n → A) : Fin n → A :=
  c0 + L1 c1 (v - y) + cst (J := A) (1 / 2) • L2 c2 (v - y) (v - y) + cst (J := A) (1 / 6) • L3 c3 (v - y) (v - y) (v - y)

/-- its expansion. -/
def cubicTaylor (ε : A) (c0 : Fin n → A) (c1 : Fin n → Fin n → A) {c2 : Fin n → Fin n → Fin n → A}
    {c3 : Fin n → Fin n → Fin n → Fin n → A} (s2 : ∀ i k j, c2 i k j = c2 i j k) (s3 : ∀ i l k j, c3 i l k j = c3 i l j k)
    (s3' : ∀ i l k j, c3 i l k j = c3 i k l j) (y : Fin n → A) : Taylor ε (cubic c0 c1 c2 c3 y) y where
  f := c0
  f1 := L1 c1
  f2 := L2 c2
  f3 := L3 c3
  add1 := L1_add c1
  smul1 := L1_smul c1
  add2 := L2_add c2
  smul2 := L2_smul c2
  symm2 := L2_symm s2
  add3 := L3_add c3
  smul3 := L3_smul c3
  symm3 := L3_symm s3
  symm3' := L3_symm' s3'
  expand := fun u => ⟨0, by
    rw [cubic, add_sub_cancel_left, L1_smul, L2_smul, L2_smul', L3_smul, L3_smul', L3_smul'']
    funext i
    simp only [Pi.add_apply, Pi.smul_apply, smul_eq_mul, Pi.zero_apply]
    ring⟩

end multi

/-! ### partial derivatives commute -/

theorem pd_pd {g : (Fin n → ℝ) → ℝ} {x : Fin n → ℝ} (hg : ContDiffAt ℝ 2 g x) (j k : Fin n) :
    pd j (pd k g) x = fderiv ℝ (fderiv ℝ g) x (Pi.single j 1) (Pi.single k 1) := by
  have hd : DifferentiableAt ℝ (fderiv ℝ g) x :=
    (hg.fderiv_right (m := 1) (by norm_num)).differentiableAt (by norm_num)
  have h1 := (hd.hasFDerivAt.clm_apply (hasFDerivAt_const (Pi.single k 1 : Fin n → ℝ) x)).fderiv
  show fderiv ℝ (fun z => fderiv ℝ g z (Pi.single k 1)) x (Pi.single j 1) = _
  rw [h1]
  simp

theorem pd_comm {g : (Fin n → ℝ) → ℝ} {x : Fin n → ℝ} (hg : ContDiffAt ℝ 2 g x) (j k : Fin n) :
    pd j (pd k g) x = pd k (pd j g) x := by
  rw [pd_pd hg, pd_pd hg]
  exact hg.isSymmSndFDerivAt (by simp) _ _

theorem pd_comm' {g : (Fin n → ℝ) → ℝ} {x : Fin n → ℝ} (hg : ContDiffAt ℝ 2 g x) (i j k : Fin n) :
    pd i (pd j (pd k g)) x = pd i (pd k (pd j g)) x := by
  have e : pd j (pd k g) =ᶠ[nhds x] pd k (pd j g) :=
    (hg.eventually (by simp)).mono fun z hz => pd_comm hz j k
  show fderiv ℝ (pd j (pd k g)) x _ = fderiv ℝ (pd k (pd j g)) x _
  rw [e.fderiv_eq]

/-! ### along a solution -/

/-- four times continuously differentiable near the points at distance at most `ρ` of the solution. -/
structure Smooth4 (f : (Fin n → ℝ) → Fin n → ℝ) (y : ℝ → Fin n → ℝ) (t0 te ρ : ℝ) : Prop where
  sol : SolOn f y t0 te
  pos : 0 < ρ
  diff : ∀ x ∈ tube y t0 te ρ, ContDiffAt ℝ 4 f x

section

variable {f : (Fin n → ℝ) → Fin n → ℝ} {y : ℝ → Fin n → ℝ} {ρ : ℝ} (S : Smooth4 f y t0 te ρ)

include S

theorem Smooth4.sm (i : Fin n) : Sm (tube y t0 te ρ) 4 (fun z => f z i) := fun x hx =>
  (contDiffAt_pi.1 (S.diff x hx)) i

theorem Smooth4.mem {t : ℝ} (ht : t ∈ Set.Icc t0 te) {u : Fin n → ℝ} (hu : ‖u - y t‖ ≤ ρ) : u ∈ tube y t0 te ρ :=
  ⟨t, ht, hu⟩

theorem Smooth4.on {t : ℝ} (ht : t ∈ Set.Icc t0 te) : y t ∈ tube y t0 te ρ := S.mem ht (by simpa using S.pos.le)

end

/-- the beginning of a step. -/
theorem Steps.mem (θ : Steps t0 te) : θ.t ∈ Set.Icc t0 te := ⟨θ.ge, by linarith [θ.pos, θ.fits]⟩

/-- `g` along the solution. -/
def along (y : ℝ → Fin n → ℝ) (g : (Fin n → ℝ) → ℝ) : bdd (Steps t0 te) := toB fun θ => g (y θ.t)

section

variable {f : (Fin n → ℝ) → Fin n → ℝ} {y : ℝ → Fin n → ℝ} {ρ : ℝ} (S : Smooth4 f y t0 te ρ)

include S

theorem Smooth4.along {m : ℕ} {g : (Fin n → ℝ) → ℝ} (hg : Sm (tube y t0 te ρ) m g) (θ : Steps t0 te) :
    (along y g : bdd (Steps t0 te)).1 θ = g (y θ.t) := by
  obtain ⟨C, -, hC⟩ := hg.bound (tube_compact S.sol ρ)
  exact toB_apply (fun θ => hC _ (S.on θ.mem)) θ

theorem Smooth4.timeOnly {m : ℕ} {g : (Fin n → ℝ) → ℝ} (hg : Sm (tube y t0 te ρ) m g) :
    cls (hB t0 te) (Odes.along y g) ∈ timeOnly t0 te :=
  ⟨fun t => g (y t), _, S.along hg, rfl⟩

theorem Smooth4.sm1 (i j : Fin n) : Sm (tube y t0 te ρ) 3 (pd j fun z => f z i) := (S.sm i).pd j

theorem Smooth4.sm2 (i j k : Fin n) : Sm (tube y t0 te ρ) 2 (pd j (pd k fun z => f z i)) := (S.sm1 i k).pd j

theorem Smooth4.sm3 (i j k l : Fin n) : Sm (tube y t0 te ρ) 1 (pd j (pd k (pd l fun z => f z i))) := (S.sm2 i k l).pd j

end

/-- the coefficients of the expansion, as bounded functions. -/
def co0 (f : (Fin n → ℝ) → Fin n → ℝ) (y : ℝ → Fin n → ℝ) (i : Fin n) : bdd (Steps t0 te) := along y fun z => f z i
@[inherit_doc co0]
def co1 (f : (Fin n → ℝ) → Fin n → ℝ) (y : ℝ → Fin n → ℝ) (i j : Fin n) : bdd (Steps t0 te) := along y (pd j fun z => f z i)
@[inherit_doc co0]
def co2 (f : (Fin n → ℝ) → Fin n → ℝ) (y : ℝ → Fin n → ℝ) (i k j : Fin n) : bdd (Steps t0 te) :=
  along y (pd j (pd k fun z => f z i))
@[inherit_doc co0]
def co3 (f : (Fin n → ℝ) → Fin n → ℝ) (y : ℝ → Fin n → ℝ) (i l k j : Fin n) : bdd (Steps t0 te) :=
  along y (pd j (pd k (pd l fun z => f z i)))

section

variable {f : (Fin n → ℝ) → Fin n → ℝ} {y : ℝ → Fin n → ℝ} {ρ : ℝ} (S : Smooth4 f y t0 te ρ)

include S

theorem Smooth4.s2 (i k j : Fin n) : (co2 f y i k j : bdd (Steps t0 te)) = co2 f y i j k := by
  refine Subtype.ext (funext fun θ => ?_)
  rw [co2, co2, S.along (S.sm2 i j k), S.along (S.sm2 i k j)]
  exact pd_comm ((S.sm i _ (S.on θ.mem)).of_le (by norm_num)) j k

theorem Smooth4.s3 (i l k j : Fin n) : (co3 f y i l k j : bdd (Steps t0 te)) = co3 f y i l j k := by
  refine Subtype.ext (funext fun θ => ?_)
  rw [co3, co3, S.along (S.sm3 i j k l), S.along (S.sm3 i k j l)]
  exact pd_comm ((S.sm1 i l _ (S.on θ.mem)).of_le (by norm_num)) j k

theorem Smooth4.s3' (i l k j : Fin n) : (co3 f y i l k j : bdd (Steps t0 te)) = co3 f y i k l j := by
  refine Subtype.ext (funext fun θ => ?_)
  rw [co3, co3, S.along (S.sm3 i j k l), S.along (S.sm3 i j l k)]
  exact pd_comm' ((S.sm i _ (S.on θ.mem)).of_le (by norm_num)) j k l

end

end

end Odes
