import Verif.Lemmas.Order4Poly
import Verif.Spec.Elem
import Mathlib.Algebra.MvPolynomial.PDeriv
import Mathlib.RingTheory.Ideal.Quotient.Operations
import Mathlib.Algebra.Algebra.Subalgebra.Basic
import Mathlib.Algebra.Algebra.Pi
import Mathlib.Algebra.Order.BigOperators.Group.Finset

/-!
# Bounded functions modulo `O(h^5)`

The points `θ` of a set `Θ` stand for a step: where it starts, how long it is.  The bounded functions
on `Θ` are a real algebra; those bounded by a multiple of `h^5` are an ideal.  In the quotient the
fifth power of the step length is zero, so that the algebraic results on the order of a method apply
to it; an equation in the quotient is an estimate that holds uniformly.
-/

namespace Odes.Germ

noncomputable section

open Spec

variable {Θ : Type}

/-- the bounded functions. -/
def bdd (Θ : Type) : Subalgebra ℝ (Θ → ℝ) where
  carrier := {u | ∃ C, ∀ θ, |u θ| ≤ C}
  mul_mem' := by
    rintro u v ⟨C, hC⟩ ⟨D, hD⟩
    refine ⟨C * D, fun θ => ?_⟩
    rw [Pi.mul_apply, abs_mul]
    exact mul_le_mul (hC θ) (hD θ) (abs_nonneg _) ((abs_nonneg _).trans (hC θ))
  add_mem' := by
    rintro u v ⟨C, hC⟩ ⟨D, hD⟩
    exact ⟨C + D, fun θ => (abs_add_le _ _).trans (add_le_add (hC θ) (hD θ))⟩
  algebraMap_mem' := fun r => ⟨|r|, fun θ => le_of_eq rfl⟩

/-- those that are `O(h^5)`. -/
def small (h : bdd Θ) : Ideal (bdd Θ) where
  carrier := {u | ∃ C, ∀ θ, |u.1 θ| ≤ C * |h.1 θ| ^ 5}
  add_mem' := by
    rintro u v ⟨C, hC⟩ ⟨D, hD⟩
    refine ⟨C + D, fun θ => ?_⟩
    have := (abs_add_le (u.1 θ) (v.1 θ)).trans (add_le_add (hC θ) (hD θ))
    rw [add_mul]; exact this
  zero_mem' := ⟨0, fun θ => by simp⟩
  smul_mem' := by
    rintro c u ⟨C, hC⟩
    obtain ⟨D, hD⟩ := c.2
    refine ⟨D * C, fun θ => ?_⟩
    show |c.1 θ * u.1 θ| ≤ _
    rw [abs_mul, mul_assoc]
    exact mul_le_mul (hD θ) (hC θ) (abs_nonneg _) ((abs_nonneg _).trans (hD θ))

/-- the quotient. -/
def Q (h : bdd Θ) : Type := bdd Θ ⧸ small h

instance (h : bdd Θ) : CommRing (Q h) := inferInstanceAs (CommRing (bdd Θ ⧸ small h))

instance (h : bdd Θ) : Algebra ℝ (Q h) := inferInstanceAs (Algebra ℝ (bdd Θ ⧸ small h))

/-- the class of a function. -/
def cls (h : bdd Θ) : bdd Θ →ₐ[ℝ] Q h := Ideal.Quotient.mkₐ ℝ (small h)

/-- the value at a point. -/
def ev (θ : Θ) : bdd Θ →ₐ[ℝ] ℝ := (Pi.evalAlgHom ℝ (fun _ : Θ => ℝ) θ).comp (bdd Θ).val

theorem ev_apply (θ : Θ) (u : bdd Θ) : ev θ u = u.1 θ := rfl

theorem cls_eq {h u v : bdd Θ} : cls h u = cls h v ↔ ∃ C, ∀ θ, |u.1 θ - v.1 θ| ≤ C * |h.1 θ| ^ 5 := by
  exact (Ideal.Quotient.eq (I := small h)).trans Iff.rfl

theorem cls_surj (h : bdd Θ) (x : Q h) : ∃ u, cls h u = x := Ideal.Quotient.mk_surjective x

theorem eps_pow (h : bdd Θ) : cls h h ^ 5 = 0 := by
  rw [← map_pow, ← map_zero (cls h), cls_eq]
  refine ⟨1, fun θ => ?_⟩
  have : (h ^ 5 : bdd Θ).1 θ = h.1 θ ^ 5 := rfl
  rw [this, show ((0 : bdd Θ).1 θ) = 0 from rfl, sub_zero, abs_pow, one_mul]

end

end Odes.Germ

namespace Odes.Spec

noncomputable section

variable {n : ℕ} {J : Type} [CommRing J] [Algebra ℝ J]

/-! ### expansions of polynomials, with their first derivative, inside a subalgebra -/

namespace Taylor1

variable {ε : J} {f : (Fin n → J) → J} {y : Fin n → J}

/-- the derivatives map the subalgebra to itself. -/
structure Inside (A : Taylor1 ε f y) (S : Subalgebra ℝ J) : Prop where
  f0 : A.f0 ∈ S
  f1 : ∀ u, (∀ i, u i ∈ S) → A.f1 u ∈ S
  f2 : ∀ u v, (∀ i, u i ∈ S) → (∀ i, v i ∈ S) → A.f2 u v ∈ S
  f3 : ∀ u v w, (∀ i, u i ∈ S) → (∀ i, v i ∈ S) → (∀ i, w i ∈ S) → A.f3 u v w ∈ S

/-- the derivatives of `p` at `y`, applied to vectors. -/
def D1 (y : Fin n → J) (p : MvPolynomial (Fin n) ℝ) (u : Fin n → J) : J :=
  ∑ j, MvPolynomial.aeval y (MvPolynomial.pderiv j p) * u j

def D2 (y : Fin n → J) (p : MvPolynomial (Fin n) ℝ) (u v : Fin n → J) : J :=
  ∑ k, D1 y (MvPolynomial.pderiv k p) u * v k

def D3 (y : Fin n → J) (p : MvPolynomial (Fin n) ℝ) (u v w : Fin n → J) : J :=
  ∑ k, D2 y (MvPolynomial.pderiv k p) u v * w k

theorem D1_add (y : Fin n → J) (p q : MvPolynomial (Fin n) ℝ) (u : Fin n → J) :
    D1 y (p + q) u = D1 y p u + D1 y q u := by
  simp only [D1, map_add, add_mul, Finset.sum_add_distrib]

theorem D2_add (y : Fin n → J) (p q : MvPolynomial (Fin n) ℝ) (u v : Fin n → J) :
    D2 y (p + q) u v = D2 y p u v + D2 y q u v := by
  simp only [D2, map_add, D1_add, add_mul, Finset.sum_add_distrib]

theorem D3_add (y : Fin n → J) (p q : MvPolynomial (Fin n) ℝ) (u v w : Fin n → J) :
    D3 y (p + q) u v w = D3 y p u v w + D3 y q u v w := by
  simp only [D3, map_add, D2_add, add_mul, Finset.sum_add_distrib]

theorem pderiv_mulX (p : MvPolynomial (Fin n) ℝ) (i k : Fin n) :
    MvPolynomial.pderiv k (p * MvPolynomial.X i)
      = MvPolynomial.pderiv k p * MvPolynomial.X i + if k = i then p else 0 := by
  rw [MvPolynomial.pderiv_mul, MvPolynomial.pderiv_X]
  by_cases h : k = i
  · subst h; simp
  · rw [if_neg h, Pi.single_eq_of_ne' h]; simp

theorem D1_zero (y : Fin n → J) (u : Fin n → J) : D1 y 0 u = 0 := by simp [D1]

theorem D2_zero (y : Fin n → J) (u v : Fin n → J) : D2 y 0 u v = 0 := by simp [D2, D1_zero]

theorem D1_mulX (y : Fin n → J) (p : MvPolynomial (Fin n) ℝ) (i : Fin n) (u : Fin n → J) :
    D1 y (p * MvPolynomial.X i) u = y i * D1 y p u + MvPolynomial.aeval y p * u i := by
  have e : ∀ k, MvPolynomial.aeval y (MvPolynomial.pderiv k (p * MvPolynomial.X i)) * u k
      = y i * (MvPolynomial.aeval y (MvPolynomial.pderiv k p) * u k)
        + if k = i then MvPolynomial.aeval y p * u k else 0 := by
    intro k
    rw [pderiv_mulX, map_add, map_mul, MvPolynomial.aeval_X]
    split_ifs
    · ring
    · rw [map_zero]; ring
  unfold D1
  rw [Finset.sum_congr rfl fun k _ => e k, Finset.sum_add_distrib, ← Finset.mul_sum]
  simp

theorem D2_mulX (y : Fin n → J) (p : MvPolynomial (Fin n) ℝ) (i : Fin n) (u v : Fin n → J) :
    D2 y (p * MvPolynomial.X i) u v = y i * D2 y p u v + D1 y p u * v i + D1 y p v * u i := by
  have e : ∀ k, D1 y (MvPolynomial.pderiv k (p * MvPolynomial.X i)) u * v k
      = y i * (D1 y (MvPolynomial.pderiv k p) u * v k)
        + MvPolynomial.aeval y (MvPolynomial.pderiv k p) * v k * u i
        + if k = i then D1 y p u * v k else 0 := by
    intro k
    rw [pderiv_mulX, D1_add, D1_mulX]
    split_ifs
    · ring
    · rw [D1_zero]; ring
  have e2 : D1 y p v = ∑ k, MvPolynomial.aeval y (MvPolynomial.pderiv k p) * v k := rfl
  unfold D2
  rw [Finset.sum_congr rfl fun k _ => e k, Finset.sum_add_distrib, Finset.sum_add_distrib,
    ← Finset.mul_sum, ← Finset.sum_mul, ← e2]
  simp
  ring

theorem D3_mulX (y : Fin n → J) (p : MvPolynomial (Fin n) ℝ) (i : Fin n) (u v w : Fin n → J) :
    D3 y (p * MvPolynomial.X i) u v w
      = y i * D3 y p u v w + D2 y p u v * w i + D2 y p u w * v i + D2 y p v w * u i := by
  have e : ∀ k, D2 y (MvPolynomial.pderiv k (p * MvPolynomial.X i)) u v * w k
      = y i * (D2 y (MvPolynomial.pderiv k p) u v * w k)
        + D1 y (MvPolynomial.pderiv k p) u * w k * v i
        + D1 y (MvPolynomial.pderiv k p) v * w k * u i
        + if k = i then D2 y p u v * w k else 0 := by
    intro k
    rw [pderiv_mulX, D2_add, D2_mulX]
    split_ifs
    · ring
    · rw [D2_zero]; ring
  have e2 : ∀ v, D2 y p v w = ∑ k, D1 y (MvPolynomial.pderiv k p) v * w k := fun _ => rfl
  unfold D3
  rw [Finset.sum_congr rfl fun k _ => e k, Finset.sum_add_distrib, Finset.sum_add_distrib,
    Finset.sum_add_distrib, ← Finset.mul_sum, ← Finset.sum_mul, ← Finset.sum_mul, ← e2, ← e2]
  simp
  ring

theorem poly_inside (ε : J) (y : Fin n → J) (S : Subalgebra ℝ J) (hy : ∀ i, y i ∈ S)
    (p : MvPolynomial (Fin n) ℝ) :
    ∃ A : Taylor1 ε (fun v => MvPolynomial.aeval v p) y, A.Inside S ∧ A.f0 = MvPolynomial.aeval y p ∧
      (∀ u, A.f1 u = D1 y p u) ∧ (∀ u v, A.f2 u v = D2 y p u v) ∧ ∀ u v w, A.f3 u v w = D3 y p u v w := by
  induction p using MvPolynomial.induction_on with
  | C a =>
    have : (fun v : Fin n → J => MvPolynomial.aeval v (MvPolynomial.C a : MvPolynomial (Fin n) ℝ))
        = fun _ => algebraMap ℝ J a := by funext v; simp
    rw [this]
    refine ⟨const _, ⟨S.algebraMap_mem a, fun _ _ => S.zero_mem, fun _ _ _ _ => S.zero_mem,
      fun _ _ _ _ _ _ => S.zero_mem⟩, by simp [const], fun u => by simp [const, D1],
      fun u v => by simp [const, D2, D1_zero], fun u v w => by simp [const, D3, D2_zero]⟩
  | add p q hp hq =>
    obtain ⟨A, a1, a2, a3, a4, a5⟩ := hp
    obtain ⟨B, b1, b2, b3, b4, b5⟩ := hq
    rw [show (fun v : Fin n → J => MvPolynomial.aeval v (p + q))
      = fun v => MvPolynomial.aeval v p + MvPolynomial.aeval v q from funext fun v => map_add _ _ _]
    refine ⟨A.add B, ⟨S.add_mem a1.f0 b1.f0, fun u hu => S.add_mem (a1.f1 u hu) (b1.f1 u hu),
      fun u v hu hv => S.add_mem (a1.f2 u v hu hv) (b1.f2 u v hu hv),
      fun u v w hu hv hw => S.add_mem (a1.f3 u v w hu hv hw) (b1.f3 u v w hu hv hw)⟩, ?_, fun u => ?_,
      fun u v => ?_, fun u v w => ?_⟩
    · show A.f0 + B.f0 = _
      rw [a2, b2, map_add]
    · show A.f1 u + B.f1 u = _
      rw [a3, b3, D1_add]
    · show A.f2 u v + B.f2 u v = _
      rw [a4, b4, D2_add]
    · show A.f3 u v w + B.f3 u v w = _
      rw [a5, b5, D3_add]
  | mul_X p i hp =>
    obtain ⟨A, a1, a2, a3, a4, a5⟩ := hp
    rw [show (fun v : Fin n → J => MvPolynomial.aeval v (p * MvPolynomial.X i))
      = fun v => MvPolynomial.aeval v p * v i from funext fun v => by
        rw [map_mul, MvPolynomial.aeval_X]]
    refine ⟨A.mulX i, ⟨S.mul_mem a1.f0 (hy i),
      fun u hu => S.add_mem (S.mul_mem (hy i) (a1.f1 u hu)) (S.mul_mem a1.f0 (hu i)),
      fun u v hu hv => S.add_mem (S.add_mem (S.mul_mem (hy i) (a1.f2 u v hu hv))
        (S.mul_mem (a1.f1 u hu) (hv i))) (S.mul_mem (a1.f1 v hv) (hu i)),
      fun u v w hu hv hw => S.add_mem (S.add_mem (S.add_mem (S.mul_mem (hy i) (a1.f3 u v w hu hv hw))
        (S.mul_mem (a1.f2 u v hu hv) (hw i))) (S.mul_mem (a1.f2 u w hu hw) (hv i)))
        (S.mul_mem (a1.f2 v w hv hw) (hu i))⟩, ?_, fun u => ?_, fun u v => ?_, fun u v w => ?_⟩
    · show A.f0 * y i = _
      rw [a2, map_mul, MvPolynomial.aeval_X]
    · show y i * A.f1 u + A.f0 * u i = _
      rw [a3, a2, D1_mulX]
    · show y i * A.f2 u v + A.f1 u * v i + A.f1 v * u i = _
      rw [a4, a3, a3, D2_mulX]
    · show y i * A.f3 u v w + A.f2 u v * w i + A.f2 u w * v i + A.f2 v w * u i = _
      rw [a5, a4, a4, a4, D3_mulX]

end Taylor1

namespace Taylor

variable {ε : J} {F : (Fin n → J) → Fin n → J} {y : Fin n → J}

/-- the derivatives map the subalgebra to itself. -/
structure Inside (D : Taylor ε F y) (S : Subalgebra ℝ J) : Prop where
  f : ∀ i, D.f i ∈ S
  f1 : ∀ u, (∀ i, u i ∈ S) → ∀ i, D.f1 u i ∈ S
  f2 : ∀ u v, (∀ i, u i ∈ S) → (∀ i, v i ∈ S) → ∀ i, D.f2 u v i ∈ S
  f3 : ∀ u v w, (∀ i, u i ∈ S) → (∀ i, v i ∈ S) → (∀ i, w i ∈ S) → ∀ i, D.f3 u v w i ∈ S

end Taylor

/-- a polynomial field has an expansion whose first derivative is the Jacobian matrix, with all its
derivatives in the subalgebra generated by the point. -/
theorem taylor_poly_inside (ε : J) (y : Fin n → J) (S : Subalgebra ℝ J) (hy : ∀ i, y i ∈ S)
    (P : Fin n → MvPolynomial (Fin n) ℝ) :
    ∃ D : Taylor ε (fun v i => MvPolynomial.aeval v (P i)) y, D.Inside S ∧
      (∀ u i, D.f1 u i = Taylor1.D1 y (P i) u) ∧ (∀ u v i, D.f2 u v i = Taylor1.D2 y (P i) u v) ∧
      (∀ u v w i, D.f3 u v w i = Taylor1.D3 y (P i) u v w) ∧
      D.f = fun i => MvPolynomial.aeval y (P i) := by
  choose A a1 a2 a3 a4 a5 using fun i => Taylor1.poly_inside ε y S hy (P i)
  refine ⟨{
    f := fun i => (A i).f0
    f1 := fun u i => (A i).f1 u
    f2 := fun u v i => (A i).f2 u v
    f3 := fun u v w i => (A i).f3 u v w
    add1 := fun u v => funext fun i => (A i).add1 u v
    smul1 := fun a u => funext fun i => (A i).smul1 a u
    add2 := fun u v w => funext fun i => (A i).add2 u v w
    smul2 := fun a u v => funext fun i => (A i).smul2 a u v
    symm2 := fun u v => funext fun i => (A i).symm2 u v
    add3 := fun u v w x => funext fun i => (A i).add3 u v w x
    smul3 := fun a u v w => funext fun i => (A i).smul3 a u v w
    symm3 := fun u v w => funext fun i => (A i).symm3 u v w
    symm3' := fun u v w => funext fun i => (A i).symm3' u v w
    expand := fun u => ?_ }, ⟨fun i => (a1 i).f0, fun u hu i => (a1 i).f1 u hu,
      fun u v hu hv i => (a1 i).f2 u v hu hv, fun u v w hu hv hw i => (a1 i).f3 u v w hu hv hw⟩,
      fun u i => a3 i u, fun u v i => a4 i u v, fun u v w i => a5 i u v w, funext fun i => a2 i⟩
  choose r hr using fun i => (A i).expand u
  refine ⟨r, funext fun i => ?_⟩
  have := hr i
  simpa [Pi.add_apply, Pi.smul_apply, smul_eq_mul] using this

end

end Odes.Spec
