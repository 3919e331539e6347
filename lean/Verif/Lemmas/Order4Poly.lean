import Verif.Lemmas.Order4

/-!
# Polynomial vector fields have Taylor expansions
-/

namespace Odes.Spec

noncomputable section

variable {n : ℕ} {J : Type} [CommRing J] [Algebra ℝ J]

/-- expansion of one component. -/
structure Taylor1 (ε : J) (f : (Fin n → J) → J) (y : Fin n → J) where
  f0 : J
  f1 : (Fin n → J) → J
  f2 : (Fin n → J) → (Fin n → J) → J
  f3 : (Fin n → J) → (Fin n → J) → (Fin n → J) → J
  add1 : ∀ u v, f1 (u + v) = f1 u + f1 v
  smul1 : ∀ (a : J) u, f1 (a • u) = a * f1 u
  add2 : ∀ u v w, f2 (u + v) w = f2 u w + f2 v w
  smul2 : ∀ (a : J) u v, f2 (a • u) v = a * f2 u v
  symm2 : ∀ u v, f2 u v = f2 v u
  add3 : ∀ u v w x, f3 (u + v) w x = f3 u w x + f3 v w x
  smul3 : ∀ (a : J) u v w, f3 (a • u) v w = a * f3 u v w
  symm3 : ∀ u v w, f3 u v w = f3 v u w
  symm3' : ∀ u v w, f3 u v w = f3 u w v
  expand : ∀ u, ∃ r, f (y + ε • u) = f0 + ε * f1 u + (ε ^ 2 * cst (1 / 2)) * f2 u u
    + (ε ^ 3 * cst (1 / 6)) * f3 u u u + ε ^ 4 * r

namespace Taylor1

variable {ε : J} {y : Fin n → J}

def const (c : J) : Taylor1 ε (fun _ => c) y where
  f0 := c
  f1 _ := 0
  f2 _ _ := 0
  f3 _ _ _ := 0
  add1 _ _ := by simp
  smul1 _ _ := by simp
  add2 _ _ _ := by simp
  smul2 _ _ _ := by simp
  symm2 _ _ := rfl
  add3 _ _ _ _ := by simp
  smul3 _ _ _ _ := by simp
  symm3 _ _ _ := rfl
  symm3' _ _ _ := rfl
  expand _ := ⟨0, by simp⟩

def add {f g : (Fin n → J) → J} (A : Taylor1 ε f y) (B : Taylor1 ε g y) :
    Taylor1 ε (fun v => f v + g v) y where
  f0 := A.f0 + B.f0
  f1 u := A.f1 u + B.f1 u
  f2 u v := A.f2 u v + B.f2 u v
  f3 u v w := A.f3 u v w + B.f3 u v w
  add1 u v := by rw [A.add1, B.add1]; ring
  smul1 a u := by rw [A.smul1, B.smul1]; ring
  add2 u v w := by rw [A.add2, B.add2]; ring
  smul2 a u v := by rw [A.smul2, B.smul2]; ring
  symm2 u v := by rw [A.symm2, B.symm2]
  add3 u v w x := by rw [A.add3, B.add3]; ring
  smul3 a u v w := by rw [A.smul3, B.smul3]; ring
  symm3 u v w := by rw [A.symm3, B.symm3]
  symm3' u v w := by rw [A.symm3', B.symm3']
  expand u := by
    obtain ⟨r, hr⟩ := A.expand u
    obtain ⟨s, hs⟩ := B.expand u
    exact ⟨r + s, by rw [hr, hs]; ring⟩

def mulX {f : (Fin n → J) → J} (A : Taylor1 ε f y) (i : Fin n) :
    Taylor1 ε (fun v => f v * v i) y where
  f0 := A.f0 * y i
  f1 u := y i * A.f1 u + A.f0 * u i
  f2 u v := y i * A.f2 u v + A.f1 u * v i + A.f1 v * u i
  f3 u v w := y i * A.f3 u v w + A.f2 u v * w i + A.f2 u w * v i + A.f2 v w * u i
  add1 u v := by rw [A.add1, Pi.add_apply]; ring
  smul1 a u := by rw [A.smul1, Pi.smul_apply, smul_eq_mul]; ring
  add2 u v w := by rw [A.add2, A.add1, Pi.add_apply]; ring
  smul2 a u v := by rw [A.smul2, A.smul1, Pi.smul_apply, smul_eq_mul]; ring
  symm2 u v := by rw [A.symm2]; ring
  add3 u v w x := by rw [A.add3, A.add2, A.add2, Pi.add_apply]; ring
  smul3 a u v w := by rw [A.smul3, A.smul2, A.smul2, Pi.smul_apply, smul_eq_mul]; ring
  symm3 u v w := by rw [A.symm3, A.symm2 u v]; ring
  symm3' u v w := by rw [A.symm3', A.symm2 v w]; ring
  expand u := by
    obtain ⟨r, hr⟩ := A.expand u
    have a1 : (2 * cst (1 / 2) : J) = 1 := by
      rw [← map_ofNat (algebraMap ℝ J) 2, ← map_mul]; norm_num
    have a2 : (3 * cst (1 / 6) : J) = cst (1 / 2) := by
      rw [← map_ofNat (algebraMap ℝ J) 3, ← map_mul]; norm_num
    refine ⟨r * y i + cst (1 / 6) * A.f3 u u u * u i + ε * r * u i, ?_⟩
    rw [hr, Pi.add_apply, Pi.smul_apply, smul_eq_mul]
    generalize (cst (1 / 2) : J) = c2 at *
    generalize (cst (1 / 6) : J) = c6 at *
    linear_combination (-(ε ^ 2) * A.f1 u * u i) * a1 - (ε ^ 3 * A.f2 u u * u i) * a2

/-- a polynomial has an expansion at every point. -/
theorem poly (ε : J) (y : Fin n → J) (p : MvPolynomial (Fin n) ℝ) :
    Nonempty (Taylor1 ε (fun v => MvPolynomial.aeval v p) y) := by
  induction p using MvPolynomial.induction_on with
  | C a =>
    have : (fun v : Fin n → J => MvPolynomial.aeval v (MvPolynomial.C a : MvPolynomial (Fin n) ℝ))
        = fun _ => algebraMap ℝ J a := by funext v; simp
    rw [this]; exact ⟨const _⟩
  | add p q hp hq =>
    obtain ⟨A⟩ := hp
    obtain ⟨B⟩ := hq
    simp only [map_add]
    exact ⟨A.add B⟩
  | mul_X p i hp =>
    obtain ⟨A⟩ := hp
    simp only [map_mul, MvPolynomial.aeval_X]
    exact ⟨A.mulX i⟩

end Taylor1

/-- **Polynomial vector fields have Taylor expansions at every point.** -/
theorem taylor_poly (ε : J) (y : Fin n → J) (P : Fin n → MvPolynomial (Fin n) ℝ) :
    Nonempty (Taylor ε (fun v i => MvPolynomial.aeval v (P i)) y) := by
  have h := fun i => Taylor1.poly ε y (P i)
  have A := fun i => (h i).some
  refine ⟨{
    f := fun i => (A i).f0
    f1 := fun u i => (A i).f1 u
    f2 := fun u v i => (A i).f2 u v
    f3 := fun u v w i => (A i).f3 u v w
    add1 := fun u v => funext fun i => (A i).add1 u v
    smul1 := fun a u => funext fun i => (A i).smul1 a u
    add2 := fun u v w => funext fun i => (A i).add2 u v w
    smul2 := fun a u v => funext fun i => (A i).smul2 a u v
    symm2 := fun u v => funext fun i => (A i).symm2 u v
    add3 := fun u v w x => funext fun i => (A i).add3 u v w x
    smul3 := fun a u v w => funext fun i => (A i).smul3 a u v w
    symm3 := fun u v w => funext fun i => (A i).symm3 u v w
    symm3' := fun u v w => funext fun i => (A i).symm3' u v w
    expand := fun u => ?_ }⟩
  choose r hr using fun i => (A i).expand u
  refine ⟨r, funext fun i => ?_⟩
  have := hr i
  simpa [Pi.add_apply, Pi.smul_apply, smul_eq_mul] using this

end

end Odes.Spec
