import Verif.Lemmas.HessMat
import Mathlib.Data.Complex.BigOperators

/-! `decomr`, `decomc`, `solvereal`, `solvecomplex`. -/

namespace Odes.Hess

open Odes.Mem Spec

variable {K : Type}

theorem hess_shift [Field K] (n : ℕ) (J : ℤ → ℤ → K) (fac : K) :
    hess (mat n fun i j => if i = j then -J i j + fac else -J i j) =
      fac • (1 : Matrix (Fin n) (Fin n) K) - hess (mat n J) := by
  funext i j
  rw [Matrix.sub_apply, Matrix.smul_apply, Matrix.one_apply]
  unfold hess mat
  beta_reduce
  by_cases e : i = j
  · subst e
    rw [if_pos (by omega), if_pos rfl, if_pos rfl, if_pos (by omega)]
    simp; ring
  · have e' : ¬ (((i : ℕ) : ℤ) + 1 = ((j : ℕ) : ℤ) + 1) := by
      intro h; apply e; ext; omega
    rw [if_neg e', if_neg e]
    split_ifs <;> simp

/-- shifted matrices stay similar. -/
theorem shift_similar [Field K] {n : ℕ} {J Q H : Matrix (Fin n) (Fin n) K} (fac : K)
    (hJ : J = Q * H * Q.transpose) (h1 : Q * Q.transpose = 1) :
    fac • (1 : Matrix (Fin n) (Fin n) K) - J = Q * (fac • 1 - H) * Q.transpose := by
  rw [hJ, Matrix.mul_sub, Matrix.sub_mul, Matrix.mul_smul, Matrix.mul_one, Matrix.smul_mul, h1]

theorem det_similar [Field K] {n : ℕ} {Q H : Matrix (Fin n) (Fin n) K}
    (h1 : Q * Q.transpose = 1) : (Q * H * Q.transpose).det = H.det := by
  have : Q.det * Q.transpose.det = 1 := by rw [← Matrix.det_mul, h1, Matrix.det_one]
  rw [Matrix.det_mul, Matrix.det_mul, mul_right_comm, this, one_mul]

theorem gehrd_orth [Field K] {n : ℕ} (hn : 2 ≤ n) {J A : ℤ → ℤ → K} {tau : ℤ → K}
    (h : IsGehrd n J A tau) : Q n A tau = P n A tau 0 (n - 2) ∧
      Q n A tau * (Q n A tau).transpose = 1 ∧ (Q n A tau).transpose * Q n A tau = 1 := by
  have e := Q_eq_P hn A (h.last hn)
  have := P_orth (n := n) A tau (n - 2) fun j hj => h.orth j (by omega)
  rw [← e] at this
  exact ⟨e, this.1, this.2⟩

theorem fillE2_spec {n : ℕ} (hn : 1 ≤ n) (alpha beta : ℝ) (Jac : ℤ → ℤ → ℝ) (E : (ℤ → ℤ → ℝ) × (ℤ → ℤ → ℝ)) :
    ∃ E', fillE2 n alpha beta Jac E = some E' ∧
      hess (mat n (Z E'.1 E'.2)) = (⟨alpha, beta⟩ : ℂ) • (1 : Matrix (Fin n) (Fin n) ℂ) -
        (hess (mat n Jac)).map (fun x : ℝ => (x : ℂ)) := by
  unfold fillE2
  obtain ⟨E1, e1, e2⟩ := forUp_inv
    (P := fun j (E : (ℤ → ℤ → ℝ) × (ℤ → ℤ → ℝ)) => ∀ j', 1 ≤ j' → j' < j →
      E.1 (j' + 1) j' = -Jac (j' + 1) j' ∧ E.2 (j' + 1) j' = 0)
    (body := fun j (E : (ℤ → ℤ → ℝ) × (ℤ → ℤ → ℝ)) =>
      (get n Jac (j + 1) j).bind fun a => (set n E.1 (j + 1) j (-a)).bind fun R =>
      (set n E.2 (j + 1) j 0).bind fun I => some (R, I)) (lo := 1) (hi := (n : ℤ) - 1) (s := E)
    (by omega) (fun j' a b => by omega) (by
      intro j E hj hj' hE
      rw [get_in ⟨⟨by omega, by omega⟩, by omega, by omega⟩, Option.bind_some,
        set_in _ ⟨⟨by omega, by omega⟩, by omega, by omega⟩, Option.bind_some,
        set_in _ ⟨⟨by omega, by omega⟩, by omega, by omega⟩, Option.bind_some]
      refine ⟨_, rfl, ?_⟩
      intro j' a b
      by_cases e : j' = j
      · subst e; simp
      · simp only [e, and_false, if_false]
        exact hE j' a (by omega))
  dsimp only
  rw [e1, Option.bind_some]
  rw [show (n : ℤ) - 1 + 1 = n by ring] at e2
  obtain ⟨E2, f1, f2⟩ := forUp_inv
    (P := fun j (E : (ℤ → ℤ → ℝ) × (ℤ → ℤ → ℝ)) => (∀ j' : ℤ, 1 ≤ j' → j' < n →
      E.1 (j' + 1) j' = -Jac (j' + 1) j' ∧ E.2 (j' + 1) j' = 0) ∧
      ∀ i' j', 1 ≤ i' → i' ≤ j' → j' < j →
        E.1 i' j' = -Jac i' j' + (if i' = j' then alpha else 0) ∧
        E.2 i' j' = if i' = j' then beta else 0)
    (body := fun j (E : (ℤ → ℤ → ℝ) × (ℤ → ℤ → ℝ)) =>
      (forUp 1 j (fun i (E : (ℤ → ℤ → ℝ) × (ℤ → ℤ → ℝ)) =>
        (set n E.2 i j 0).bind fun I => (get n Jac i j).bind fun a =>
        (set n E.1 i j (-a)).bind fun R => some (R, I)) E).bind fun E =>
      (get n E.1 j j).bind fun a => (set n E.1 j j (a + alpha)).bind fun R =>
      (set n E.2 j j beta).bind fun I => some (R, I)) (lo := 1) (hi := (n : ℤ)) (s := E1)
    (by omega) ⟨e2, fun i' j' a b c => by omega⟩ (by
      intro j E hj hj' hE
      obtain ⟨E3, g1, g2⟩ := forUp_inv
        (P := fun i (F : (ℤ → ℤ → ℝ) × (ℤ → ℤ → ℝ)) =>
          (∀ i' j', ¬(j' = j ∧ i' < i ∧ 1 ≤ i') → F.1 i' j' = E.1 i' j' ∧ F.2 i' j' = E.2 i' j') ∧
          ∀ i', 1 ≤ i' → i' < i → F.1 i' j = -Jac i' j ∧ F.2 i' j = 0)
        (body := fun i (E : (ℤ → ℤ → ℝ) × (ℤ → ℤ → ℝ)) =>
          (set n E.2 i j 0).bind fun I => (get n Jac i j).bind fun a =>
          (set n E.1 i j (-a)).bind fun R => some (R, I)) (lo := 1) (hi := j) (s := E)
        (by omega) ⟨fun _ _ _ => ⟨rfl, rfl⟩, fun i' a b => by omega⟩ (by
          intro i F hi hi' hF
          rw [set_in _ ⟨⟨by omega, by omega⟩, by omega, by omega⟩, Option.bind_some,
            get_in ⟨⟨by omega, by omega⟩, by omega, by omega⟩, Option.bind_some,
            set_in _ ⟨⟨by omega, by omega⟩, by omega, by omega⟩, Option.bind_some]
          refine ⟨_, rfl, ?_, ?_⟩
          · intro i' j' h
            have h' : ¬(i' = i ∧ j' = j) := by omega
            simp only [h', if_false]
            exact hF.1 i' j' (by omega)
          · intro i' a b
            by_cases e : i' = i
            · subst e; simp
            · simp only [e, false_and, if_false]
              exact hF.2 i' a (by omega))
      rw [g1, Option.bind_some, get_in ⟨⟨by omega, by omega⟩, by omega, by omega⟩,
        Option.bind_some, set_in _ ⟨⟨by omega, by omega⟩, by omega, by omega⟩, Option.bind_some,
        set_in _ ⟨⟨by omega, by omega⟩, by omega, by omega⟩, Option.bind_some]
      refine ⟨_, rfl, ?_, ?_⟩
      · intro j' a b
        have h' : ¬(j' + 1 = j ∧ j' = j) := by omega
        simp only [h', if_false]
        have := g2.1 (j' + 1) j' (by omega)
        rw [this.1, this.2]
        exact hE.1 j' a b
      · intro i' j' a b c
        by_cases e : j' = j
        · subst e
          by_cases e2 : i' = j'
          · subst e2
            have := g2.2 i' a (by omega)
            simp [this.1]
          · have := g2.2 i' a (by omega)
            simp [e2, this.1, this.2]
        · simp only [e, and_false, if_false]
          have := g2.1 i' j' (by omega)
          rw [this.1, this.2]
          exact hE.2 i' j' a b (by omega))
  refine ⟨E2, f1, ?_⟩
  funext i j
  have hi := i.2
  have hj := j.2
  rw [Matrix.sub_apply, Matrix.smul_apply, Matrix.one_apply, Matrix.map_apply]
  unfold hess mat Z
  by_cases h : (i : ℕ) ≤ j + 1
  · rw [if_pos h, if_pos h]
    by_cases h2 : (i : ℕ) ≤ j
    · have := f2.2 (i + 1) (j + 1) (by omega) (by omega) (by omega)
      rw [this.1, this.2]
      by_cases e : i = j
      · subst e
        rw [if_pos rfl, if_pos rfl, if_pos rfl, Complex.ext_iff]
        simp; ring
      · have e' : ¬ (((i : ℕ) : ℤ) + 1 = ((j : ℕ) : ℤ) + 1) := by
          intro h; apply e; ext; omega
        rw [if_neg e', if_neg e', if_neg e, Complex.ext_iff]
        simp
    · have := f2.1 (j + 1) (by omega) (by omega)
      rw [show ((i : ℕ) : ℤ) + 1 = (j : ℕ) + 1 + 1 by omega, this.1, this.2]
      have e : i ≠ j := by intro h; apply h2; rw [h]
      rw [if_neg e, Complex.ext_iff]
      simp
  · rw [if_neg h, if_neg h]
    have e : i ≠ j := by intro h'; apply h; rw [h']; omega
    rw [if_neg e]; simp

/-- a real matrix acts on real and imaginary parts. -/
theorem map_mulVec_zv {n : ℕ} (M : Matrix (Fin n) (Fin n) ℝ) {Br Bi Cr Ci : ℤ → ℝ}
    (hr : vec n Cr = M.mulVec (vec n Br)) (hi : vec n Ci = M.mulVec (vec n Bi)) :
    vec n (zv Cr Ci) = (M.map (fun x : ℝ => (x : ℂ))).mulVec (vec n (zv Br Bi)) := by
  funext i
  rw [Complex.ext_iff]
  have h1 : Cr (i + 1) = ∑ j : Fin n, M i j * Br (j + 1) := congrFun hr i
  have h2 : Ci (i + 1) = ∑ j : Fin n, M i j * Bi (j + 1) := congrFun hi i
  have h3 : (M.map (fun x : ℝ => (x : ℂ))).mulVec (vec n (zv Br Bi)) i =
      ∑ j : Fin n, (M i j : ℂ) * (⟨Br (j + 1), Bi (j + 1)⟩ : ℂ) := rfl
  rw [h3]
  unfold vec zv
  rw [Complex.re_sum, Complex.im_sum]
  simp only [Matrix.map_apply, Complex.mul_re, Complex.mul_im, Complex.ofReal_re,
    Complex.ofReal_im, zero_mul, sub_zero, add_zero]
  exact ⟨h1, h2⟩

theorem map_mul_ofReal {n : ℕ} (M N : Matrix (Fin n) (Fin n) ℝ) :
    (M * N).map (fun x : ℝ => (x : ℂ)) =
      M.map (fun x : ℝ => (x : ℂ)) * N.map (fun x : ℝ => (x : ℂ)) := by
  funext i j
  simp [Matrix.mul_apply]

theorem map_one_ofReal {n : ℕ} :
    (1 : Matrix (Fin n) (Fin n) ℝ).map (fun x : ℝ => (x : ℂ)) = 1 := by
  funext i j
  rw [Matrix.map_apply, Matrix.one_apply, Matrix.one_apply]
  split_ifs <;> simp

end Odes.Hess
