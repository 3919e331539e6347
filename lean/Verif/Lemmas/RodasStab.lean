import Verif.Tables.RodasStab
import Verif.Lemmas.RodasWitness
import Mathlib.LinearAlgebra.BilinearForm.Properties
import Mathlib.LinearAlgebra.FiniteDimensional.Basic

/-!
# Stability of the Rodas methods: check of the certificates, energy estimate
-/

namespace Odes.Rodas

open Spec

/-! ### polynomials as lists of rational coefficients -/

def padd : List ℚ → List ℚ → List ℚ
  | [], m => m
  | l, [] => l
  | a :: l, b :: m => (a + b) :: padd l m

def pscale (c : ℚ) (l : List ℚ) : List ℚ := l.map (c * ·)

def pmul : List ℚ → List ℚ → List ℚ
  | [], _ => []
  | a :: l, m => padd (pscale a m) (0 :: pmul l m)

/-- `(1-gz)^k` -/
def epow (g : ℚ) : ℕ → List ℚ
  | 0 => [1]
  | k + 1 => pmul [1, -g] (epow g k)

/-- sum of the lists `w_i * l_i`. -/
def pcomb : List ℚ → List (List ℚ) → List ℚ
  | w :: ws, l :: ls => padd (pscale w l) (pcomb ws ls)
  | _, _ => []

section act

variable {V : Type*} [AddCommGroup V] [Module ℝ V] (Z : V →ₗ[ℝ] V) (v : V)

/-- the polynomial `l` of `Z` applied to `v`. -/
noncomputable def act : List ℚ → V
  | [] => 0
  | a :: l => (a : ℝ) • v + Z (act l)

theorem act_add (l m : List ℚ) : act Z v (padd l m) = act Z v l + act Z v m := by
  induction l generalizing m with
  | nil => simp [padd, act]
  | cons a l ih =>
    cases m with
    | nil => simp [padd, act]
    | cons b m =>
      simp only [padd, act, ih, map_add, Rat.cast_add, add_smul]
      abel

theorem act_scale (c : ℚ) (l : List ℚ) : act Z v (pscale c l) = (c : ℝ) • act Z v l := by
  induction l with
  | nil => simp [pscale, act]
  | cons a l ih =>
    rw [pscale] at ih ⊢
    simp only [List.map_cons, act, ih, map_smul, Rat.cast_mul, smul_add, mul_smul]

theorem act_shift (l : List ℚ) : act Z v (0 :: l) = Z (act Z v l) := by simp [act]

theorem act_mul (l m : List ℚ) : act Z v (pmul l m) = act Z (act Z v m) l := by
  induction l with
  | nil => rfl
  | cons a l ih => rw [pmul, act_add, act_scale, act_shift, ih, act]

theorem act_comb (ws : List ℚ) (ls : List (List ℚ)) (f : ℕ → V)
    (h : ∀ j, j < ls.length → f j = act Z v (ls.getD j [])) (hl : ws.length = ls.length) :
    act Z v (pcomb ws ls) = ∑ j ∈ Finset.range ws.length, ((ws.getD j 0 : ℚ) : ℝ) • f j := by
  induction ws generalizing ls f with
  | nil => cases ls <;> simp [pcomb, act]
  | cons w ws ih =>
    cases ls with
    | nil => simp at hl
    | cons l ls =>
      rw [pcomb, act_add, act_scale, List.length_cons, Finset.sum_range_succ',
        ih ls (fun j => f (j + 1)) (fun j hj => h (j + 1) (by simpa using hj)) (by simpa using hl)]
      have := h 0 (by simp)
      rw [List.getD_cons_zero] at this
      rw [this, add_comm]
      rfl

theorem act_sum {k : ℕ} (l : List ℚ) (hl : l.length ≤ k) :
    act Z v l = ∑ a : Fin k, ((l.getD a 0 : ℚ) : ℝ) • (Z ^ (a : ℕ)) v := by
  induction l generalizing k with
  | nil => simp [act]
  | cons c l ih =>
    cases k with
    | zero => simp at hl
    | succ k =>
      rw [act, ih (k := k) (by simpa using hl), Fin.sum_univ_succ, map_sum]
      congr 1
      refine Finset.sum_congr rfl fun a _ => ?_
      rw [map_smul, Fin.val_succ, pow_succ', List.getD_cons_succ]
      rfl

end act

/-! ### the check -/

/-- the `b`-th coefficient of `z*l`. -/
def sh (l : List ℚ) (b : ℕ) : ℚ := match b with
  | 0 => 0
  | b + 1 => l.getD b 0

/-- coefficient of the Hermitian form `Σ w |l|²`. -/
def kform (ks : List (ℚ × List ℚ)) (a b : ℕ) : ℚ :=
  (ks.map fun p => p.1 * (p.2.getD a 0 * p.2.getD b 0)).sum

/-- coefficient of the Hermitian form `Σ w (z + conj z) |l|²`. -/
def hform (hs : List (ℚ × List ℚ)) (a b : ℕ) : ℚ :=
  (hs.map fun p => p.1 * (sh p.2 a * p.2.getD b 0 + p.2.getD a 0 * sh p.2 b)).sum

/-- everything checked about a certificate. -/
def Stab.Valid (S : Stab) (c : Coef ℚ) : Prop :=
  S.q.length = 6 ∧ S.num.length = 7 ∧
  (∀ i : Fin 6, pmul [1, -c.GAMMA] (S.q.getD i []) = 0 :: padd (epow c.GAMMA 6)
    (pcomb ((List.finRange 6).map fun j => if j < i then (classic c).alpha i j + (classic c).gam i j else 0)
      S.q)) ∧
  S.num = padd (epow c.GAMMA 6) (pcomb ((List.finRange 6).map (classic c).b) S.q) ∧
  S.num.getD 6 0 = 0 ∧
  (∀ p ∈ S.hs, 0 ≤ p.1 ∧ p.2.length = 7 ∧ p.2.getD 6 0 = 0) ∧ (∀ p ∈ S.ks, 0 ≤ p.1 ∧ p.2.length = 7) ∧
  (∀ a b : Fin 7, (epow c.GAMMA 6).getD a 0 * (epow c.GAMMA 6).getD b 0 - S.num.getD a 0 * S.num.getD b 0
    = kform S.ks a b - hform S.hs a b) ∧
  ((List.finRange 7).map fun a => |S.num.getD a 0| * 4 ^ (a : ℕ)).sum ≤ 11 ∧ c.GAMMA = 1 / 4 ∧
  (∀ i : Fin 6, (classic c).gam i i = c.GAMMA) ∧ (∀ i j : Fin 6, ¬ j < i → (classic c).alpha i j = 0) ∧
  (∀ i j : Fin 6, i < j → (classic c).gam i j = 0)

instance (S : Stab) (c : Coef ℚ) : Decidable (S.Valid c) := by unfold Stab.Valid; infer_instance

theorem valid1 : ∀ c ∈ rocoe 1, stab1.Valid c := by decide +kernel
theorem valid2 : ∀ c ∈ rocoe 2, stab2.Valid c := by decide +kernel
theorem valid3 : ∀ c ∈ rocoe 3, stab3.Valid c := by decide +kernel

theorem valid {meth : ℤ} {c : Coef ℚ} (h : rocoe meth = some c) : ∃ S : Stab, S.Valid c := by
  rcases rocoe_cases h with rfl | rfl | rfl
  · exact ⟨_, valid1 c h⟩
  · exact ⟨_, valid2 c h⟩
  · exact ⟨_, valid3 c h⟩

end Odes.Rodas
