import Verif.Lemmas.RodasStab
import Mathlib.LinearAlgebra.SesquilinearForm.Basic
import Mathlib.Analysis.SpecialFunctions.Pow.Real

/-!
# Stability of the Rodas methods: energy estimates for one step
-/

namespace Odes.Rodas

open Spec

variable {V : Type*} [AddCommGroup V] [Module ℝ V]

/-- a positive definite inner product for which `Z` is dissipative. -/
structure Energy (B : LinearMap.BilinForm ℝ V) (Z : V →ₗ[ℝ] V) : Prop where
  symm : ∀ x y, B x y = B y x
  pos : ∀ x, x ≠ 0 → 0 < B x x
  diss : ∀ x, B (Z x) x ≤ 0

variable {B : LinearMap.BilinForm ℝ V} {Z : V →ₗ[ℝ] V}

theorem Energy.nonneg (h : Energy B Z) (x : V) : 0 ≤ B x x := by
  by_cases hx : x = 0
  · rw [hx]; simp
  · exact (h.pos x hx).le

theorem bil_sum {k : ℕ} (l m : Fin k → ℝ) (f : Fin k → V) :
    B (∑ a, l a • f a) (∑ b, m b • f b) = ∑ a, ∑ b, l a * m b * B (f a) (f b) := by
  simp only [map_sum, LinearMap.sum_apply, map_smul, LinearMap.smul_apply, smul_eq_mul, Finset.mul_sum]
  rw [Finset.sum_comm]
  exact Finset.sum_congr rfl fun a _ => Finset.sum_congr rfl fun b _ => by ring

/-- powers of `Z` on `v`. -/
theorem act_shift_sum (v : V) (l : List ℚ) (hl : l.length = 7) (h6 : l.getD 6 0 = 0) :
    Z (act Z v l) = ∑ a : Fin 7, ((sh l a : ℚ) : ℝ) • (Z ^ (a : ℕ)) v := by
  rw [← act_shift, act_sum (k := 8) Z v (0 :: l) (by simp [hl]), Fin.sum_univ_castSucc]
  have : (0 :: l).getD ((Fin.last 7 : Fin 8) : ℕ) 0 = 0 := h6
  rw [this, Rat.cast_zero, zero_smul, add_zero]
  refine Finset.sum_congr rfl fun a _ => ?_
  congr 2
  obtain ⟨a, ha⟩ := a
  cases a <;> rfl

theorem kform_nonneg (hB : Energy B Z) (v : V) (ks : List (ℚ × List ℚ))
    (hk : ∀ p ∈ ks, 0 ≤ p.1 ∧ p.2.length = 7) :
    0 ≤ ∑ a : Fin 7, ∑ b : Fin 7, ((kform ks a b : ℚ) : ℝ) * B ((Z ^ (a : ℕ)) v) ((Z ^ (b : ℕ)) v) := by
  induction ks with
  | nil => simp [kform]
  | cons p ks ih =>
    obtain ⟨h0, h7⟩ := hk p (by simp)
    have i := ih fun q hq => hk q (by simp [hq])
    have e : ∀ a b : Fin 7, ((kform (p :: ks) a b : ℚ) : ℝ) * B ((Z ^ (a : ℕ)) v) ((Z ^ (b : ℕ)) v) =
        (p.1 : ℝ) * (((p.2.getD a 0 : ℚ) : ℝ) * ((p.2.getD b 0 : ℚ) : ℝ) *
          B ((Z ^ (a : ℕ)) v) ((Z ^ (b : ℕ)) v))
        + ((kform ks a b : ℚ) : ℝ) * B ((Z ^ (a : ℕ)) v) ((Z ^ (b : ℕ)) v) := by
      intro a b
      have : kform (p :: ks) a b = p.1 * (p.2.getD a 0 * p.2.getD b 0) + kform ks a b := rfl
      rw [this]
      push_cast
      ring
    simp only [e, Finset.sum_add_distrib, ← Finset.mul_sum]
    rw [← bil_sum, ← act_sum (k := 7) Z v p.2 h7.le]
    have := mul_nonneg (Rat.cast_nonneg (K := ℝ).2 h0) (hB.nonneg (act Z v p.2))
    linarith

theorem hform_nonpos (hB : Energy B Z) (v : V) (hs : List (ℚ × List ℚ))
    (hk : ∀ p ∈ hs, 0 ≤ p.1 ∧ p.2.length = 7 ∧ p.2.getD 6 0 = 0) :
    ∑ a : Fin 7, ∑ b : Fin 7, ((hform hs a b : ℚ) : ℝ) * B ((Z ^ (a : ℕ)) v) ((Z ^ (b : ℕ)) v) ≤ 0 := by
  induction hs with
  | nil => simp [hform]
  | cons p hs ih =>
    obtain ⟨h0, h7, h6⟩ := hk p (by simp)
    have i := ih fun q hq => hk q (by simp [hq])
    have e : ∀ a b : Fin 7, ((hform (p :: hs) a b : ℚ) : ℝ) * B ((Z ^ (a : ℕ)) v) ((Z ^ (b : ℕ)) v) =
        (p.1 : ℝ) * (((sh p.2 a : ℚ) : ℝ) * ((p.2.getD b 0 : ℚ) : ℝ) *
          B ((Z ^ (a : ℕ)) v) ((Z ^ (b : ℕ)) v)) +
        (p.1 : ℝ) * (((p.2.getD a 0 : ℚ) : ℝ) * ((sh p.2 b : ℚ) : ℝ) *
          B ((Z ^ (a : ℕ)) v) ((Z ^ (b : ℕ)) v))
        + ((hform hs a b : ℚ) : ℝ) * B ((Z ^ (a : ℕ)) v) ((Z ^ (b : ℕ)) v) := by
      intro a b
      have : hform (p :: hs) a b = p.1 * (sh p.2 a * p.2.getD b 0 + p.2.getD a 0 * sh p.2 b)
        + hform hs a b := rfl
      rw [this]
      push_cast
      ring
    simp only [e, Finset.sum_add_distrib, ← Finset.mul_sum]
    rw [← bil_sum, ← bil_sum, ← act_sum (k := 7) Z v p.2 h7.le, ← act_shift_sum v p.2 h7 h6,
      hB.symm (act Z v p.2) (Z (act Z v p.2))]
    have := mul_nonpos_of_nonneg_of_nonpos (Rat.cast_nonneg (K := ℝ).2 h0) (hB.diss (act Z v p.2))
    linarith

theorem padd_length (l m : List ℚ) : (padd l m).length = max l.length m.length := by
  induction l generalizing m with
  | nil => simp [padd]
  | cons a l ih =>
    cases m with
    | nil => simp [padd]
    | cons b m => simp [padd, ih]

theorem epow_length (g : ℚ) (k : ℕ) : (epow g k).length = k + 1 := by
  induction k with
  | zero => rfl
  | succ k ih =>
    rw [epow, pmul, pmul, pmul, padd_length, List.length_cons, padd_length]
    simp only [pscale, List.length_map, ih, List.length_cons, List.length_nil]
    omega

/-- numerator and denominator of the stability function. -/
theorem energy (hB : Energy B Z) {S : Stab} {c : Coef ℚ} (hS : S.Valid c) (v : V) :
    B (act Z v S.num) (act Z v S.num) ≤ B (act Z v (epow c.GAMMA 6)) (act Z v (epow c.GAMMA 6)) := by
  obtain ⟨-, h1, -, -, -, h2, h3, h4, -⟩ := hS
  have hl : (epow c.GAMMA 6).length = 7 := epow_length _ _
  rw [act_sum (k := 7) Z v _ h1.le, act_sum (k := 7) Z v _ hl.le, bil_sum, bil_sum, ← sub_nonneg,
    ← Finset.sum_sub_distrib]
  simp only [← Finset.sum_sub_distrib, ← sub_mul, ← Rat.cast_mul, ← Rat.cast_sub, h4]
  simp only [Rat.cast_sub, sub_mul, Finset.sum_sub_distrib]
  have := kform_nonneg hB v _ h3
  have := hform_nonpos hB v _ h2
  linarith

/-! ### the factor `1 - g Z` -/

/-- `1 - g Z` -/
noncomputable def fac (g : ℝ) (Z : V →ₗ[ℝ] V) : V →ₗ[ℝ] V := LinearMap.id - g • Z

theorem fac_apply (g : ℝ) (x : V) : fac g Z x = x - g • Z x := rfl

theorem act_fac (g : ℚ) (v : V) : act Z v [1, -g] = fac g Z v := by
  simp [act, fac_apply, sub_eq_add_neg]

theorem act_epow (g : ℚ) (k : ℕ) (v : V) : act Z v (epow g k) = (fac g Z ^ k) v := by
  induction k with
  | zero => simp [epow, act]
  | succ k ih => rw [epow, act_mul, act_fac, ih, pow_succ']; rfl

theorem fac_energy (hB : Energy B Z) {g : ℝ} (hg : 0 ≤ g) (x : V) :
    B x x + g ^ 2 * B (Z x) (Z x) ≤ B (fac g Z x) (fac g Z x) := by
  have e : B (fac g Z x) (fac g Z x) = B x x - 2 * g * B (Z x) x + g ^ 2 * B (Z x) (Z x) := by
    simp only [fac_apply, map_sub, map_smul, LinearMap.sub_apply, LinearMap.smul_apply, smul_eq_mul,
      hB.symm x (Z x)]
    ring
  have := mul_nonpos_of_nonneg_of_nonpos hg (hB.diss x)
  rw [e]
  linarith

theorem fac_injective (hB : Energy B Z) {g : ℝ} (hg : 0 ≤ g) : Function.Injective (fac g Z) := by
  rw [← LinearMap.ker_eq_bot, LinearMap.ker_eq_bot']
  intro x hx
  by_contra h
  have h1 := fac_energy hB hg x
  have h2 := hB.pos x h
  have h3 := mul_nonneg (sq_nonneg g) (hB.nonneg (Z x))
  rw [hx] at h1
  simp only [map_zero] at h1
  linarith

theorem fac_surjective [FiniteDimensional ℝ V] (hB : Energy B Z) {g : ℝ} (hg : 0 ≤ g) (k : ℕ) :
    Function.Surjective (fac g Z ^ k) := by
  rw [← LinearMap.injective_iff_surjective]
  induction k with
  | zero => exact fun a b h => h
  | succ k ih =>
    rw [pow_succ']
    exact (fac_injective hB hg).comp ih

/-! ### one step -/

/-- the stage equations of a linear problem with exact Jacobian. -/
def LinStages (M : Classic ℚ 6) (Z : V →ₗ[ℝ] V) (y : V) (k : Fin 6 → V) : Prop :=
  ∀ i, k i = Z (y + ∑ j, ((M.alpha i j + M.gam i j : ℚ) : ℝ) • k j)

theorem act_comb6 (v : V) (w : Fin 6 → ℚ) (q : List (List ℚ)) (hq : q.length = 6) :
    act Z v (pcomb ((List.finRange 6).map w) q) = ∑ j : Fin 6, (w j : ℝ) • act Z v (q.getD j []) := by
  rw [act_comb Z v _ q (fun j => act Z v (q.getD j [])) (fun _ _ => rfl) (by simp [hq]), List.length_map,
    List.length_finRange, Finset.sum_range]
  refine Finset.sum_congr rfl fun j _ => ?_
  congr 2
  simp

theorem stages_act (hB : Energy B Z) {S : Stab} {c : Coef ℚ} (hS : S.Valid c)
    {y v : V} (hy : y = act Z v (epow c.GAMMA 6)) {k : Fin 6 → V} (hk : LinStages (classic c) Z y k)
    (i : Fin 6) : k i = act Z v (S.q.getD i []) := by
  obtain ⟨h1, -, h3, -, -, -, -, -, -, hg, g1, g2, g3⟩ := hS
  have hg0 : (0 : ℝ) ≤ c.GAMMA := by rw [hg]; norm_num
  induction i using WellFoundedLT.induction with
  | _ i ih =>
    apply fac_injective hB hg0
    rw [← act_fac c.GAMMA (act Z v _), ← act_mul, h3 i, act_shift, act_add, ← hy, act_comb6 _ _ _ h1,
      fac_apply]
    have e : ∑ j, (((classic c).alpha i j + (classic c).gam i j : ℚ) : ℝ) • k j =
        ∑ j, ((if j < i then (classic c).alpha i j + (classic c).gam i j else 0 : ℚ) : ℝ) •
          act Z v (S.q.getD j []) + (c.GAMMA : ℝ) • k i := by
      have e2 : (c.GAMMA : ℝ) • k i = ∑ j, if j = i then (c.GAMMA : ℝ) • k j else 0 := by
        rw [Finset.sum_ite_eq' Finset.univ i]; simp
      rw [e2, ← Finset.sum_add_distrib]
      refine Finset.sum_congr rfl fun j _ => ?_
      rcases lt_trichotomy j i with h | h | h
      · rw [if_pos h, if_neg h.ne, add_zero, ih j h]
      · subst h
        rw [if_neg (lt_irrefl _), if_pos rfl, g1, g2 _ _ (lt_irrefl _)]
        simp
      · rw [if_neg h.not_gt, if_neg h.ne', g2 _ _ h.not_gt, g3 _ _ h]
        simp
    have := hk i
    rw [e, ← add_assoc, map_add, map_smul] at this
    exact sub_eq_iff_eq_add.2 this

/-- one step on a linear problem, exact Jacobian. -/
theorem step_act [FiniteDimensional ℝ V] (hB : Energy B Z) {S : Stab} {c : Coef ℚ} (hS : S.Valid c)
    {y ynew : V} {k : Fin 6 → V} (hk : LinStages (classic c) Z y k)
    (hn : ynew = y + ∑ i, (((classic c).b i : ℚ) : ℝ) • k i) :
    ∃ v, y = (fac c.GAMMA Z ^ 6) v ∧ ynew = act Z v S.num := by
  have hg0 : (0 : ℝ) ≤ c.GAMMA := by rw [hS.2.2.2.2.2.2.2.2.2.1]; norm_num
  obtain ⟨v, hv⟩ := fac_surjective hB hg0 6 y
  have hy : y = act Z v (epow c.GAMMA 6) := by rw [act_epow, hv]
  refine ⟨v, hv.symm, ?_⟩
  rw [hS.2.2.2.1, act_add, act_comb6 _ _ _ hS.1, ← hy, hn]
  congr 1
  exact Finset.sum_congr rfl fun i _ => by rw [stages_act hB hS hy hk i]

/-- the energy does not increase. -/
theorem step_energy [FiniteDimensional ℝ V] (hB : Energy B Z) {S : Stab} {c : Coef ℚ} (hS : S.Valid c)
    {y ynew : V} {k : Fin 6 → V} (hk : LinStages (classic c) Z y k)
    (hn : ynew = y + ∑ i, (((classic c).b i : ℚ) : ℝ) • k i) : B ynew ynew ≤ B y y := by
  obtain ⟨v, h1, h2⟩ := step_act hB hS hk hn
  rw [h1, h2, ← act_epow]
  exact energy hB hS v

/-! ### damping -/

/-- the norm. -/
noncomputable def nrm (B : LinearMap.BilinForm ℝ V) (x : V) : ℝ := Real.sqrt (B x x)

theorem nrm_nonneg (x : V) : 0 ≤ nrm B x := Real.sqrt_nonneg _

theorem nrm_sq (hB : Energy B Z) (x : V) : nrm B x ^ 2 = B x x := Real.sq_sqrt (hB.nonneg x)

theorem nrm_add (hB : Energy B Z) (x y : V) : nrm B (x + y) ≤ nrm B x + nrm B y := by
  apply Real.sqrt_le_iff.2
  refine ⟨add_nonneg (nrm_nonneg x) (nrm_nonneg y), ?_⟩
  have h1 := LinearMap.BilinForm.apply_sq_le_of_symm B hB.nonneg ⟨hB.symm⟩ x y
  have h2 : B x y ≤ nrm B x * nrm B y := by
    apply abs_le_of_sq_le_sq' _ (mul_nonneg (nrm_nonneg x) (nrm_nonneg y)) |>.2
    rw [mul_pow, nrm_sq hB, nrm_sq hB]
    exact h1
  rw [add_sq, nrm_sq hB, nrm_sq hB]
  simp only [map_add, LinearMap.add_apply, hB.symm y x]
  linarith

theorem nrm_smul (a : ℝ) (x : V) : nrm B (a • x) = |a| * nrm B x := by
  unfold nrm
  rw [map_smul, map_smul, LinearMap.smul_apply, smul_eq_mul, smul_eq_mul, ← mul_assoc,
    Real.sqrt_mul (mul_self_nonneg a), Real.sqrt_mul_self_eq_abs]

theorem nrm_sum (hB : Energy B Z) {k : ℕ} (f : Fin k → V) : nrm B (∑ a, f a) ≤ ∑ a, nrm B (f a) := by
  induction k with
  | zero => simp [nrm]
  | succ k ih =>
    rw [Fin.sum_univ_succ, Fin.sum_univ_succ]
    exact (nrm_add hB _ _).trans (add_le_add le_rfl (ih _))

theorem nrm_fac (hB : Energy B Z) {g : ℝ} (hg : 0 ≤ g) (x : V) :
    nrm B x ≤ nrm B (fac g Z x) ∧ g * nrm B (Z x) ≤ nrm B (fac g Z x) := by
  have h := fac_energy hB hg x
  have h1 := mul_nonneg (sq_nonneg g) (hB.nonneg (Z x))
  have h2 := hB.nonneg x
  refine ⟨Real.sqrt_le_sqrt (by linarith), Real.le_sqrt_of_sq_le ?_⟩
  rw [mul_pow, nrm_sq hB]
  linarith

theorem fac_comm (g : ℝ) (x : V) : fac g Z (Z x) = Z (fac g Z x) := by
  simp [fac_apply]

theorem fac_comm_pow (g : ℝ) (a : ℕ) (x : V) : fac g Z ((Z ^ a) x) = (Z ^ a) (fac g Z x) := by
  induction a with
  | zero => rfl
  | succ a ih => rw [pow_succ', Module.End.mul_apply, fac_comm, ih, Module.End.mul_apply]

theorem nrm_pow (hB : Energy B Z) {g : ℝ} (hg : 0 < g) (a : ℕ) (v : V) :
    nrm B ((Z ^ a) v) ≤ (1 / g) ^ a * nrm B ((fac g Z ^ a) v) := by
  induction a generalizing v with
  | zero => simp
  | succ a ih =>
    have h1 := (nrm_fac hB hg.le ((Z ^ a) v)).2
    rw [fac_comm_pow] at h1
    have h2 := ih (fac g Z v)
    rw [pow_succ' Z, Module.End.mul_apply, pow_succ (fac g Z), Module.End.mul_apply, pow_succ' (1 / g),
      mul_assoc]
    have h3 : nrm B (Z ((Z ^ a) v)) ≤ 1 / g * nrm B ((Z ^ a) (fac g Z v)) := by
      rw [one_div, ← div_eq_inv_mul, le_div_iff₀ hg, mul_comm]
      exact h1
    exact h3.trans (mul_le_mul_of_nonneg_left h2 (by positivity))

theorem nrm_fac_pow (hB : Energy B Z) {g : ℝ} (hg : 0 ≤ g) {a b : ℕ} (hab : a ≤ b) (v : V) :
    nrm B ((fac g Z ^ a) v) ≤ nrm B ((fac g Z ^ b) v) := by
  induction b, hab using Nat.le_induction with
  | base => rfl
  | succ b _ ih =>
    rw [pow_succ', Module.End.mul_apply]
    exact ih.trans (nrm_fac hB hg _).1

/-- stiff components are damped: if `|Z x| >= M |x|` for all `x`, then `|ynew| <= 44/M |y|`. -/
theorem step_damps [FiniteDimensional ℝ V] (hB : Energy B Z) {S : Stab} {c : Coef ℚ} (hS : S.Valid c)
    {y ynew : V} {k : Fin 6 → V} (hk : LinStages (classic c) Z y k)
    (hn : ynew = y + ∑ i, (((classic c).b i : ℚ) : ℝ) • k i) {M : ℝ} (hM : 0 ≤ M)
    (hZ : ∀ x, M * nrm B x ≤ nrm B (Z x)) : M * nrm B ynew ≤ 44 * nrm B y := by
  obtain ⟨v, h1, h2⟩ := step_act hB hS hk hn
  obtain ⟨-, hl, -, -, h6, -, -, -, hs, hg, -⟩ := hS
  have hg' : (c.GAMMA : ℝ) = 1 / 4 := by rw [hg]; norm_num
  rw [hg'] at h1
  have hg0 : (0 : ℝ) ≤ 1 / 4 := by norm_num
  set u := (fac (1 / 4) Z ^ 5) v with hu
  have b1 : nrm B ynew ≤ 11 * nrm B u := by
    rw [h2, act_sum (k := 7) Z v _ hl.le]
    refine (nrm_sum hB _).trans ?_
    have e : ∀ a : Fin 7, nrm B (((S.num.getD a 0 : ℚ) : ℝ) • (Z ^ (a : ℕ)) v) ≤
        ((|S.num.getD a 0| * 4 ^ (a : ℕ) : ℚ) : ℝ) * nrm B u := by
      intro a
      rw [nrm_smul]
      by_cases ha : (a : ℕ) = 6
      · rw [ha, h6]; simp
      · have := nrm_pow hB (by norm_num : (0 : ℝ) < 1 / 4) (a : ℕ) v
        have := this.trans (mul_le_mul_of_nonneg_left
          (nrm_fac_pow hB hg0 (by omega : (a : ℕ) ≤ 5) v) (by positivity))
        push_cast
        rw [mul_assoc]
        refine mul_le_mul_of_nonneg_left ?_ (abs_nonneg _)
        rw [one_div_one_div] at this
        exact this
    refine (Finset.sum_le_sum fun a _ => e a).trans ?_
    rw [← Finset.sum_mul]
    refine mul_le_mul_of_nonneg_right ?_ (nrm_nonneg _)
    rw [← Rat.cast_sum]
    have : (∑ a : Fin 7, |S.num.getD a 0| * 4 ^ (a : ℕ)) ≤ 11 := by
      rw [← List.sum_ofFn, List.ofFn_eq_map]; exact hs
    exact_mod_cast this
  have b2 : 1 / 4 * (M * nrm B u) ≤ nrm B y := by
    rw [h1, pow_succ', Module.End.mul_apply]
    exact (mul_le_mul_of_nonneg_left (hZ u) hg0).trans (nrm_fac hB hg0 u).2
  have b3 := mul_le_mul_of_nonneg_left b1 hM
  linarith

end Odes.Rodas
