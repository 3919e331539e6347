import Verif.Lemmas.SympFlt
import Verif.Lemmas.HessElim
import Mathlib.Algebra.Order.BigOperators.Group.Finset
import Mathlib.Algebra.BigOperators.Intervals
import Mathlib.Tactic.Linarith
import Mathlib.Tactic.Positivity

/-!
# Rounding errors of one elimination step and of one row of the back substitution
-/

namespace Odes.Hess

open Odes.Symp Spec Finset

variable {F : FP}

/-- error relative to the rounded value. -/
theorem err' (hu : F.eps ≤ 1 / 32) (x : ℝ) : |F.rnd x - x| ≤ 17 / 16 * F.eps * |F.rnd x| := by
  have h := F.err x
  have h0 := F.eps_pos
  have h1 : |x| ≤ |F.rnd x| + |F.rnd x - x| := by
    have := abs_sub_abs_le_abs_sub x (F.rnd x)
    rw [abs_sub_comm] at this; linarith
  have h2 : |x| ≤ 17 / 16 * |F.rnd x| := by
    have : F.eps * |x| ≤ 1 / 32 * |x| := mul_le_mul_of_nonneg_right hu (abs_nonneg _)
    have := abs_nonneg x
    nlinarith
  calc |F.rnd x - x| ≤ F.eps * |x| := h
    _ ≤ F.eps * (17 / 16 * |F.rnd x|) := mul_le_mul_of_nonneg_left h2 h0.le
    _ = _ := by ring

/-- `a + b*c` with two roundings, relative to the result. -/
theorem fma_err (hu : F.eps ≤ 1 / 32) (a b c : ℝ) :
    |F.rnd (a + F.rnd (b * c)) - (a + b * c)| ≤
      17 / 16 * F.eps * |F.rnd (a + F.rnd (b * c))| + F.eps * (|b| * |c|) := by
  have h1 := err' hu (a + F.rnd (b * c))
  have h2 := F.err (b * c)
  rw [abs_mul] at h2
  calc |F.rnd (a + F.rnd (b * c)) - (a + b * c)|
      = |(F.rnd (a + F.rnd (b * c)) - (a + F.rnd (b * c))) + (F.rnd (b * c) - b * c)| := by
        congr 1; ring
    _ ≤ _ := (abs_add_le _ _).trans (add_le_add h1 h2)

/-- `a + b*c` with two roundings, in absolute value. -/
theorem fma_abs (a b c : ℝ) :
    |F.rnd (a + F.rnd (b * c))| ≤ (1 + F.eps) * (|a| + (1 + F.eps) * (|b| * |c|)) := by
  refine (F.abs_rnd _).trans (mul_le_mul_of_nonneg_left ?_ (by have := F.eps_pos; linarith))
  refine (abs_add_le _ _).trans (add_le_add le_rfl ?_)
  rw [← abs_mul]; exact F.abs_rnd _

/-- a linear recursion. -/
theorem grow {v c : ℝ} (hv : 0 ≤ v) (hc : 0 ≤ c) {e : ℕ → ℝ} (h0 : e 0 ≤ c) {N : ℕ}
    (hs : ∀ m, m < N → e (m + 1) ≤ (1 + v) * e m + c) {m : ℕ} (hm : m ≤ N) :
    e m ≤ (1 + v) ^ m * ((m + 1) * c) := by
  induction m with
  | zero => simpa using h0
  | succ m ih =>
    have h1 := ih (by omega)
    have h2 : (1 + v) * e m ≤ (1 + v) * ((1 + v) ^ m * ((m + 1) * c)) :=
      mul_le_mul_of_nonneg_left h1 (by linarith)
    have h3 : c ≤ (1 + v) ^ (m + 1) * c :=
      le_mul_of_one_le_left hc (one_le_pow₀ (by linarith))
    calc e (m + 1) ≤ (1 + v) * e m + c := hs m (by omega)
      _ ≤ (1 + v) * ((1 + v) ^ m * ((m + 1) * c)) + (1 + v) ^ (m + 1) * c := add_le_add h2 h3
      _ = _ := by push_cast; ring

/-- `(1+v)^m ≤ 1/(1-m v)`. -/
theorem pow_bound {v : ℝ} (hv : 0 ≤ v) (m : ℕ) {t : ℝ} (hm : m * v ≤ t) (ht : t < 1) :
    (1 + v) ^ m ≤ 1 / (1 - t) := by
  by_cases h0 : m = 0
  · subst h0
    simp only [pow_zero]
    have : 0 ≤ t := by simpa using hm
    rw [le_div_iff₀ (by linarith)]; linarith
  have hv1 : v < 1 := by
    have : (1 : ℝ) ≤ m := by exact_mod_cast Nat.one_le_iff_ne_zero.2 h0
    nlinarith
  have h1 : 1 + (m : ℝ) * (-v) ≤ (1 + -v) ^ m := one_add_mul_le_pow (by linarith) m
  have h2 : (1 + v) ^ m * (1 + -v) ^ m ≤ 1 := by
    rw [← mul_pow]
    exact pow_le_one₀ (by nlinarith) (by nlinarith)
  rw [le_div_iff₀ (by linarith)]
  have h3 : (0 : ℝ) ≤ (1 + v) ^ m := by positivity
  calc (1 + v) ^ m * (1 - t) ≤ (1 + v) ^ m * (1 + -v) ^ m :=
        mul_le_mul_of_nonneg_left (by linarith) h3
    _ ≤ 1 := h2

theorem sum_le_of_sub {f : ℤ → ℝ} (hf : ∀ j, 0 ≤ f j) {a b c d : ℤ} (h1 : c ≤ a) (h2 : b ≤ d) :
    ∑ j ∈ Icc a b, f j ≤ ∑ j ∈ Icc c d, f j :=
  sum_le_sum_of_subset_of_nonneg (Icc_subset_Icc h1 h2) fun _ _ _ => hf _

theorem abs_dot {U x : ℤ → ℝ} {a b : ℤ} {G X : ℝ} (hG : 0 ≤ G) (hU : ∀ j, a ≤ j → j ≤ b → |U j| ≤ G)
    (hX : ∑ j ∈ Icc a b, |x j| ≤ X) : |∑ j ∈ Icc a b, U j * x j| ≤ G * X := by
  refine (abs_sum_le_sum_abs _ _).trans (le_trans ?_ (mul_le_mul_of_nonneg_left hX hG))
  rw [mul_sum]
  refine sum_le_sum fun j hj => ?_
  rw [mem_Icc] at hj
  rw [abs_mul]
  exact mul_le_mul_of_nonneg_right (hU j hj.1 hj.2) (abs_nonneg _)

theorem sum_Icc_right {k n : ℤ} (h : k ≤ n + 1) (f : ℤ → ℝ) :
    ∑ j ∈ Icc k (n + 1), f j = ∑ j ∈ Icc k n, f j + f (n + 1) := by
  rw [← add_sum_erase _ _ (mem_Icc.2 ⟨h, le_refl (n + 1)⟩), add_comm]
  congr 1
  refine sum_congr ?_ fun _ _ => rfl
  ext j; rw [mem_erase, mem_Icc, mem_Icc]; omega

/-- residual of one row of the back substitution. -/
theorem back_err (hu : F.eps ≤ 1 / 32) {N : ℕ} (hn : N * F.eps ≤ 1 / 32) {i : ℤ} {x U β : ℤ → ℝ}
    {G X : ℝ} (hG : 0 ≤ G) {m : ℕ} (hm : m + 1 ≤ N)
    (hβ : ∀ k, i < k → k ≤ i + m → β k = F.rnd (β (k + 1) + F.rnd (U k * -x k)))
    (hx : x i = F.rnd (β (i + 1) / U i)) (hU : U i ≠ 0)
    (hUG : ∀ j, i ≤ j → j ≤ i + m → |U j| ≤ G) (hX : ∑ j ∈ Icc i (i + m), |x j| ≤ X) :
    |β (i + m + 1) - ∑ j ∈ Icc i (i + m), U j * x j| ≤ 9 / 4 * N * F.eps * (G * X) := by
  have h0 := F.eps_pos
  have hX0 : 0 ≤ X := le_trans (sum_nonneg fun _ _ => abs_nonneg _) hX
  have hGX : 0 ≤ G * X := mul_nonneg hG hX0
  have hxX : ∀ j, i ≤ j → j ≤ i + m → |x j| ≤ X := fun j a b =>
    le_trans (single_le_sum (f := fun j => |x j|) (fun _ _ => abs_nonneg _) (mem_Icc.2 ⟨a, b⟩)) hX
  have hUx : ∀ j, i ≤ j → j ≤ i + m → |U j| * |x j| ≤ G * X := fun j a b =>
    mul_le_mul (hUG j a b) (hxX j a b) (abs_nonneg _) hG
  have key := grow (v := 17 / 16 * F.eps) (c := 17 / 8 * F.eps * (G * X)) (by positivity)
    (by positivity)
    (e := fun q : ℕ => |β (i + q + 1) - ∑ j ∈ Icc i (i + q), U j * x j|) (N := m) (by
      simp only [Nat.cast_zero, add_zero, Icc_self, sum_singleton]
      have h1 := err' hu (β (i + 1) / U i)
      rw [← hx] at h1
      have h2 : |β (i + 1) - U i * x i| = |U i| * |x i - β (i + 1) / U i| := by
        rw [← abs_mul, mul_sub, mul_div_cancel₀ _ hU, abs_sub_comm]
      rw [h2]
      calc |U i| * |x i - β (i + 1) / U i| ≤ |U i| * (17 / 16 * F.eps * |x i|) :=
            mul_le_mul_of_nonneg_left h1 (abs_nonneg _)
        _ = 17 / 16 * F.eps * (|U i| * |x i|) := by ring
        _ ≤ 17 / 16 * F.eps * (G * X) :=
            mul_le_mul_of_nonneg_left (hUx i le_rfl (by omega)) (by positivity)
        _ ≤ _ := by nlinarith [mul_nonneg h0.le hGX]) (by
      intro q hq
      have hq' : (q : ℤ) + 1 ≤ m := by exact_mod_cast hq
      have e1 : i + ((q + 1 : ℕ) : ℤ) = i + q + 1 := by push_cast; ring
      simp only [e1]
      rw [sum_Icc_right (by omega)]
      have h1 := hβ (i + q + 1) (by omega) (by omega)
      have h2 := fma_err hu (β (i + q + 1 + 1)) (U (i + q + 1)) (-x (i + q + 1))
      rw [← h1, abs_neg] at h2
      have h3 : |β (i + q + 1)| ≤
          |β (i + q + 1) - ∑ j ∈ Icc i (i + q), U j * x j| + G * X := by
        have h4 : |∑ j ∈ Icc i (i + (q : ℤ)), U j * x j| ≤ G * X :=
          abs_dot hG (fun j a b => hUG j a (by omega))
            (le_trans (sum_le_of_sub (fun _ => abs_nonneg _) le_rfl (by omega)) hX)
        have : β (i + q + 1) = (β (i + q + 1) - ∑ j ∈ Icc i (i + (q : ℤ)), U j * x j) +
          ∑ j ∈ Icc i (i + (q : ℤ)), U j * x j := by ring
        calc |β (i + q + 1)| = _ := congrArg _ this
          _ ≤ _ := (abs_add_le _ _).trans (add_le_add le_rfl h4)
      have h5 := hUx (i + q + 1) (by omega) (by omega)
      generalize hd : β (i + q + 1) - ∑ j ∈ Icc i (i + (q : ℤ)), U j * x j = d at h3 ⊢
      have h6 : β (i + q + 1 + 1) - (∑ j ∈ Icc i (i + (q : ℤ)), U j * x j +
          U (i + q + 1) * x (i + q + 1)) = d -
          (β (i + q + 1) - (β (i + q + 1 + 1) + U (i + q + 1) * -x (i + q + 1))) := by
        rw [← hd]; ring
      rw [h6]
      refine (abs_sub _ _).trans ?_
      have h7 : 17 / 16 * F.eps * |β (i + q + 1)| ≤ 17 / 16 * F.eps * (|d| + G * X) :=
        mul_le_mul_of_nonneg_left h3 (by positivity)
      have h8 : F.eps * (|U (i + q + 1)| * |x (i + q + 1)|) ≤ F.eps * (G * X) :=
        mul_le_mul_of_nonneg_left h5 h0.le
      nlinarith [mul_nonneg h0.le hGX]) le_rfl
  refine key.trans ?_
  have hN : ((m : ℝ) + 1) ≤ N := by exact_mod_cast hm
  have hp : (1 + 17 / 16 * F.eps) ^ m ≤ 1 / (1 - 17 / 512) := by
    refine pow_bound (by positivity) m ?_ (by norm_num)
    have : (m : ℝ) * F.eps ≤ N * F.eps := mul_le_mul_of_nonneg_right (by linarith) h0.le
    linarith
  calc (1 + 17 / 16 * F.eps) ^ m * (((m : ℝ) + 1) * (17 / 8 * F.eps * (G * X)))
      ≤ 1 / (1 - 17 / 512) * (N * (17 / 8 * F.eps * (G * X))) := by
        refine mul_le_mul hp ?_ (by positivity) (by norm_num)
        exact mul_le_mul_of_nonneg_right hN (by positivity)
    _ = (1 / (1 - 17 / 512) * (17 / 8)) * (N * F.eps * (G * X)) := by ring
    _ ≤ 9 / 4 * (N * F.eps * (G * X)) :=
        mul_le_mul_of_nonneg_right (by norm_num) (by positivity)
    _ = _ := by ring

/-- size of the multiplier. -/
theorem mult_abs {p q : ℝ} (hp : p ≠ 0) (hq : |q| ≤ |p|) :
    |F.rnd (q * F.rnd (-1 / p))| ≤ (1 + F.eps) ^ 2 := by
  have h0 := F.eps_pos
  have hp' := abs_pos.2 hp
  have h1 := F.abs_rnd (-1 / p)
  rw [abs_div, abs_neg, abs_one] at h1
  have h2 := F.abs_rnd (q * F.rnd (-1 / p))
  rw [abs_mul] at h2
  have h3 : |q| * |F.rnd (-1 / p)| ≤ 1 + F.eps := by
    calc |q| * |F.rnd (-1 / p)| ≤ |p| * ((1 + F.eps) * (1 / |p|)) :=
          mul_le_mul hq h1 (abs_nonneg _) hp'.le
      _ = 1 + F.eps := by field_simp
  calc _ ≤ (1 + F.eps) * (|q| * |F.rnd (-1 / p)|) := h2
    _ ≤ (1 + F.eps) * (1 + F.eps) := mul_le_mul_of_nonneg_left h3 (by linarith)
    _ = _ := by ring

/-- what the elimination leaves in the column of the pivot. -/
theorem mult_elim {p : ℝ} (q : ℝ) (hp : p ≠ 0) :
    |q + F.rnd (q * F.rnd (-1 / p)) * p| ≤ (2 * F.eps + F.eps ^ 2) * |q| := by
  have h0 := F.eps_pos
  have hp' := abs_pos.2 hp
  have h1 := F.err (-1 / p)
  have h1' := F.abs_rnd (-1 / p)
  rw [abs_div, abs_neg, abs_one] at h1 h1'
  have h2 := F.err (q * F.rnd (-1 / p))
  rw [abs_mul q] at h2
  generalize F.rnd (-1 / p) = t at *
  generalize F.rnd (q * t) = l at *
  have e : q + l * p = q * p * (t - -1 / p) + p * (l - q * t) := by field_simp; ring
  rw [e]
  refine (abs_add_le _ _).trans ?_
  rw [abs_mul, abs_mul, abs_mul]
  have h3 : |q| * |p| * |t - -1 / p| ≤ |q| * |p| * (F.eps * (1 / |p|)) :=
    mul_le_mul_of_nonneg_left h1 (by positivity)
  have h4 : |p| * |l - q * t| ≤ |p| * (F.eps * (|q| * ((1 + F.eps) * (1 / |p|)))) :=
    mul_le_mul_of_nonneg_left (h2.trans (mul_le_mul_of_nonneg_left
      (mul_le_mul_of_nonneg_left h1' (abs_nonneg _)) h0.le)) (abs_nonneg _)
  have e3 : |q| * |p| * (F.eps * (1 / |p|)) = F.eps * |q| := by field_simp
  have e4 : |p| * (F.eps * (|q| * ((1 + F.eps) * (1 / |p|)))) = (F.eps + F.eps ^ 2) * |q| := by
    field_simp
  rw [e3] at h3
  rw [e4] at h4
  linarith

/-- residual of the row that is not the pivot, from those of the pivot and of the combination. -/
theorem stage_err (hu : F.eps ≤ 1 / 32) {k n : ℤ} (hk : k ≤ n) {x p q c : ℤ → ℝ} {l yp bq bc : ℝ}
    {G X T R : ℝ} (hG : 0 ≤ G) (hp : p k ≠ 0) (hqp : |q k| ≤ |p k|)
    (hl : l = F.rnd (q k * F.rnd (-1 / p k)))
    (hc : ∀ j, k < j → j ≤ n → c j = F.rnd (q j + F.rnd (l * p j)))
    (hb : bc = F.rnd (bq + F.rnd (l * yp)))
    (hpG : ∀ j, k ≤ j → j ≤ n → |p j| ≤ G) (hqG : |q k| ≤ G)
    (hcG : ∀ j, k < j → j ≤ n → |c j| ≤ G) (hX : ∑ j ∈ Icc k n, |x j| ≤ X)
    (hT : |yp - ∑ j ∈ Icc k n, p j * x j| ≤ T)
    (hR : |bc - ∑ j ∈ Icc (k + 1) n, c j * x j| ≤ R) :
    |bq - ∑ j ∈ Icc k n, q j * x j| ≤
      (1 + 17 / 16 * F.eps) * R + 11 / 10 * T + 7 * F.eps * (G * X) := by
  have h0 := F.eps_pos
  have hX0 : 0 ≤ X := le_trans (sum_nonneg fun _ _ => abs_nonneg _) hX
  have hT0 : 0 ≤ T := (abs_nonneg _).trans hT
  have hGX : 0 ≤ G * X := mul_nonneg hG hX0
  have hl1 : |l| ≤ (1 + F.eps) ^ 2 := by rw [hl]; exact mult_abs hp hqp
  have hl2 : |l| ≤ 17 / 16 + 1 / 512 := hl1.trans (by nlinarith)
  have hX1 : ∑ j ∈ Icc (k + 1) n, |x j| ≤ X :=
    le_trans (sum_le_of_sub (fun _ => abs_nonneg _) (by omega) le_rfl) hX
  -- sizes
  have hyp : |yp| ≤ T + G * X := by
    have h1 := abs_dot hG hpG hX
    have : yp = (yp - ∑ j ∈ Icc k n, p j * x j) + ∑ j ∈ Icc k n, p j * x j := by ring
    rw [this]
    exact (abs_add_le _ _).trans (add_le_add hT h1)
  have hbc : |bc| ≤ R + G * X := by
    have h1 := abs_dot hG (fun j a b => hcG j (by omega) b) hX1
    have : bc = (bc - ∑ j ∈ Icc (k + 1) n, c j * x j) + ∑ j ∈ Icc (k + 1) n, c j * x j := by ring
    rw [this]
    exact (abs_add_le _ _).trans (add_le_add hR h1)
  -- rounding errors
  have hη := fma_err hu bq l yp
  rw [← hb] at hη
  have hδ : ∀ j, k + 1 ≤ j → j ≤ n → |c j - (q j + l * p j)| ≤ 9 / 4 * F.eps * G := by
    intro j a b
    have h1 := fma_err hu (q j) l (p j)
    rw [← hc j (by omega) b] at h1
    have h2 := hcG j (by omega) b
    have h3 : |l| * |p j| ≤ (17 / 16 + 1 / 512) * G :=
      mul_le_mul hl2 (hpG j (by omega) b) (abs_nonneg _) (by norm_num)
    have h4 : 17 / 16 * F.eps * |c j| ≤ 17 / 16 * F.eps * G :=
      mul_le_mul_of_nonneg_left h2 (by positivity)
    have h5 := mul_le_mul_of_nonneg_left h3 h0.le
    nlinarith [mul_nonneg h0.le hG]
  have hsum : |∑ j ∈ Icc (k + 1) n, (c j - (q j + l * p j)) * x j| ≤ 9 / 4 * F.eps * G * X :=
    abs_dot (by positivity) hδ hX1
  have hcol : |(q k + l * p k) * x k| ≤ 5 / 2 * F.eps * (G * X) := by
    rw [abs_mul]
    have h1 := mult_elim (F := F) (q k) hp
    rw [← hl] at h1
    have h2 : |x k| ≤ X :=
      le_trans (single_le_sum (f := fun j => |x j|) (fun _ _ => abs_nonneg _)
        (mem_Icc.2 ⟨le_rfl, hk⟩)) hX
    have h3 : (2 * F.eps + F.eps ^ 2) * |q k| ≤ 5 / 2 * F.eps * G :=
      mul_le_mul (by nlinarith) hqG (abs_nonneg _) (by positivity)
    calc |q k + l * p k| * |x k| ≤ 5 / 2 * F.eps * G * X :=
          mul_le_mul (h1.trans h3) h2 (abs_nonneg _) (by positivity)
      _ = _ := by ring
  -- the identity
  have e : bq - ∑ j ∈ Icc k n, q j * x j =
      (bc - ∑ j ∈ Icc (k + 1) n, c j * x j) - l * (yp - ∑ j ∈ Icc k n, p j * x j) -
      (bc - (bq + l * yp)) + ∑ j ∈ Icc (k + 1) n, (c j - (q j + l * p j)) * x j -
      (q k + l * p k) * x k := by
    rw [sum_Icc_left hk, sum_Icc_left hk]
    have : ∑ j ∈ Icc (k + 1) n, (c j - (q j + l * p j)) * x j =
        ∑ j ∈ Icc (k + 1) n, c j * x j - ∑ j ∈ Icc (k + 1) n, q j * x j -
          l * ∑ j ∈ Icc (k + 1) n, p j * x j := by
      rw [mul_sum, ← sum_sub_distrib, ← sum_sub_distrib]
      exact sum_congr rfl fun j _ => by ring
    rw [this]; ring
  rw [e]
  have t1 : |l * (yp - ∑ j ∈ Icc k n, p j * x j)| ≤ (17 / 16 + 1 / 512) * T := by
    rw [abs_mul]; exact mul_le_mul hl2 hT (abs_nonneg _) (by norm_num)
  have t2 : F.eps * (|l| * |yp|) ≤ F.eps * ((17 / 16 + 1 / 512) * (T + G * X)) :=
    mul_le_mul_of_nonneg_left (mul_le_mul hl2 hyp (abs_nonneg _) (by norm_num)) h0.le
  have t3 : 17 / 16 * F.eps * |bc| ≤ 17 / 16 * F.eps * (R + G * X) :=
    mul_le_mul_of_nonneg_left hbc (by positivity)
  have t4 : F.eps * T ≤ 1 / 32 * T := mul_le_mul_of_nonneg_right hu hT0
  refine (abs_sub _ _).trans ?_
  refine (add_le_add ((abs_add_le _ _).trans (add_le_add ((abs_sub _ _).trans
    (add_le_add (abs_sub _ _) le_rfl)) le_rfl)) le_rfl).trans ?_
  nlinarith [mul_nonneg h0.le hGX]

end Odes.Hess
