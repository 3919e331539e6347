import Verif.Lemmas.HessReal
import Verif.Lemmas.HessFlt
import Verif.Lemmas.TimeLoop
import Mathlib.Data.Sign.Basic

/-!
# `dech` and `solh` in floating point arithmetic (C111)
-/

namespace Odes.Hess

open Odes.Symp Odes.TimeLoop Spec Finset

variable {F : FP}

noncomputable instance : Div F.T := ⟨fun x y => ⟨F.rnd (x.1 / y.1), F.rn.flt _⟩⟩
instance : Neg F.T := ⟨fun x => ⟨-x.1, x.2.neg⟩⟩
noncomputable instance : DecidableEq F.T := Classical.decEq _
noncomputable instance : DecidableLE F.T := fun _ _ => Classical.propDecidable _
noncomputable instance : DecidableLT F.T := fun _ _ => Classical.propDecidable _

theorem div_val (x y : F.T) : (x / y).1 = F.rnd (x.1 / y.1) := rfl
theorem neg_val (x : F.T) : (-x).1 = -x.1 := rfl

theorem fma_val (a b c : F.T) : (a + b * c).1 = F.rnd (a.1 + F.rnd (b.1 * c.1)) := rfl

theorem add_mul_zero (a c : F.T) : a + c * 0 = a := by
  apply Subtype.ext
  rw [fma_val, FP.zero_val, mul_zero, F.rn.exact Flt.zero, add_zero, F.rn.exact a.2]

theorem ABS_val (a : F.T) : (ABS a).1 = |a.1| := by
  unfold ABS
  split_ifs with h
  · exact (abs_of_nonneg h).symm
  · rw [neg_val, abs_of_neg]
    exact lt_of_not_ge h

theorem ne_val {a : F.T} (h : a ≠ 0) : a.1 ≠ 0 := fun e => h (Subtype.ext e)

/-- the other row of step `k` is not larger in the column of the pivot. -/
theorem pivot_le (A : ℤ → ℤ → F.T) (k : ℤ) :
    |(A (2 * k + 1 - pivot A k) k).1| ≤ |(A (pivot A k) k).1| := by
  unfold pivot
  split_ifs with h
  · rw [gt_iff_lt, lt_val, ABS_val, ABS_val] at h
    rw [show 2 * k + 1 - (k + 1) = k by ring]; exact h.le
  · rw [gt_iff_lt, lt_val, ABS_val, ABS_val, not_lt] at h
    rw [show 2 * k + 1 - k = k + 1 by ring]; exact h

section elim

variable {K : Type} [One K] [Add K] [Neg K] [Mul K] [Div K]

theorem elim_row {n k m i : ℤ} {A : ℤ → ℤ → K} (h1 : i ≠ k) (h2 : i ≠ k + 1) (j : ℤ) :
    elim n k m A i j = A i j := by
  unfold elim rho
  split_ifs with a <;> simp_all

theorem elim_col {n k m j : ℤ} {A : ℤ → ℤ → K} (h1 : j < k) (i : ℤ) :
    elim n k m A i j = A i j := by
  unfold elim
  rw [if_neg (by omega), if_neg (by omega)]

theorem elim_piv {n k m j : ℤ} {A : ℤ → ℤ → K} (h1 : k ≤ j) (h2 : j ≤ n) :
    elim n k m A k j = A m j := by
  unfold elim rho
  by_cases e : j = k
  · subst e; rw [if_pos rfl, if_pos rfl]
  · rw [if_neg e, if_pos (by omega), if_pos rfl]

theorem elim_mult {n k m : ℤ} {A : ℤ → ℤ → K} :
    elim n k m A (k + 1) k = A (2 * k + 1 - m) k * (-1 / A m k) := by
  unfold elim
  rw [if_pos rfl, if_neg (by omega), if_pos rfl]

theorem elim_other {n k m j : ℤ} {A : ℤ → ℤ → K} (h1 : k < j) (h2 : j ≤ n) :
    elim n k m A (k + 1) j = A (2 * k + 1 - m) j + A (2 * k + 1 - m) k * (-1 / A m k) * A m j := by
  unfold elim rho
  rw [if_neg (by omega), if_pos (by omega), if_neg (by omega), if_pos rfl]

end elim

/-- everything that happens in step `k`: `p` is the pivot row, `q` the other one, `l` the multiplier,
`c` the combination; `yp`, `yq`, `yc` the right hand sides. -/
structure Step (F : FP) (n k : ℤ) (p q c : ℤ → ℝ) (l yp yq yc : ℝ) : Prop where
  piv : p k ≠ 0
  le : |q k| ≤ |p k|
  mult : l = F.rnd (q k * F.rnd (-1 / p k))
  comb : ∀ j, k < j → j ≤ n → c j = F.rnd (q j + F.rnd (l * p j))
  rhs : yc = F.rnd (yq + F.rnd (l * yp))

section run

variable {n : ℤ} {A0 A : ℤ → ℤ → F.T} {ip : ℤ → ℤ} {Q : ℤ → ℤ → ℤ → F.T}
  (hQ1 : Q 1 = A0) (hQn : Q n = A)
  (hQ : ∀ j, 1 ≤ j → j < n → Q j (pivot (Q j) j) j ≠ 0 ∧ ip (j - 1) = pivot (Q j) j ∧
    Q (j + 1) = elim n j (pivot (Q j) j) (Q j))

include hQ in
/-- rows below the active ones have not been touched. -/
theorem row_fresh (k : ℤ) (hk : 1 ≤ k) (hkn : k ≤ n) (i : ℤ) (hi : k < i) (j : ℤ) :
    Q k i j = Q 1 i j := by
  revert hkn hi
  refine Int.leInduction (motive := fun k _ => k ≤ n → k < i → Q k i j = Q 1 i j)
    (fun _ _ => rfl) (fun k hk ih hkn hi => ?_) k hk
  rw [(hQ k hk (by omega)).2.2, elim_row (by omega) (by omega), ih (by omega) (by omega)]

include hQ in
/-- rows above the active ones are final. -/
theorem row_final (i : ℤ) (hi : 1 ≤ i) (k : ℤ) (hk : i + 1 ≤ k) (hkn : k ≤ n) (j : ℤ) :
    Q k i j = Q (i + 1) i j := by
  revert hkn
  refine Int.leInduction (motive := fun k _ => k ≤ n → Q k i j = Q (i + 1) i j)
    (fun _ => rfl) (fun k hk ih hkn => ?_) k hk
  rw [(hQ k (by omega) (by omega)).2.2, elim_row (by omega) (by omega), ih (by omega)]

include hQ in
/-- the multipliers are final. -/
theorem col_final (i : ℤ) (hi : 1 ≤ i) (k : ℤ) (hk : i + 1 ≤ k) (hkn : k ≤ n) :
    Q k (i + 1) i = Q (i + 1) (i + 1) i := by
  revert hkn
  refine Int.leInduction (motive := fun k _ => k ≤ n → Q k (i + 1) i = Q (i + 1) (i + 1) i)
    (fun _ => rfl) (fun k hk ih hkn => ?_) k hk
  rw [(hQ k (by omega) (by omega)).2.2, elim_col (by omega), ih (by omega)]

include hQ hQn in
theorem U_row {k : ℤ} (hk : 1 ≤ k) (hkn : k < n) {j : ℤ} (hj : k ≤ j) (hjn : j ≤ n) :
    A k j = Q k (pivot (Q k) k) j := by
  rw [← hQn, row_final hQ k hk n (by omega) le_rfl, (hQ k hk hkn).2.2, elim_piv hj hjn]

/-- right hand side before step `k`. -/
noncomputable def Y (A : ℤ → ℤ → F.T) (ip : ℤ → ℤ) (B : ℤ → F.T) (k : ℤ) : ℤ → F.T :=
  fwd A ip (k - 1).toNat B

theorem Y_succ (A : ℤ → ℤ → F.T) (ip : ℤ → ℤ) (B : ℤ → F.T) {k : ℤ} (hk : 1 ≤ k) :
    Y A ip B (k + 1) = rho k (ip (k - 1)) (A (k + 1) k) (Y A ip B k) := by
  unfold Y
  obtain ⟨q, hq⟩ : ∃ q : ℕ, (k - 1).toNat = q := ⟨_, rfl⟩
  rw [show (k + 1 - 1).toNat = q + 1 by omega, fwd, hq, show (q : ℤ) + 1 = k by omega,
    show (q : ℤ) + 2 = k + 1 by omega, show (q : ℤ) = k - 1 by omega]

theorem Y_fresh (A : ℤ → ℤ → F.T) (ip : ℤ → ℤ) (B : ℤ → F.T) (k : ℤ) (hk : 1 ≤ k) (i : ℤ)
    (hi : k < i) : Y A ip B k i = B i := by
  revert hi
  refine Int.leInduction (motive := fun k _ => k < i → Y A ip B k i = B i)
    (fun _ => rfl) (fun k hk ih hi => ?_) k hk
  rw [Y_succ _ _ _ hk, rho, if_neg (by omega), if_neg (by omega), ih (by omega)]

theorem Y_final (A : ℤ → ℤ → F.T) (ip : ℤ → ℤ) (B : ℤ → F.T) (i : ℤ) (hi : 1 ≤ i) (k : ℤ)
    (hk : i + 1 ≤ k) : Y A ip B k i = Y A ip B i (ip (i - 1)) := by
  refine Int.leInduction (motive := fun k _ => Y A ip B k i = Y A ip B i (ip (i - 1)))
    ?_ (fun k hk ih => ?_) k hk
  · rw [Y_succ _ _ _ hi, rho, if_pos rfl]
  · rw [Y_succ _ _ _ (by omega), rho, if_neg (by omega), if_neg (by omega), ih]

include hQ hQn in
theorem step_k (B : ℤ → F.T) {k : ℤ} (hk : 1 ≤ k) (hkn : k < n) :
    Step F n k (fun j => (Q k (pivot (Q k) k) j).1) (fun j => (Q k (2 * k + 1 - pivot (Q k) k) j).1)
      (fun j => (Q (k + 1) (k + 1) j).1) (A (k + 1) k).1 (Y A ip B k (pivot (Q k) k)).1
      (Y A ip B k (2 * k + 1 - pivot (Q k) k)).1 (Y A ip B (k + 1) (k + 1)).1 := by
  obtain ⟨h1, h2, h3⟩ := hQ k hk hkn
  have hl : A (k + 1) k = Q k (2 * k + 1 - pivot (Q k) k) k * (-1 / Q k (pivot (Q k) k) k) := by
    rw [← hQn, col_final hQ k hk n (by omega) le_rfl, h3, elim_mult]
  refine ⟨ne_val h1, pivot_le _ _, ?_, ?_, ?_⟩
  · rw [hl]; rfl
  · intro j a b
    rw [h3, elim_other a b, ← hl]; rfl
  · rw [Y_succ _ _ _ hk, h2, rho, if_neg (by omega), if_pos rfl]; rfl

include hQ hQ1 in
/-- growth of the active row. -/
theorem growth {M : ℝ} (hM : ∀ i j, 1 ≤ i → i ≤ n → 1 ≤ j → j ≤ n → i ≤ j + 1 → |(A0 i j).1| ≤ M)
    (k : ℤ) (hk : 1 ≤ k) (hkn : k ≤ n) {j : ℤ} (hj : k ≤ j) (hjn : j ≤ n) :
    |(Q k k j).1| ≤ k * M * (1 + F.eps) ^ (4 * (k - 1).toNat) := by
  revert hkn hj
  refine Int.leInduction (motive := fun k _ => k ≤ n → k ≤ j →
    |(Q k k j).1| ≤ k * M * (1 + F.eps) ^ (4 * (k - 1).toNat)) ?_ ?_ k hk
  · intro hn hj
    rw [hQ1]
    simpa using hM 1 j le_rfl hn hj hjn (by omega)
  · intro k hk ih hkn hj
    have h0 := F.eps_pos
    have hM0 : 0 ≤ M := (abs_nonneg _).trans (hM 1 1 le_rfl (by omega) le_rfl (by omega) (by omega))
    obtain ⟨h1, h2, h3⟩ := hQ k hk (by omega)
    have g1 := ih (by omega) (by omega)
    have g2 : |(Q k (k + 1) j).1| ≤ M := by
      rw [row_fresh hQ k hk (by omega) _ (by omega), hQ1]
      exact hM _ _ (by omega) (by omega) (by omega) hjn (by omega)
    have hl : |(Q k (2 * k + 1 - pivot (Q k) k) k * (-1 / Q k (pivot (Q k) k) k)).1| ≤
        (1 + F.eps) ^ 2 := mult_abs (ne_val h1) (pivot_le _ _)
    rw [h3, elim_other (by omega) hjn, fma_val]
    generalize (Q k (2 * k + 1 - pivot (Q k) k) k * (-1 / Q k (pivot (Q k) k) k)).1 = l at hl
    have hpq : |(Q k (2 * k + 1 - pivot (Q k) k) j).1| + |(Q k (pivot (Q k) k) j).1| ≤
        k * M * (1 + F.eps) ^ (4 * (k - 1).toNat) + M := by
      rcases pivot_or (Q k) k with e | e <;> rw [e]
      · rw [show 2 * k + 1 - k = k + 1 by ring]; linarith
      · rw [show 2 * k + 1 - (k + 1) = k by ring]; linarith
    generalize (Q k (2 * k + 1 - pivot (Q k) k) j).1 = q at hpq
    generalize (Q k (pivot (Q k) k) j).1 = p at hpq
    obtain ⟨r, hr⟩ : ∃ r : ℕ, (k - 1).toNat = r := ⟨_, rfl⟩
    have hkr : (k : ℝ) = r + 1 := by
      have : k = (r : ℤ) + 1 := by omega
      rw [this]; push_cast; ring
    rw [hr] at hpq
    rw [show (k + 1 - 1).toNat = r + 1 by omega]
    push_cast
    rw [hkr] at hpq ⊢
    have hone : (1 : ℝ) ≤ (1 + F.eps) ^ (4 * r) := one_le_pow₀ (by linarith)
    calc |F.rnd (q + F.rnd (l * p))| ≤ (1 + F.eps) * (|q| + (1 + F.eps) * (|l| * |p|)) := fma_abs _ _ _
      _ ≤ (1 + F.eps) * (|q| + (1 + F.eps) * ((1 + F.eps) ^ 2 * |p|)) := by
          gcongr
      _ ≤ (1 + F.eps) ^ 4 * (|q| + |p|) := by
          have : (1 : ℝ) ≤ (1 + F.eps) ^ 3 := one_le_pow₀ (by linarith)
          have := mul_le_mul_of_nonneg_right this (abs_nonneg q)
          nlinarith
      _ ≤ (1 + F.eps) ^ 4 * (((r : ℝ) + 1) * M * (1 + F.eps) ^ (4 * r) + M * (1 + F.eps) ^ (4 * r)) := by
          have : M ≤ M * (1 + F.eps) ^ (4 * r) := le_mul_of_one_le_right hM0 hone
          exact mul_le_mul_of_nonneg_left (by linarith) (by positivity)
      _ = _ := by rw [show 4 * (r + 1) = 4 + 4 * r by ring, pow_add]; ring

end run

/-! ### back substitution -/

section back

variable (A : ℤ → ℤ → F.T) (n : ℤ) (c : ℤ → F.T)

theorem bwd_col {k : ℤ} (hkn : k ≤ n) :
    bwd A n (n + 1 - k).toNat c = bstep A k (bwd A n (n - k).toNat c) := by
  obtain ⟨q, hq⟩ : ∃ q : ℕ, (n - k).toNat = q := ⟨_, rfl⟩
  rw [show (n + 1 - k).toNat = q + 1 by omega, bwd, hq, show n - (q : ℤ) = k by omega]

theorem bwd_done (r : ℤ) (hr : r ≤ n) (k : ℤ) (hk : k ≤ r) :
    bwd A n (n + 1 - k).toNat c r = bwd A n (n + 1 - r).toNat c r := by
  refine Int.leInductionDown
    (motive := fun k _ => bwd A n (n + 1 - k).toNat c r = bwd A n (n + 1 - r).toNat c r)
    rfl (fun k hk ih => ?_) k hk
  rw [bwd_col A n c (show k - 1 ≤ n by omega), bstep, if_neg (by omega), if_neg (by omega), ← ih,
    show n - (k - 1) = n + 1 - k by ring]

/-- residual of row `i` of the triangular system. -/
theorem tri_err {N : ℕ} (hN : (N : ℤ) = n) (hu : F.eps ≤ 1 / 32) (hn : N * F.eps ≤ 1 / 32) {i : ℤ}
    (hi : 1 ≤ i) (hin : i ≤ n) {G X : ℝ} (hG : 0 ≤ G) (hd : A i i ≠ 0)
    (hU : ∀ j, i ≤ j → j ≤ n → |(A i j).1| ≤ G)
    (hX : ∑ j ∈ Icc 1 n, |(bwd A n n.toNat c j).1| ≤ X) :
    |(c i).1 - ∑ j ∈ Icc i n, (A i j).1 * (bwd A n n.toNat c j).1| ≤
      9 / 4 * N * F.eps * (G * X) := by
  obtain ⟨m, hm⟩ : ∃ m : ℕ, n = i + m := ⟨(n - i).toNat, by omega⟩
  have hx : ∀ k, 1 ≤ k → k ≤ n → bwd A n n.toNat c k = bwd A n (n + 1 - k).toNat c k := by
    intro k a b
    have := bwd_done A n c k b 1 a
    rwa [show (n + 1 - 1 : ℤ) = n by ring] at this
  have hsum : ∑ j ∈ Icc i (i + (m : ℤ)), |(bwd A n n.toNat c j).1| ≤ X := by
    rw [← hm]
    exact (sum_le_of_sub (f := fun j => |(bwd A n n.toNat c j).1|) (fun _ => abs_nonneg _) hi
      le_rfl).trans hX
  have key := back_err (F := F) hu hn (i := i) (x := fun j => (bwd A n n.toNat c j).1)
    (U := fun j => (A i j).1) (β := fun k => (bwd A n (n + 1 - k).toNat c i).1) hG (m := m)
    (by omega) (by
      intro k a b
      rw [hx k (by omega) (by omega), bwd_col A n c (show k ≤ n by omega), bstep, if_neg (by omega),
        if_pos (by omega), bstep, if_pos rfl, show n + 1 - (k + 1) = n - k by ring]
      rfl) (by
      rw [hx i hi hin, bwd_col A n c hin, bstep, if_pos rfl, show n + 1 - (i + 1) = n - i by ring]
      rfl) (ne_val hd) (by intro j a b; exact hU j a (by omega)) hsum
  rw [← hm] at key
  simp only [show (n + 1 - (n + 1)).toNat = 0 by omega, bwd] at key
  exact key

end back

/-! ### the solver -/

/-- the upper Hessenberg part of `A`, as real numbers. -/
noncomputable def hess (A : ℤ → ℤ → F.T) (i j : ℤ) : ℝ := if i ≤ j + 1 then (A i j).1 else 0

theorem sum_hess (A : ℤ → ℤ → F.T) (x : ℤ → ℝ) {n i a : ℤ} (ha : 1 ≤ a) (hi : a = 1 ∧ i = 1 ∨ i = a + 1) :
    ∑ j ∈ Icc 1 n, hess A i j * x j = ∑ j ∈ Icc a n, (A i j).1 * x j := by
  symm
  rw [← sum_subset (Icc_subset_Icc_left ha) (f := fun j => hess A i j * x j)]
  · refine sum_congr rfl fun j hj => ?_
    rw [mem_Icc] at hj
    rw [hess, if_pos (by omega)]
  · intro j _ h2
    rw [mem_Icc] at *
    rw [hess, if_neg (by omega), zero_mul]

/-- **C111** the residual of the computed solution is at most `3 n² (n+3)` units of rounding times the
largest coefficient times the sum of the absolute values of the solution. -/
theorem dech_solh_float_residual {N : ℕ} (hN : 1 ≤ N) (hu : N * F.eps ≤ 1 / 32)
    {A : ℤ → ℤ → F.T} {ip : ℤ → ℤ} {B : ℤ → F.T} {M : ℝ}
    (hM : ∀ i j : ℤ, 1 ≤ i → i ≤ N → 1 ≤ j → j ≤ N → i ≤ j + 1 → |(A i j).1| ≤ M)
    {s : St F.T} (hs : dech N A ip = some s) (hret : s.ret = 0) :
    ∃ x, solh N s.A s.ip B = some x ∧ ∀ i : ℤ, 1 ≤ i → i ≤ N →
      |(B i).1 - ∑ j ∈ Icc (1 : ℤ) N, hess A i j * (x j).1| ≤
        3 * N ^ 2 * (N + 3) * F.eps * M * ∑ j ∈ Icc (1 : ℤ) N, |(x j).1| := by
  have hn : (1 : ℤ) ≤ N := by exact_mod_cast hN
  have hN' : (1 : ℝ) ≤ N := by exact_mod_cast hN
  have h0 := F.eps_pos
  have hu1 : F.eps ≤ 1 / 32 := by nlinarith
  obtain ⟨s', e1, e2⟩ := dech_chain add_mul_zero hn A ip
  rw [hs] at e1
  obtain rfl := Option.some.inj e1
  obtain ⟨⟨Q, hQ1, hQn, hQ⟩, hnn⟩ := e2.1 hret
  have hpiv : ∀ j : ℤ, 1 ≤ j → j < N → s.ip (j - 1) = j ∨ s.ip (j - 1) = j + 1 := by
    intro j a b
    rw [(hQ j a b).2.1]; exact pivot_or _ _
  refine ⟨_, solh_closed hn hpiv B, ?_⟩
  have hM0 : 0 ≤ M := (abs_nonneg _).trans (hM 1 1 le_rfl hn le_rfl hn (by norm_num))
  obtain ⟨G, hG⟩ : ∃ G : ℝ, G = 8 / 7 * N * M := ⟨_, rfl⟩
  have hG0 : 0 ≤ G := by rw [hG]; positivity
  have hMG : M ≤ G := by rw [hG]; nlinarith
  -- the active row
  have hrow : ∀ k j : ℤ, 1 ≤ k → k ≤ j → j ≤ N → |(Q k k j).1| ≤ G := by
    intro k j a b c
    refine (growth hQ1 hQ hM k a (by omega) b c).trans ?_
    have hk : (k : ℝ) ≤ N := by exact_mod_cast (show k ≤ (N : ℤ) by omega)
    have hk0 : (0 : ℝ) ≤ k := by exact_mod_cast (show (0 : ℤ) ≤ k by omega)
    have hp : (1 + F.eps) ^ (4 * (k - 1).toNat) ≤ 1 / (1 - 1 / 8) := by
      refine pow_bound h0.le _ ?_ (by norm_num)
      have : ((4 * (k - 1).toNat : ℕ) : ℝ) ≤ 4 * N := by
        have : 4 * (k - 1).toNat ≤ 4 * N := by omega
        exact_mod_cast this
      nlinarith
    calc (k : ℝ) * M * (1 + F.eps) ^ (4 * (k - 1).toNat) ≤ N * M * (1 / (1 - 1 / 8)) := by
          gcongr
      _ = G := by rw [hG]; ring
  have hfresh : ∀ k j : ℤ, 1 ≤ k → k < N → k ≤ j → j ≤ N → Q k (k + 1) j = A (k + 1) j := by
    intro k j a b c d
    rw [row_fresh hQ k a (by omega) _ (by omega), hQ1]
  have hrow' : ∀ k j : ℤ, 1 ≤ k → k < N → k ≤ j → j ≤ N → |(Q k (k + 1) j).1| ≤ G := by
    intro k j a b c d
    rw [hfresh k j a b c d]
    exact (hM _ _ (by omega) (by omega) (by omega) d (by omega)).trans hMG
  have hpG : ∀ k j : ℤ, 1 ≤ k → k < N → k ≤ j → j ≤ N → |(Q k (pivot (Q k) k) j).1| ≤ G := by
    intro k j a b c d
    rcases pivot_or (Q k) k with e | e <;> rw [e]
    · exact hrow k j a c d
    · exact hrow' k j a b c d
  have hqG : ∀ k j : ℤ, 1 ≤ k → k < N → k ≤ j → j ≤ N →
      |(Q k (2 * k + 1 - pivot (Q k) k) j).1| ≤ G := by
    intro k j a b c d
    rcases pivot_or (Q k) k with e | e <;> rw [e]
    · rw [show 2 * k + 1 - k = k + 1 by ring]; exact hrow' k j a b c d
    · rw [show 2 * k + 1 - (k + 1) = k by ring]; exact hrow k j a c d
  -- the triangular system
  have hYn : fwd s.A s.ip ((N : ℤ) - 1).toNat B = Y s.A s.ip B N := rfl
  rw [hYn]
  generalize hx : bwd s.A N (N : ℤ).toNat (Y s.A s.ip B N) = x
  obtain ⟨X, hX⟩ : ∃ X : ℝ, X = ∑ j ∈ Icc (1 : ℤ) N, |(x j).1| := ⟨_, rfl⟩
  rw [← hX]
  have hX0 : 0 ≤ X := by rw [hX]; exact sum_nonneg fun _ _ => abs_nonneg _
  have hGX : 0 ≤ G * X := mul_nonneg hG0 hX0
  obtain ⟨T, hT⟩ : ∃ T : ℝ, T = 9 / 4 * N * F.eps * (G * X) := ⟨_, rfl⟩
  have hT0 : 0 ≤ T := by rw [hT]; positivity
  have hXk : ∀ k : ℤ, 1 ≤ k → ∑ j ∈ Icc k (N : ℤ), |(x j).1| ≤ X := by
    intro k a
    rw [hX]
    exact sum_le_of_sub (f := fun j => |(x j).1|) (fun _ => abs_nonneg _) a le_rfl
  have tri : ∀ i : ℤ, 1 ≤ i → i ≤ N → s.A i i ≠ 0 → (∀ j, i ≤ j → j ≤ N → |(s.A i j).1| ≤ G) →
      |(Y s.A s.ip B N i).1 - ∑ j ∈ Icc i (N : ℤ), (s.A i j).1 * (x j).1| ≤ T := by
    intro i a b c d
    have := tri_err s.A N (Y s.A s.ip B N) (N := N) rfl hu1 hu a b hG0 c d (X := X)
      (by rw [hx, ← hX])
    rw [hx] at this
    rw [hT]; exact this
  have tn : |(Y s.A s.ip B N N).1 - ∑ j ∈ Icc (N : ℤ) N, (Q N N j).1 * (x j).1| ≤ T := by
    rw [hQn]
    exact tri N hn le_rfl hnn (fun j a b => by rw [← hQn]; exact hrow N j hn a b)
  have tk : ∀ k : ℤ, 1 ≤ k → k < N →
      |(Y s.A s.ip B k (pivot (Q k) k)).1 -
        ∑ j ∈ Icc k (N : ℤ), (Q k (pivot (Q k) k) j).1 * (x j).1| ≤ T := by
    intro k a b
    have hU : ∀ j, k ≤ j → j ≤ N → s.A k j = Q k (pivot (Q k) k) j :=
      fun j c d => U_row hQn hQ a b c d
    have := tri k a b.le (by rw [hU k le_rfl b.le]; exact (hQ k a b).1)
      (fun j c d => by rw [hU j c d]; exact hpG k j a b c d)
    rw [Y_final _ _ _ k a N (by omega), (hQ k a b).2.1] at this
    refine le_trans (le_of_eq ?_) this
    congr 2
    refine sum_congr rfl fun j hj => ?_
    rw [mem_Icc] at hj
    rw [hU j hj.1 hj.2]
  -- one step
  obtain ⟨C, hC⟩ : ∃ C : ℝ, C = 11 / 10 * T + 7 * F.eps * (G * X) := ⟨_, rfl⟩
  have hTC : T ≤ C := by
    rw [hC]
    have : 0 ≤ 7 * F.eps * (G * X) := by positivity
    linarith
  have hC0 : 0 ≤ C := hT0.trans hTC
  obtain ⟨ρ, hρ⟩ : ∃ ρ : ℤ → ℝ, ∀ k, ρ k =
      |(Y s.A s.ip B k k).1 - ∑ j ∈ Icc k (N : ℤ), (Q k k j).1 * (x j).1| := ⟨_, fun _ => rfl⟩
  have hρ0 : ∀ k, 0 ≤ ρ k := fun k => by rw [hρ]; exact abs_nonneg _
  have stage : ∀ k : ℤ, 1 ≤ k → k < N →
      |(Y s.A s.ip B k (2 * k + 1 - pivot (Q k) k)).1 -
        ∑ j ∈ Icc k (N : ℤ), (Q k (2 * k + 1 - pivot (Q k) k) j).1 * (x j).1| ≤
      (1 + 17 / 16 * F.eps) * ρ (k + 1) + C := by
    intro k a b
    have st := step_k hQn hQ B a b
    have := stage_err hu1 b.le (x := fun j => (x j).1) hG0 st.piv st.le st.mult st.comb st.rhs
      (fun j c d => hpG k j a b c d) (hqG k k a b le_rfl b.le)
      (fun j c d => hrow (k + 1) j (by omega) (by omega) d) (hXk k a) (tk k a b)
      (R := ρ (k + 1)) (by rw [hρ])
    rw [hC]
    linarith
  have both : ∀ k : ℤ, 1 ≤ k → k < N →
      ρ k ≤ (1 + 17 / 16 * F.eps) * ρ (k + 1) + C ∧
      |(B (k + 1)).1 - ∑ j ∈ Icc k (N : ℤ), (A (k + 1) j).1 * (x j).1| ≤
        (1 + 17 / 16 * F.eps) * ρ (k + 1) + C := by
    intro k a b
    have h1 := stage k a b
    have h2 := (tk k a b).trans hTC
    have h3 : 0 ≤ (1 + 17 / 16 * F.eps) * ρ (k + 1) := mul_nonneg (by positivity) (hρ0 _)
    have h4 : ∑ j ∈ Icc k (N : ℤ), (A (k + 1) j).1 * (x j).1 =
        ∑ j ∈ Icc k (N : ℤ), (Q k (k + 1) j).1 * (x j).1 := by
      refine sum_congr rfl fun j hj => ?_
      rw [mem_Icc] at hj
      rw [hfresh k j a b hj.1 hj.2]
    rw [h4, ← Y_fresh s.A s.ip B k a (k + 1) (by omega), hρ k]
    rcases pivot_or (Q k) k with e | e <;> rw [e] at h1 h2
    · rw [show 2 * k + 1 - k = k + 1 by ring] at h1
      exact ⟨by linarith, h1⟩
    · rw [show 2 * k + 1 - (k + 1) = k by ring] at h1
      exact ⟨h1, by linarith⟩
  -- all steps
  have hE : ∀ m : ℕ, m + 1 ≤ N →
      ρ (N - m) ≤ (1 + 17 / 16 * F.eps) ^ m * (((m : ℝ) + 1) * C) := by
    intro m hm
    refine grow (N := N - 1) (e := fun m : ℕ => ρ (N - m)) (by positivity) hC0 ?_ ?_ (by omega)
    · simp only [Nat.cast_zero, sub_zero]
      rw [hρ]; exact tn.trans hTC
    · intro q hq
      have := (both (N - q - 1) (by omega) (by omega)).1
      rw [show (N : ℤ) - q - 1 + 1 = N - q by ring] at this
      simp only [Nat.cast_add, Nat.cast_one]
      rwa [show (N : ℤ) - (q + 1) = N - q - 1 by ring]
  have hpow : ∀ m : ℕ, m ≤ N → (1 + 17 / 16 * F.eps) ^ m ≤ 512 / 495 := by
    intro m hm
    have := pow_bound (v := 17 / 16 * F.eps) (by positivity) m (t := 17 / 512) (by
      have : (m : ℝ) ≤ N := by exact_mod_cast hm
      nlinarith) (by norm_num)
    exact this.trans (by norm_num)
  have hbound : ∀ m : ℕ, m + 1 ≤ N → (1 + 17 / 16 * F.eps) ^ m * (((m : ℝ) + 1) * C) ≤
      3 * N ^ 2 * (N + 3) * F.eps * M * X := by
    intro m hm
    have hm' : (m : ℝ) + 1 ≤ N := by exact_mod_cast hm
    have hMX : 0 ≤ F.eps * M * X := by positivity
    calc _ ≤ 512 / 495 * (N * C) := by
          refine mul_le_mul (hpow m (by omega)) ?_ (by positivity) (by norm_num)
          exact mul_le_mul_of_nonneg_right hm' hC0
      _ = (512 / 495 * (8 / 7) * (11 / 10 * (9 / 4) * N ^ 3 + 7 * N ^ 2)) * (F.eps * M * X) := by
          rw [hC, hT, hG]; ring
      _ ≤ (3 * N ^ 2 * (N + 3)) * (F.eps * M * X) := by
          refine mul_le_mul_of_nonneg_right ?_ hMX
          have h3 : (0 : ℝ) ≤ N ^ 3 := by positivity
          have h2 : (0 : ℝ) ≤ N ^ 2 := by positivity
          nlinarith
      _ = _ := by ring
  intro i hi1 hiN
  by_cases e : i = 1
  · subst e
    rw [sum_hess A (fun j => (x j).1) le_rfl (.inl ⟨rfl, rfl⟩)]
    have h1 := (hE (N - 1) (by omega)).trans (hbound (N - 1) (by omega))
    rw [show (N : ℤ) - ((N - 1 : ℕ) : ℤ) = 1 by omega, hρ, hQ1] at h1
    exact h1
  · obtain ⟨k, rfl⟩ : ∃ k, i = k + 1 := ⟨i - 1, by ring⟩
    rw [sum_hess A (fun j => (x j).1) (a := k) (by omega) (.inr rfl)]
    obtain ⟨m, hm⟩ : ∃ m : ℕ, k + 1 = (N : ℤ) - m := ⟨(N - (k + 1)).toNat, by omega⟩
    have h1 := (both k (by omega) (by omega)).2
    have h2 := hE m (by omega)
    rw [← hm] at h2
    refine h1.trans (le_trans ?_ (hbound (m + 1) (by omega)))
    have h3 : (1 + 17 / 16 * F.eps) * ρ (k + 1) ≤ (1 + 17 / 16 * F.eps) *
        ((1 + 17 / 16 * F.eps) ^ m * (((m : ℝ) + 1) * C)) :=
      mul_le_mul_of_nonneg_left h2 (by positivity)
    have h4 : C ≤ (1 + 17 / 16 * F.eps) ^ (m + 1) * C :=
      le_mul_of_one_le_left hC0 (one_le_pow₀ (by have : 0 ≤ 17 / 16 * F.eps := by positivity
                                                 linarith))
    calc _ ≤ (1 + 17 / 16 * F.eps) * ((1 + 17 / 16 * F.eps) ^ m * (((m : ℝ) + 1) * C)) +
          (1 + 17 / 16 * F.eps) ^ (m + 1) * C := add_le_add h3 h4
      _ = _ := by push_cast; ring

/-- **C111** the computed solution is the exact solution of a system whose coefficients differ from
those given by at most `3 n² (n+3)` units of rounding times the largest of them. -/
theorem dech_solh_float {N : ℕ} (hN : 1 ≤ N) (hu : N * F.eps ≤ 1 / 32)
    {A : ℤ → ℤ → F.T} {ip : ℤ → ℤ} {B : ℤ → F.T} {M : ℝ}
    (hM : ∀ i j : ℤ, 1 ≤ i → i ≤ N → 1 ≤ j → j ≤ N → i ≤ j + 1 → |(A i j).1| ≤ M)
    {s : St F.T} (hs : dech N A ip = some s) (hret : s.ret = 0) :
    ∃ (x : ℤ → F.T) (E : ℤ → ℤ → ℝ), solh N s.A s.ip B = some x ∧
      (∀ i j, |E i j| ≤ 3 * N ^ 2 * (N + 3) * F.eps * M) ∧
      ∀ i : ℤ, 1 ≤ i → i ≤ N →
        ∑ j ∈ Icc (1 : ℤ) N, (hess A i j + E i j) * (x j).1 = (B i).1 := by
  obtain ⟨x, h1, h2⟩ := dech_solh_float_residual hN hu (B := B) hM hs hret
  have h0 := F.eps_pos
  have hn : (1 : ℤ) ≤ N := by exact_mod_cast hN
  have hM0 : 0 ≤ M := (abs_nonneg _).trans (hM 1 1 le_rfl hn le_rfl hn (by norm_num))
  generalize hW : 3 * (N : ℝ) ^ 2 * (N + 3) * F.eps * M = W at h2
  have hW0 : 0 ≤ W := by rw [← hW]; positivity
  generalize hX : ∑ j ∈ Icc (1 : ℤ) N, |(x j).1| = X at h2
  have hX0 : 0 ≤ X := by rw [← hX]; exact sum_nonneg fun _ _ => abs_nonneg _
  rcases hX0.eq_or_lt with e | hXp
  · have hx : ∀ j : ℤ, 1 ≤ j → j ≤ N → (x j).1 = 0 := by
      intro j a b
      rw [← e] at hX
      exact abs_eq_zero.1 ((sum_eq_zero_iff_of_nonneg fun _ _ => abs_nonneg _).1 hX j
        (mem_Icc.2 ⟨a, b⟩))
    refine ⟨x, fun _ _ => 0, h1, fun i j => by simpa using hW0, fun i a b => ?_⟩
    have h3 := h2 i a b
    rw [← e, mul_zero] at h3
    have h4 := abs_eq_zero.1 (le_antisymm h3 (abs_nonneg _))
    simp only [add_zero]; linarith
  · refine ⟨x, fun i j => if 1 ≤ i ∧ i ≤ N then
      ((B i).1 - ∑ j ∈ Icc (1 : ℤ) N, hess A i j * (x j).1) / X * SignType.sign (x j).1 else 0,
      h1, fun i j => ?_, fun i a b => ?_⟩
    · beta_reduce
      split_ifs with hi
      · have h3 := h2 i hi.1 hi.2
        have hs : |((SignType.sign (x j).1 : SignType) : ℝ)| ≤ 1 := by
          rcases lt_trichotomy (x j).1 0 with h | h | h
          · simp [sign_neg h]
          · simp [h]
          · simp [sign_pos h]
        rw [abs_mul, abs_div, abs_of_pos hXp]
        calc _ ≤ W * X / X * 1 := by gcongr
          _ = W := by field_simp
      · simpa using hW0
    · have h3 : ∀ j ∈ Icc (1 : ℤ) N, (hess A i j + (if 1 ≤ i ∧ i ≤ (N : ℤ) then
          ((B i).1 - ∑ j ∈ Icc (1 : ℤ) N, hess A i j * (x j).1) / X * SignType.sign (x j).1 else 0)) *
          (x j).1 = hess A i j * (x j).1 +
            ((B i).1 - ∑ j ∈ Icc (1 : ℤ) N, hess A i j * (x j).1) / X * |(x j).1| := by
        intro j _
        rw [if_pos ⟨a, b⟩, add_mul, mul_assoc, sign_mul_self]
      rw [sum_congr rfl h3, sum_add_distrib, ← mul_sum, hX]
      field_simp
      ring

/-- **C111** error of the computed solution, for a matrix with inverse `V`. -/
theorem dech_solh_float_error {N : ℕ} (hN : 1 ≤ N) (hu : N * F.eps ≤ 1 / 32)
    {A : ℤ → ℤ → F.T} {ip : ℤ → ℤ} {B : ℤ → F.T} {M : ℝ}
    (hM : ∀ i j : ℤ, 1 ≤ i → i ≤ N → 1 ≤ j → j ≤ N → i ≤ j + 1 → |(A i j).1| ≤ M)
    {s : St F.T} (hs : dech N A ip = some s) (hret : s.ret = 0) {V : ℤ → ℤ → ℝ}
    (hV : ∀ i j : ℤ, 1 ≤ i → i ≤ N → 1 ≤ j → j ≤ N →
      ∑ k ∈ Icc (1 : ℤ) N, V i k * hess A k j = if i = j then 1 else 0)
    {z : ℤ → ℝ} (hz : ∀ i : ℤ, 1 ≤ i → i ≤ N →
      ∑ j ∈ Icc (1 : ℤ) N, hess A i j * z j = (B i).1) :
    ∃ x, solh N s.A s.ip B = some x ∧ ∀ i : ℤ, 1 ≤ i → i ≤ N →
      |(x i).1 - z i| ≤ (∑ k ∈ Icc (1 : ℤ) N, |V i k|) *
        (3 * N ^ 2 * (N + 3) * F.eps * M * ∑ j ∈ Icc (1 : ℤ) N, |(x j).1|) := by
  obtain ⟨x, h1, h2⟩ := dech_solh_float_residual hN hu (B := B) hM hs hret
  refine ⟨x, h1, fun i a b => ?_⟩
  generalize 3 * (N : ℝ) ^ 2 * (N + 3) * F.eps * M * ∑ j ∈ Icc (1 : ℤ) N, |(x j).1| = W at h2
  have hd : ∑ k ∈ Icc (1 : ℤ) N, V i k * (∑ j ∈ Icc (1 : ℤ) N, hess A k j * (x j).1 - (B k).1) =
      (x i).1 - z i := by
    have e1 : ∀ k ∈ Icc (1 : ℤ) N, V i k * (∑ j ∈ Icc (1 : ℤ) N, hess A k j * (x j).1 - (B k).1) =
        ∑ j ∈ Icc (1 : ℤ) N, V i k * hess A k j * ((x j).1 - z j) := by
      intro k hk
      rw [mem_Icc] at hk
      rw [← hz k hk.1 hk.2, ← sum_sub_distrib, mul_sum]
      exact sum_congr rfl fun j _ => by ring
    rw [sum_congr rfl e1, sum_comm]
    have e2 : ∀ j ∈ Icc (1 : ℤ) N, ∑ k ∈ Icc (1 : ℤ) N, V i k * hess A k j * ((x j).1 - z j) =
        if i = j then (x j).1 - z j else 0 := by
      intro j hj
      rw [mem_Icc] at hj
      rw [← sum_mul, hV i j a b hj.1 hj.2]
      split_ifs <;> ring
    rw [sum_congr rfl e2, sum_ite_eq, if_pos (mem_Icc.2 ⟨a, b⟩)]
  rw [← hd]
  refine (abs_sum_le_sum_abs _ _).trans ?_
  rw [sum_mul]
  refine sum_le_sum fun k hk => ?_
  rw [mem_Icc] at hk
  rw [abs_mul, abs_sub_comm]
  exact mul_le_mul_of_nonneg_left (h2 k hk.1 hk.2) (abs_nonneg _)

/-! ### the hypotheses are met -/

/-- `(1 1; 1 0)`, which needs one elimination. -/
def exM (F : FP) (i j : ℤ) : F.T := if i = 2 ∧ j = 2 then 0 else 1

theorem exM_ret (ip : ℤ → ℤ) : ∃ s, dech 2 (exM F) ip = some s ∧ s.ret = 0 := by
  obtain ⟨s, h1, -, h2⟩ := dech_chain add_mul_zero (n := 2) (by norm_num) (exM F) ip
  refine ⟨s, h1, ?_⟩
  by_contra h
  obtain ⟨k, A', ip', hk, hk2, ⟨Q, q1, q2, q3⟩, h3⟩ := h2 h
  have one : (1 : F.T) ≠ 0 := fun e => one_ne_zero (congrArg Subtype.val e : (1 : ℝ) = 0)
  have p1 : pivot (exM F) 1 = 1 := by
    unfold pivot
    rw [if_neg]
    simp [exM, lt_val]
  rcases (show k = 1 ∨ k = 2 by omega) with e | e
  · subst e
    rw [q1] at q2
    rw [if_neg (by norm_num), ← q2, p1] at h3
    exact one (by simpa [exM] using h3)
  · subst e
    obtain ⟨-, -, g⟩ := q3 1 le_rfl (by norm_num)
    rw [q1, p1] at g
    rw [if_pos rfl, ← q2, show (2 : ℤ) = 1 + 1 by norm_num, g, elim_other (by norm_num) (by norm_num)] at h3
    have h4 := congrArg Subtype.val h3
    have r1 : F.rnd (-1) = -1 := F.rn.exact (Flt.one F.hp).neg
    simp only [exM] at h4
    norm_num at h4
    rw [fma_val, FP.mul_val, div_val, neg_val, FP.one_val, FP.zero_val] at h4
    norm_num [r1] at h4

/-- the result for this matrix, in every format with at least 6 bits. -/
example (hp : 6 ≤ F.p) (ip : ℤ → ℤ) (B : ℤ → F.T) :
    ∃ (s : St F.T) (x : ℤ → F.T) (E : ℤ → ℤ → ℝ), dech 2 (exM F) ip = some s ∧
    solh 2 s.A s.ip B = some x ∧ (∀ i j, |E i j| ≤ 60 * F.eps) ∧
    ∀ i : ℤ, 1 ≤ i → i ≤ 2 →
      ∑ j ∈ Icc (1 : ℤ) 2, (hess (exM F) i j + E i j) * (x j).1 = (B i).1 := by
  obtain ⟨s, h1, h2⟩ := exM_ret (F := F) ip
  have hu : ((2 : ℕ) : ℝ) * F.eps ≤ 1 / 32 := by
    unfold FP.eps
    have : (2 : ℝ) ^ 6 ≤ 2 ^ F.p := pow_le_pow_right₀ (by norm_num) hp
    have h3 := one_div_le_one_div_of_le (by norm_num) this
    norm_num at h3 ⊢; linarith
  obtain ⟨x, E, g1, g2, g3⟩ := dech_solh_float (N := 2) (by norm_num) hu (B := B) (M := 1)
    (fun i j _ _ _ _ _ => by
      unfold exM; split_ifs
      · rw [FP.zero_val]; simp
      · rw [FP.one_val]; simp) h1 h2
  exact ⟨s, x, E, h1, g1, fun i j => (g2 i j).trans_eq (by push_cast; ring), g3⟩

end Odes.Hess
