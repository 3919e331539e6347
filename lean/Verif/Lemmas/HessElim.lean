import Verif.Lemmas.Mem
import Mathlib.Algebra.BigOperators.Intervals
import Mathlib.Algebra.BigOperators.Ring.Finset
import Mathlib.Data.Int.Interval
import Mathlib.Tactic.FieldSimp
import Mathlib.Algebra.Field.Basic

/-! Abstract elimination on Hessenberg matrices over a field. -/

namespace Odes.Hess

variable {K : Type} [Field K]

/-- row sums `(U x)_i` over `[1,n]` -/
def S (n : ℤ) (U : ℤ → ℤ → K) (x : ℤ → K) (i : ℤ) : K := ∑ j ∈ Finset.Icc 1 n, U i j * x j

/-- what is left to eliminate before step `k`: columns `< k` are triangular, the others
Hessenberg. -/
def maskU (k : ℤ) (A : ℤ → ℤ → K) (i j : ℤ) : K := if i ≤ j ∨ (k ≤ j ∧ i = j + 1) then A i j else 0

/-- exchange rows `k` and `m`, then row `k+1` += `c` * row `k`; `m` is `k` or `k+1`. -/
def rho {K : Type} [Add K] [Mul K] (k m : ℤ) (c : K) (f : ℤ → K) (i : ℤ) : K :=
  if i = k then f m else if i = k + 1 then f (2 * k + 1 - m) + c * f m else f i

/-- one elimination step, multipliers stored below the diagonal. -/
def elim {K : Type} [One K] [Add K] [Neg K] [Mul K] [Div K] (n k m : ℤ) (A : ℤ → ℤ → K) (i j : ℤ) : K :=
  if j = k then
    if i = k then A m k
    else if i = k + 1 then A (2 * k + 1 - m) k * (-1 / A m k) else A i k
  else if k < j ∧ j ≤ n then rho k m (A (2 * k + 1 - m) k * (-1 / A m k)) (fun i => A i j) i
  else A i j

/-- the row operations of the first `k` steps, as `solh` replays them. -/
def fwd {K : Type} [Add K] [Mul K] (A : ℤ → ℤ → K) (ip : ℤ → ℤ) : ℕ → (ℤ → K) → ℤ → K
  | 0, b => b
  | k + 1, b => rho (k + 1) (ip k) (A (k + 2) (k + 1)) (fwd A ip k b)

/-- invariant before step `k`. -/
structure Factored (n k : ℤ) (H A : ℤ → ℤ → K) (ip : ℤ → ℤ) : Prop where
  diag : ∀ j, 1 ≤ j → j < k → A j j ≠ 0
  piv : ∀ j, 1 ≤ j → j < k → ip (j - 1) = j ∨ ip (j - 1) = j + 1
  sol : ∀ x b, (∀ i, 1 ≤ i → i ≤ n → S n (maskU k A) x i = fwd A ip (k - 1).toNat b i) ↔
    ∀ i, 1 ≤ i → i ≤ n → S n H x i = b i

theorem S_rho (n k m : ℤ) (c : K) (U : ℤ → ℤ → K) (x : ℤ → K) (i : ℤ) :
    S n (fun i j => rho k m c (fun i => U i j) i) x i = rho k m c (S n U x) i := by
  unfold S rho
  by_cases h1 : i = k
  · simp [h1]
  · by_cases h2 : i = k + 1
    · simp only [h2, if_true]
      rw [if_neg (by omega), Finset.mul_sum, ← Finset.sum_add_distrib]
      refine Finset.sum_congr rfl fun j _ => ?_
      rw [if_neg (by omega)]
      ring
    · simp [h1, h2]

theorem mask_elim {n k m : ℤ} (hm : m = k ∨ m = k + 1) (A : ℤ → ℤ → K) (hp : A m k ≠ 0)
    (i j : ℤ) (hj : j ≤ n) :
    maskU (k + 1) (elim n k m A) i j =
      rho k m (A (2 * k + 1 - m) k * (-1 / A m k)) (fun i => maskU k A i j) i := by
  rcases lt_trichotomy j k with h | h | h
  · -- columns already triangular
    have e : ∀ i, elim n k m A i j = A i j := by
      intro i; unfold elim; rw [if_neg (by omega), if_neg (by omega)]
    unfold rho
    by_cases h1 : i = k
    · rw [if_pos h1]
      unfold maskU
      beta_reduce
      rw [if_neg (by omega), if_neg (by omega)]
    · rw [if_neg h1]
      by_cases h2 : i = k + 1
      · rw [if_pos h2]
        unfold maskU
        beta_reduce
        rw [if_neg (by omega), if_neg (by omega), if_neg (by omega)]; ring
      · rw [if_neg h2]
        unfold maskU
        beta_reduce
        rw [e]
        by_cases h3 : i ≤ j
        · rw [if_pos (by omega), if_pos (by omega)]
        · rw [if_neg (by omega), if_neg (by omega)]
  · subst h
    unfold rho
    by_cases h1 : i = j
    · subst h1
      unfold maskU elim
      beta_reduce
      rw [if_pos (by omega), if_pos rfl, if_pos rfl, if_pos rfl, if_pos (by omega)]
    · rw [if_neg h1]
      by_cases h2 : i = j + 1
      · subst h2
        unfold maskU elim
        beta_reduce
        rw [if_neg (by omega), if_pos rfl, if_pos (by omega), if_pos (by omega)]
        field_simp; ring
      · rw [if_neg h2]
        unfold maskU elim
        beta_reduce
        by_cases h3 : i ≤ j
        · rw [if_pos (by omega), if_pos rfl, if_neg h1, if_neg h2, if_pos (by omega)]
        · rw [if_neg (by omega), if_neg (by omega)]
  · have e : ∀ i, elim n k m A i j =
        rho k m (A (2 * k + 1 - m) k * (-1 / A m k)) (fun i => A i j) i := by
      intro i; unfold elim; rw [if_neg (by omega), if_pos ⟨h, hj⟩]
    unfold maskU
    beta_reduce
    simp only [e]
    unfold rho
    beta_reduce
    by_cases h1 : i = k
    · rw [if_pos (by omega), if_pos h1, if_pos h1, if_pos (by omega)]
    · rw [if_neg h1, if_neg h1]
      by_cases h2 : i = k + 1
      · rw [if_pos h2, if_pos h2, if_pos (by omega), if_pos (by omega), if_pos (by omega)]
      · rw [if_neg h2, if_neg h2]
        by_cases h3 : i ≤ j + 1
        · rw [if_pos (by omega), if_pos (by omega)]
        · rw [if_neg (by omega), if_neg (by omega)]

theorem rho_eq_iff {n k m : ℤ} (hk : 1 ≤ k) (hkn : k < n) (hm : m = k ∨ m = k + 1) (c : K)
    (f g : ℤ → K) :
    (∀ i, 1 ≤ i → i ≤ n → rho k m c f i = rho k m c g i) ↔ ∀ i, 1 ≤ i → i ≤ n → f i = g i := by
  constructor
  · intro h
    have h1 := h k hk (by omega)
    have h2 := h (k + 1) (by omega) (by omega)
    unfold rho at h1 h2
    rw [if_pos rfl, if_pos rfl] at h1
    have ek : k + 1 ≠ k := by omega
    rw [if_neg ek, if_neg ek, if_pos rfl, if_pos rfl, h1] at h2
    have h3 := add_right_cancel h2
    intro i a b
    by_cases e1 : i = m
    · rw [e1]; exact h1
    · by_cases e2 : i = 2 * k + 1 - m
      · rw [e2]; exact h3
      · have := h i a b
        unfold rho at this
        rwa [if_neg (by omega), if_neg (by omega), if_neg (by omega), if_neg (by omega)] at this
  · intro h i a b
    unfold rho
    rw [h m (by omega) (by omega), h (2 * k + 1 - m) (by omega) (by omega), h i a b]

theorem fwd_congr {A A' : ℤ → ℤ → K} {ip ip' : ℤ → ℤ} (k : ℕ)
    (hA : ∀ j : ℤ, 1 ≤ j → j ≤ k → A (j + 1) j = A' (j + 1) j)
    (hip : ∀ j : ℤ, 0 ≤ j → j < k → ip j = ip' j) (b : ℤ → K) : fwd A ip k b = fwd A' ip' k b := by
  induction k with
  | zero => rfl
  | succ k ih =>
    rw [fwd, fwd, ih (fun j a b => hA j a (by push_cast; omega))
      (fun j a b => hip j a (by push_cast; omega)), hip k (by omega) (by push_cast; omega)]
    have := hA (k + 1) (by omega) (by push_cast; omega)
    rw [show (k : ℤ) + 1 + 1 = k + 2 by ring] at this
    rw [this]

theorem fwd_zero (A : ℤ → ℤ → K) (ip : ℤ → ℤ) (k : ℕ) : fwd A ip k (fun _ => 0) = fun _ => 0 := by
  induction k with
  | zero => rfl
  | succ k ih =>
    rw [fwd, ih]
    funext i
    unfold rho
    split_ifs <;> simp

theorem Factored.init {n : ℤ} (A : ℤ → ℤ → K) (ip : ℤ → ℤ) : Factored n 1 (maskU 1 A) A ip where
  diag := fun j a b => by omega
  piv := fun j a b => by omega
  sol := fun x b => by simp [fwd]

/-- the elimination step keeps the invariant. -/
theorem Factored.step {n k m : ℤ} {H A A' : ℤ → ℤ → K} {ip ip' : ℤ → ℤ} (hF : Factored n k H A ip)
    (hk : 1 ≤ k) (hkn : k < n) (hm : m = k ∨ m = k + 1) (hp : A m k ≠ 0)
    (hA' : ∀ i j, A' i j = elim n k m A i j) (hip : ∀ j, 0 ≤ j → j < k - 1 → ip' j = ip j)
    (hipm : ip' (k - 1) = m) : Factored n (k + 1) H A' ip' where
  diag := by
    intro j a b
    rw [hA']
    unfold elim
    by_cases e : j = k
    · rw [if_pos e, if_pos e]; exact hp
    · rw [if_neg e, if_neg (by omega)]; exact hF.diag j a (by omega)
  piv := by
    intro j a b
    by_cases e : j = k
    · rw [e, hipm]; exact hm
    · rw [hip _ (by omega) (by omega)]; exact hF.piv j a (by omega)
  sol := by
    intro x b
    rw [← hF.sol x b]
    obtain ⟨K', hK⟩ : ∃ K' : ℕ, (k - 1).toNat = K' ∧ (k + 1 - 1).toNat = K' + 1 ∧ (K' : ℤ) = k - 1 :=
      ⟨(k - 1).toNat, by omega⟩
    rw [hK.1, hK.2.1, fwd]
    have e1 : fwd A' ip' K' b = fwd A ip K' b := by
      apply fwd_congr
      · intro j a c
        rw [hA']; unfold elim; rw [if_neg (by omega), if_neg (by omega)]
      · intro j a c; exact hip j a (by omega)
    have e2 : A' ((K' : ℤ) + 2) (K' + 1) = A (2 * k + 1 - m) k * (-1 / A m k) := by
      rw [hA']; unfold elim
      rw [if_pos (by omega), if_neg (by omega), if_pos (by omega)]
    have e3 : ip' K' = m := by rw [hK.2.2, hipm]
    have e4 : (K' : ℤ) + 1 = k := by omega
    rw [e1, e2, e3, e4]
    refine Iff.trans ?_ (rho_eq_iff hk hkn hm (A (2 * k + 1 - m) k * (-1 / A m k)) _ _)
    have : ∀ i, S n (maskU (k + 1) A') x i =
        rho k m (A (2 * k + 1 - m) k * (-1 / A m k)) (S n (maskU k A) x) i := by
      intro i
      rw [← S_rho]
      unfold S
      refine Finset.sum_congr rfl fun j hj => ?_
      rw [Finset.mem_Icc] at hj
      congr 1
      have hAA : A' = elim n k m A := by funext i j; exact hA' i j
      rw [hAA]
      exact mask_elim hm A hp i j hj.2
    exact forall_congr' fun i => by rw [this i]

theorem S_update {n : ℤ} (U : ℤ → ℤ → K) (x : ℤ → K) (r : ℤ) (hr : 1 ≤ r) (hr' : r ≤ n) (v : K)
    (i : ℤ) : S n U (Function.update x r v) i = S n U x i + U i r * (v - x r) := by
  unfold S
  rw [← Finset.add_sum_erase _ _ (Finset.mem_Icc.2 ⟨hr, hr'⟩),
    ← Finset.add_sum_erase (Finset.Icc 1 n) (fun j => U i j * x j) (Finset.mem_Icc.2 ⟨hr, hr'⟩)]
  rw [Function.update_self]
  have : ∑ j ∈ (Finset.Icc 1 n).erase r, U i j * Function.update x r v j =
      ∑ j ∈ (Finset.Icc 1 n).erase r, U i j * x j := by
    refine Finset.sum_congr rfl fun j hj => ?_
    rw [Function.update_of_ne (Finset.ne_of_mem_erase hj)]
  rw [this]; ring

/-- a vanishing pivot gives a kernel vector. -/
theorem Factored.singular {n k : ℤ} {H A : ℤ → ℤ → K} {ip : ℤ → ℤ} (hF : Factored n k H A ip)
    (hk : 1 ≤ k) (hkn : k ≤ n) (h0 : A k k = 0) (h1 : k < n → A (k + 1) k = 0) :
    ∃ x : ℤ → K, x k = 1 ∧ ∀ i, 1 ≤ i → i ≤ n → S n H x i = 0 := by
  have key : ∀ d : ℕ, (d : ℤ) ≤ k - 1 → ∃ x : ℤ → K, x k = 1 ∧ (∀ j, j ≤ k - 1 - d → x j = 0) ∧
      ∀ i, k - 1 - d < i → i ≤ n → S n (maskU k A) x i = 0 := by
    intro d
    induction d with
    | zero =>
      intro _
      refine ⟨Function.update (fun _ => 0) k 1, Function.update_self .., ?_, ?_⟩
      · intro j hj; rw [Function.update_of_ne (by push_cast at hj; omega)]
      · intro i hi hi'
        rw [S_update _ _ _ hk hkn]
        have : S n (maskU k A) (fun _ => 0) i = 0 := by simp [S]
        rw [this]
        have : maskU k A i k = 0 := by
          unfold maskU
          split_ifs with h
          · push_cast at hi
            rcases h with h | h
            · have : i = k := by omega
              rw [this, h0]
            · rw [h.2, h1 (by omega)]
          · rfl
        rw [this]; ring
    | succ d ih =>
      intro hd
      push_cast at hd
      obtain ⟨x, x1, x2, x3⟩ := ih (by omega)
      have hr : A (k - 1 - d) (k - 1 - d) ≠ 0 := hF.diag _ (by omega) (by omega)
      refine ⟨Function.update x (k - 1 - d) (-(S n (maskU k A) x (k - 1 - d)) /
        A (k - 1 - d) (k - 1 - d)), ?_, ?_, ?_⟩
      · rw [Function.update_of_ne (by omega), x1]
      · intro j hj
        push_cast at hj
        rw [Function.update_of_ne (by omega)]
        exact x2 j (by omega)
      · intro i hi hi'
        push_cast at hi
        rw [S_update _ _ _ (by omega) (by omega), x2 _ le_rfl]
        by_cases e : i = k - 1 - d
        · have : maskU k A i (k - 1 - d) = A (k - 1 - d) (k - 1 - d) := by
            unfold maskU; rw [if_pos (by omega), e]
          rw [this, e]
          field_simp
          ring
        · have : maskU k A i (k - 1 - d) = 0 := by unfold maskU; rw [if_neg (by omega)]
          rw [this, x3 i (by omega) hi']; ring
  obtain ⟨x, x1, x2, x3⟩ := key (k - 1).toNat (by omega)
  refine ⟨x, x1, ?_⟩
  rw [← hF.sol x (fun _ => 0), fwd_zero]
  intro i a b
  exact x3 i (by omega) b

/-- all pivots non zero: trivial kernel. -/
theorem Factored.regular {n : ℤ} {H A : ℤ → ℤ → K} {ip : ℤ → ℤ} (hF : Factored n n H A ip)
    (hd : A n n ≠ 0) (x : ℤ → K) (hx : ∀ i, 1 ≤ i → i ≤ n → S n H x i = 0) :
    ∀ i, 1 ≤ i → i ≤ n → x i = 0 := by
  have h := (hF.sol x (fun _ => 0)).2 hx
  rw [fwd_zero] at h
  have key : ∀ d : ℕ, (d : ℤ) ≤ n → ∀ i, n - d < i → i ≤ n → 1 ≤ i → x i = 0 := by
    intro d
    induction d with
    | zero => intro _ i a b; push_cast at a; omega
    | succ d ih =>
      intro hdn i a b c
      push_cast at hdn a
      by_cases e : n - d < i
      · exact ih (by omega) i e b c
      · have e : i = n - d := by omega
        have hs := h i c b
        unfold S at hs
        rw [← Finset.add_sum_erase _ _ (Finset.mem_Icc.2 ⟨c, b⟩), Finset.sum_eq_zero] at hs
        · have hm : maskU n A i i = A i i := by unfold maskU; rw [if_pos (by omega)]
          have hi : A i i ≠ 0 := by
            by_cases e2 : i = n
            · rw [e2]; exact hd
            · exact hF.diag i c (by omega)
          rw [hm, add_zero] at hs
          exact (mul_eq_zero.1 hs).resolve_left hi
        · intro j hj
          rw [Finset.mem_erase, Finset.mem_Icc] at hj
          by_cases e3 : i < j
          · rw [ih (by omega) j (by omega) hj.2.2 hj.2.1]; ring
          · unfold maskU
            rw [if_neg (by omega)]; ring
  intro i a b
  exact key n.toNat (by omega) i (by omega) b a

/-- the triangular system in terms of the stored entries. -/
theorem S_tri {n i : ℤ} (hi : 1 ≤ i) (hin : i ≤ n) (A : ℤ → ℤ → K) (x : ℤ → K) :
    S n (maskU n A) x i = ∑ j ∈ Finset.Icc i n, A i j * x j := by
  unfold S
  symm
  apply Finset.sum_subset_zero_on_sdiff
  · intro j hj; rw [Finset.mem_Icc] at hj ⊢; omega
  · intro j hj
    rw [Finset.mem_sdiff, Finset.mem_Icc, Finset.mem_Icc] at hj
    unfold maskU; rw [if_neg (by omega)]; ring
  · intro j hj
    rw [Finset.mem_Icc] at hj
    unfold maskU; rw [if_pos (by omega)]

/-- invariant of back substitution: columns `> k` are done. -/
def Back (n k : ℤ) (A : ℤ → ℤ → K) (c B : ℤ → K) : Prop :=
  (∀ i, k < i → i ≤ n → ∑ j ∈ Finset.Icc i n, A i j * B j = c i) ∧
  ∀ i, 1 ≤ i → i ≤ k → B i + ∑ j ∈ Finset.Icc (k + 1) n, A i j * B j = c i

theorem Back.init (n : ℤ) (A : ℤ → ℤ → K) (c : ℤ → K) : Back n n A c c :=
  ⟨fun i a b => by omega, fun i a b => by simp⟩

theorem sum_Icc_left {k n : ℤ} (h : k ≤ n) (f : ℤ → K) :
    ∑ j ∈ Finset.Icc k n, f j = f k + ∑ j ∈ Finset.Icc (k + 1) n, f j := by
  rw [← Finset.add_sum_erase _ _ (Finset.mem_Icc.2 ⟨le_rfl, h⟩)]
  congr 1
  refine Finset.sum_congr ?_ fun _ _ => rfl
  ext j; rw [Finset.mem_erase, Finset.mem_Icc, Finset.mem_Icc]; omega

theorem Back.step {n k : ℤ} {A : ℤ → ℤ → K} {c B B' : ℤ → K} (h : Back n k A c B) (hk : 1 ≤ k)
    (hkn : k ≤ n) (hd : A k k ≠ 0)
    (hB : ∀ i, B' i = if i = k then B k / A k k else if 1 ≤ i ∧ i < k then
      B i + A i k * (-(B k / A k k)) else B i) : Back n (k - 1) A c B' := by
  have hB1 : ∀ i, k < i → B' i = B i := by
    intro i hi; rw [hB, if_neg (by omega), if_neg (by omega)]
  have hsum : ∀ i, ∑ j ∈ Finset.Icc (k + 1) n, A i j * B' j =
      ∑ j ∈ Finset.Icc (k + 1) n, A i j * B j := by
    intro i
    refine Finset.sum_congr rfl fun j hj => ?_
    rw [Finset.mem_Icc] at hj
    rw [hB1 j (by omega)]
  constructor
  · intro i a b
    by_cases e : i = k
    · subst e
      rw [sum_Icc_left b, hsum, hB, if_pos rfl, ← h.2 i hk le_rfl]
      field_simp
    · rw [← h.1 i (by omega) b]
      refine Finset.sum_congr rfl fun j hj => ?_
      rw [Finset.mem_Icc] at hj
      rw [hB1 j (by omega)]
  · intro i a b
    rw [show k - 1 + 1 = k by ring, sum_Icc_left hkn, hsum, hB i, if_neg (by omega),
      if_pos ⟨a, by omega⟩, hB k, if_pos rfl, ← h.2 i a (by omega)]
    ring

theorem Back.done {n : ℤ} {A : ℤ → ℤ → K} {c B : ℤ → K} (h : Back n 0 A c B) :
    ∀ i, 1 ≤ i → i ≤ n → S n (maskU n A) B i = c i := by
  intro i a b
  rw [S_tri a b]; exact h.1 i (by omega) b

end Odes.Hess
