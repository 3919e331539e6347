import Verif.Lemmas.HessComplex
import Verif.Spec.Hessenberg
import Mathlib.Tactic.LinearCombination

/-! Conversion between one-based sums and Mathlib matrices; `householder`. -/

namespace Odes.Hess

open Odes.Mem Spec

variable {K : Type}

theorem sum_fin_eq [AddCommMonoid K] (n : ℕ) (f : ℤ → K) :
    ∑ i : Fin n, f (i + 1) = ∑ i ∈ Finset.Icc (1 : ℤ) n, f i := by
  refine Finset.sum_bij' (fun i _ => ((i : ℕ) : ℤ) + 1) (fun i hi => ⟨(i - 1).toNat, ?_⟩)
    ?_ ?_ ?_ ?_ ?_
  · rw [Finset.mem_Icc] at hi; omega
  · intro i _
    have := i.2
    rw [Finset.mem_Icc]; omega
  · intro i hi; exact Finset.mem_univ _
  · intro i _; ext; simp
  · intro i hi
    rw [Finset.mem_Icc] at hi
    simp only
    omega
  · intro i _; rfl

theorem mulVec_eq_S [Field K] (n : ℕ) (A : ℤ → ℤ → K) (x : ℤ → K) (i : Fin n) :
    (mat n A).mulVec (vec n x) i = S n A x (i + 1) := by
  unfold Matrix.mulVec dotProduct mat vec S
  exact sum_fin_eq n fun j => A (i + 1) j * x j

theorem mat_mask [Field K] (n : ℕ) (A : ℤ → ℤ → K) : mat n (maskU 1 A) = hess (mat n A) := by
  funext i j
  unfold mat hess maskU
  by_cases h : (i : ℕ) ≤ j + 1
  · rw [if_pos h, if_pos (by omega)]
  · rw [if_neg h, if_neg (by omega)]

theorem forall_fin_iff (n : ℕ) (P : ℤ → Prop) :
    (∀ i : Fin n, P (i + 1)) ↔ ∀ i : ℤ, 1 ≤ i → i ≤ n → P i := by
  constructor
  · intro h i a b
    have := h ⟨(i - 1).toNat, by omega⟩
    simp only at this
    rwa [show (((i - 1).toNat : ℕ) : ℤ) + 1 = i by omega] at this
  · intro h i
    have := i.2
    exact h _ (by omega) (by omega)

theorem hess_mulVec_iff [Field K] (n : ℕ) (A : ℤ → ℤ → K) (x b : ℤ → K) :
    (hess (mat n A)).mulVec (vec n x) = vec n b ↔
      ∀ i, 1 ≤ i → i ≤ (n : ℤ) → S n (maskU 1 A) x i = b i := by
  rw [← forall_fin_iff n fun i => S n (maskU 1 A) x i = b i, ← mat_mask, funext_iff]
  refine forall_congr' fun i => ?_
  rw [mulVec_eq_S]; rfl

/-- a one-based array holding a given vector. -/
def unvec [Zero K] (n : ℕ) (v : Fin n → K) : ℤ → K := fun i =>
  if h : 1 ≤ i ∧ i ≤ n then v ⟨(i - 1).toNat, by omega⟩ else 0

theorem vec_unvec [Zero K] (n : ℕ) (v : Fin n → K) : vec n (unvec n v) = v := by
  funext i
  have := i.2
  unfold vec unvec
  rw [dif_pos ⟨by omega, by omega⟩]
  congr 1
  ext; simp

/-- `dech` and the determinant. -/
theorem det_of_cases [Field K] {n : ℕ} {A A' : ℤ → ℤ → K} {ip : ℤ → ℤ} {ret : ℤ}
    (h : (ret = 0 ∧ Factored n n (maskU 1 A) A' ip ∧ A' n n ≠ 0) ∨
       (ret ≠ 0 ∧ ∃ (k : ℤ) (x : ℤ → K), (1 ≤ k ∧ k ≤ n) ∧ x k = 1 ∧
          ∀ i, 1 ≤ i → i ≤ (n : ℤ) → S n (maskU 1 A) x i = 0)) :
    ret = 0 ↔ (hess (mat n A)).det ≠ 0 := by
  rcases h with ⟨h1, h2, h3⟩ | ⟨h1, k, x, hk, hx, hs⟩
  · refine ⟨fun _ => ?_, fun _ => h1⟩
    intro hdet
    obtain ⟨v, hv, hv0⟩ := Matrix.exists_mulVec_eq_zero_iff.2 hdet
    apply hv
    have := (hess_mulVec_iff n A (unvec n v) (fun _ => 0)).1 (by rw [vec_unvec, hv0]; rfl)
    have := h2.regular h3 _ this
    rw [← vec_unvec n v]
    funext i
    have hi := i.2
    exact this _ (by omega) (by omega)
  · refine ⟨fun h => absurd h h1, fun h => absurd ?_ h⟩
    refine Matrix.exists_mulVec_eq_zero_iff.1 ⟨vec n x, ?_, ?_⟩
    · intro h0
      have := congrFun h0 ⟨(k - 1).toNat, by omega⟩
      unfold vec at this
      simp only [Pi.zero_apply] at this
      rw [show (((k - 1).toNat : ℕ) : ℤ) + 1 = k by omega, hx] at this
      exact one_ne_zero this
    · exact (hess_mulVec_iff n A x (fun _ => 0)).2 hs

/-! ### reflectors -/

section hh

variable [Field K]

/-- reflector number `j` (one-based) as a one-based array. -/
def rv (A : ℤ → ℤ → K) (j : ℤ) : ℤ → K := fun i =>
  if i = j + 1 then 1 else if j + 1 < i then A i j else 0

theorem refl_mulVec {n : ℕ} (t : K) (v y : Fin n → K) (i : Fin n) :
    (reflector t v).mulVec y i = y i - t * v i * dotProduct v y := by
  unfold reflector
  rw [Matrix.sub_mulVec, Matrix.one_mulVec, Matrix.smul_mulVec, Matrix.vecMulVec_mulVec]
  simp
  ring

/-- the loop body applies reflector `j`. -/
theorem hhBody_spec {n : ℕ} (A : ℤ → ℤ → K) (tau : ℤ → K) {j : ℤ} (hj : 1 ≤ j) (hjn : j + 1 ≤ n)
    (Y : ℤ → K) : ∃ Y', hhBody n A tau j Y = some Y' ∧
      vec n Y' = (reflector (tau (j - 1)) (hv n A (j - 1).toNat)).mulVec (vec n Y) := by
  unfold hhBody
  rw [vget_in ⟨by omega, by omega⟩, Option.bind_some]
  obtain ⟨s, s1, s2⟩ := forUp_inv
    (P := fun i s => s = Y (j + 1) + ∑ r ∈ Finset.Icc (j + 2) (i - 1), A r j * Y r)
    (body := fun i s => (vget n Y i).bind fun y => (get n A i j).bind fun a => some (s + y * a))
    (lo := j + 2) (hi := (n : ℤ)) (s := Y (j + 1)) (by omega)
    (by rw [Finset.Icc_eq_empty (by omega), Finset.sum_empty, add_zero]) (by
      intro i s hi hi' hs
      rw [vget_in ⟨by omega, by omega⟩, Option.bind_some,
        get_in ⟨⟨by omega, by omega⟩, by omega, by omega⟩, Option.bind_some]
      refine ⟨_, rfl, ?_⟩
      rw [hs, show i + 1 - 1 = i by ring]
      have : Finset.Icc (j + 2) i = insert i (Finset.Icc (j + 2) (i - 1)) := by
        ext r; rw [Finset.mem_insert, Finset.mem_Icc, Finset.mem_Icc]; omega
      rw [this, Finset.sum_insert (by rw [Finset.mem_Icc]; omega)]
      ring)
  rw [s1, Option.bind_some, aget, if_pos ⟨by omega, by omega⟩, Option.bind_some]
  dsimp only
  rw [Option.bind_some, vset_in _ ⟨by omega, by omega⟩, Option.bind_some]
  rw [show (n : ℤ) + 1 - 1 = n by ring] at s2
  generalize hσ : s * tau (j - 1) = σ
  obtain ⟨Y', y1, y2⟩ := forUp_inv
    (P := fun i (Y' : ℤ → K) => ∀ r, Y' r =
      if j + 1 ≤ r ∧ r < i then Y r - σ * rv A j r else Y r)
    (body := fun i Y => (vget n Y i).bind fun y => (get n A i j).bind fun a =>
      vset n Y i (y - σ * a))
    (lo := j + 2) (hi := (n : ℤ)) (s := Function.update Y (j + 1) (Y (j + 1) - σ)) (by omega)
    (by
      intro r
      by_cases e : r = j + 1
      · rw [e, Function.update_self, if_pos (by omega), rv, if_pos rfl, mul_one]
      · rw [Function.update_of_ne e, if_neg (by omega)]) (by
      intro i Y1 hi hi' hY
      rw [vget_in ⟨by omega, by omega⟩, Option.bind_some,
        get_in ⟨⟨by omega, by omega⟩, by omega, by omega⟩, Option.bind_some,
        vset_in _ ⟨by omega, by omega⟩]
      refine ⟨_, rfl, ?_⟩
      intro r
      by_cases e : r = i
      · rw [e, Function.update_self, if_pos (by omega), hY, if_neg (by omega), rv,
          if_neg (by omega), if_pos (by omega)]
      · rw [Function.update_of_ne e, hY]
        by_cases e2 : j + 1 ≤ r ∧ r < i
        · rw [if_pos e2, if_pos (by omega)]
        · rw [if_neg e2, if_neg (by omega)])
  refine ⟨Y', y1, ?_⟩
  funext i
  have hi := i.2
  rw [refl_mulVec]
  have hvv : ∀ i : Fin n, hv n A (j - 1).toNat i = rv A j (i + 1) := by
    intro i
    unfold hv rv
    have e : (((j - 1).toNat : ℕ) : ℤ) + 1 = j := by omega
    by_cases h1 : (i : ℕ) = (j - 1).toNat + 1
    · rw [if_pos h1, if_pos (by omega)]
    · have h1' : ¬((i : ℕ) : ℤ) + 1 = j + 1 := by omega
      rw [if_neg h1, if_neg h1', e]
      by_cases h2 : (j - 1).toNat + 1 < (i : ℕ)
      · rw [if_pos h2, if_pos (by omega)]
      · rw [if_neg h2, if_neg (by omega)]
  have hdot : dotProduct (hv n A (j - 1).toNat) (vec n Y) = s := by
    unfold dotProduct
    simp only [hvv]
    unfold vec
    rw [sum_fin_eq n fun i => rv A j i * Y i, s2]
    have : ∑ i ∈ Finset.Icc (1 : ℤ) n, rv A j i * Y i =
        ∑ i ∈ Finset.Icc (j + 1) (n : ℤ), rv A j i * Y i := by
      symm
      apply Finset.sum_subset
      · intro r hr; rw [Finset.mem_Icc] at hr ⊢; omega
      · intro r hr hr'
        rw [Finset.mem_Icc] at hr hr'
        unfold rv
        rw [if_neg (by omega), if_neg (by omega), zero_mul]
    rw [this, sum_Icc_left (by omega), show j + 1 + 1 = j + 2 by ring]
    congr 1
    · rw [rv, if_pos rfl, one_mul]
    · refine Finset.sum_congr rfl fun r hr => ?_
      rw [Finset.mem_Icc] at hr
      rw [rv, if_neg (by omega), if_pos (by omega)]
  rw [hdot, hvv]
  unfold vec
  rw [y2, ← hσ]
  by_cases h1 : j + 1 ≤ ((i : ℕ) : ℤ) + 1
  · rw [if_pos (by omega)]; ring
  · rw [if_neg (by omega), rv, if_neg (by omega), if_neg (by omega)]; ring

theorem refl_transpose {n : ℕ} (t : K) (v : Fin n → K) : (reflector t v).transpose = reflector t v := by
  unfold reflector
  rw [Matrix.transpose_sub, Matrix.transpose_one, Matrix.transpose_smul,
    Matrix.transpose_vecMulVec]

theorem refl_zero {n : ℕ} (v : Fin n → K) : reflector 0 v = 1 := by unfold reflector; simp

theorem refl_sq {n : ℕ} {t : K} {v : Fin n → K} (h : t = 0 ∨ t * dotProduct v v = 2) :
    reflector t v * reflector t v = 1 := by
  rcases h with h | h
  · rw [h, refl_zero, one_mul]
  · unfold reflector
    rw [sub_mul, mul_sub, mul_sub, one_mul, mul_one, one_mul, Matrix.smul_mul, Matrix.mul_smul,
      Matrix.vecMulVec_mul_vecMulVec, smul_smul]
    have : (t * t) • Matrix.vecMulVec v (dotProduct v v • v) = (2 : K) • (t • Matrix.vecMulVec v v) := by
      rw [← h, Matrix.vecMulVec_smul, smul_smul, smul_smul]
      congr 1; ring
    rw [this, two_smul]
    abel

/-- product of the reflectors `a, …, a+len-1` (zero-based). -/
def P (n : ℕ) (A : ℤ → ℤ → K) (tau : ℤ → K) (a len : ℕ) : Matrix (Fin n) (Fin n) K :=
  ((List.range' a len).map fun j : ℕ => reflector (tau j) (hv n A j)).prod

theorem P_zero (n : ℕ) (A : ℤ → ℤ → K) (tau : ℤ → K) (a : ℕ) : P n A tau a 0 = 1 := rfl

theorem P_succ (n : ℕ) (A : ℤ → ℤ → K) (tau : ℤ → K) (a len : ℕ) :
    P n A tau a (len + 1) = P n A tau a len * reflector (tau (a + len : ℕ)) (hv n A (a + len)) := by
  unfold P
  rw [List.range'_concat, List.map_append, List.prod_append]
  simp

theorem P_cons (n : ℕ) (A : ℤ → ℤ → K) (tau : ℤ → K) (a len : ℕ) :
    P n A tau a (len + 1) = reflector (tau a) (hv n A a) * P n A tau (a + 1) len := by
  unfold P
  rw [List.range'_succ, List.map_cons, List.prod_cons]

theorem Q_eq_P {n : ℕ} (hn : 2 ≤ n) (A : ℤ → ℤ → K) {tau : ℤ → K} (hl : tau (n - 2) = 0) :
    Q n A tau = P n A tau 0 (n - 2) := by
  have e : n - 1 = (n - 2) + 1 := by omega
  have : Q n A tau = P n A tau 0 (n - 1) := by
    unfold Q P; rw [List.range_eq_range']
  rw [this, e, P_succ, show ((0 + (n - 2) : ℕ) : ℤ) = n - 2 by omega, hl, refl_zero, mul_one]

theorem P_orth {n : ℕ} (A : ℤ → ℤ → K) (tau : ℤ → K) (len : ℕ)
    (h : ∀ j : ℕ, j < len → tau j = 0 ∨ tau j * dotProduct (hv n A j) (hv n A j) = 2) :
    P n A tau 0 len * (P n A tau 0 len).transpose = 1 ∧
    (P n A tau 0 len).transpose * P n A tau 0 len = 1 := by
  induction len with
  | zero => rw [P_zero]; simp
  | succ l ih =>
    obtain ⟨i1, i2⟩ := ih fun j hj => h j (by omega)
    have hs := refl_sq (h l (by omega))
    rw [P_succ, Matrix.transpose_mul, zero_add, refl_transpose]
    generalize P n A tau 0 l = M at *
    generalize reflector (tau l) (hv n A l) = R at *
    constructor
    · rw [Matrix.mul_assoc, ← Matrix.mul_assoc R, hs, Matrix.one_mul, i1]
    · rw [Matrix.mul_assoc, ← Matrix.mul_assoc _ M, i2, Matrix.one_mul, hs]

theorem hhStep_next {n : ℕ} (A : ℤ → ℤ → K) (tau : ℤ → K) {jend jinc : ℤ} {s : ℤ × (ℤ → K)}
    {Y : ℤ → K} (h : s.1 ≠ jend) (hb : hhBody n A tau s.1 s.2 = some Y) :
    hhStep n A tau jend jinc s = .next (s.1 + jinc, Y) := by
  unfold hhStep; rw [if_neg h, hb]

theorem hh_direct {n : ℕ} (hn : 2 ≤ n) (A : ℤ → ℤ → K) (tau : ℤ → K) (X : ℤ → K) :
    ∃ Y, Returns (hhStep n A tau (n - 1) 1) (1, X) ((n : ℤ) - 1, Y) ∧
      vec n Y = (P n A tau 0 (n - 2)).transpose.mulVec (vec n X) := by
  have key : ∀ k : ℕ, k ≤ n - 2 → ∃ Y, Reach (hhStep n A tau (n - 1) 1) (1, X) ((k : ℤ) + 1, Y) ∧
      vec n Y = (P n A tau 0 k).transpose.mulVec (vec n X) := by
    intro k
    induction k with
    | zero =>
      intro _
      exact ⟨X, by simpa using Reach.refl _ _, by rw [P_zero]; simp⟩
    | succ k ih =>
      intro hk
      obtain ⟨Y, h1, h2⟩ := ih (by omega)
      obtain ⟨Y', g1, g2⟩ := hhBody_spec (n := n) A tau (j := (k : ℤ) + 1) (by omega) (by omega) Y
      refine ⟨Y', ?_, ?_⟩
      · push_cast
        exact h1.tail (hhStep_next A tau (s := ((k : ℤ) + 1, Y)) (by simp only; omega) g1)
      · rw [g2, h2, Matrix.mulVec_mulVec, P_succ, Matrix.transpose_mul, refl_transpose,
          show (k : ℤ) + 1 - 1 = (k : ℤ) by ring, Int.toNat_natCast, zero_add]
  obtain ⟨Y, h1, h2⟩ := key (n - 2) le_rfl
  refine ⟨Y, ?_, h2⟩
  rw [show ((n - 2 : ℕ) : ℤ) + 1 = n - 1 by omega] at h1
  exact h1.returns (by unfold hhStep; rw [if_pos rfl])

theorem hh_reverse {n : ℕ} (hn : 2 ≤ n) (A : ℤ → ℤ → K) (tau : ℤ → K) (X : ℤ → K) :
    ∃ Y, Returns (hhStep n A tau 0 (-1)) ((n : ℤ) - 2, X) (0, Y) ∧
      vec n Y = (P n A tau 0 (n - 2)).mulVec (vec n X) := by
  have key : ∀ k : ℕ, k ≤ n - 2 →
      ∃ Y, Reach (hhStep n A tau 0 (-1)) ((n : ℤ) - 2, X) ((n : ℤ) - 2 - k, Y) ∧
      vec n Y = (P n A tau (n - 2 - k) k).mulVec (vec n X) := by
    intro k
    induction k with
    | zero =>
      intro _
      exact ⟨X, by simpa using Reach.refl _ _, by rw [P_zero]; simp⟩
    | succ k ih =>
      intro hk
      obtain ⟨Y, h1, h2⟩ := ih (by omega)
      obtain ⟨Y', g1, g2⟩ := hhBody_spec (n := n) A tau (j := (n : ℤ) - 2 - k) (by omega)
        (by omega) Y
      refine ⟨Y', ?_, ?_⟩
      · have := h1.tail (hhStep_next A tau (jend := 0) (jinc := -1) (s := ((n : ℤ) - 2 - k, Y))
          (by simp only; omega) g1)
        rw [show (n : ℤ) - 2 - ((k + 1 : ℕ) : ℤ) = (n : ℤ) - 2 - k + -1 by push_cast; ring]
        exact this
      · rw [g2, h2, Matrix.mulVec_mulVec, P_cons, show n - 2 - (k + 1) + 1 = n - 2 - k by omega,
          show (n : ℤ) - 2 - k - 1 = ((n - 2 - (k + 1) : ℕ) : ℤ) by omega, Int.toNat_natCast]
  obtain ⟨Y, h1, h2⟩ := key (n - 2) le_rfl
  refine ⟨Y, ?_, by rw [h2, Nat.sub_self]⟩
  rw [show (n : ℤ) - 2 - ((n - 2 : ℕ) : ℤ) = 0 by omega] at h1
  exact h1.returns (by unfold hhStep; rw [if_pos rfl])

theorem Returns.det {σ : Type} {step : σ → Res σ} {s t u : σ} (h : Returns step s t)
    (h' : Returns step s u) : t = u := by
  obtain ⟨k, hk⟩ := h
  obtain ⟨j, hj⟩ := h'
  rcases le_total k j with e | e
  · obtain ⟨d, rfl⟩ := Nat.exists_eq_add_of_le e
    rw [run_add, hk] at hj
    injection hj
  · obtain ⟨d, rfl⟩ := Nat.exists_eq_add_of_le e
    rw [run_add, hj] at hk
    injection hk with hk; exact hk.symm

theorem householder_spec {n : ℕ} (hn : 2 ≤ n) (A : ℤ → ℤ → K) (tau : ℤ → K) (X : ℤ → K)
    (direct : Bool) :
    ∃ Y, Householder n A tau X Y direct ∧ (∀ Y', Householder n A tau X Y' direct → Y' = Y) ∧
      vec n Y = (if direct then (P n A tau 0 (n - 2)).transpose else
        P n A tau 0 (n - 2)).mulVec (vec n X) := by
  cases direct with
  | true =>
    obtain ⟨Y, h1, h2⟩ := hh_direct hn A tau X
    refine ⟨Y, ⟨_, by simpa using h1⟩, ?_, by simpa using h2⟩
    rintro Y' ⟨j, hj⟩
    have hj' : Returns (hhStep n A tau (n - 1) 1) (1, X) (j, Y') := by simpa using hj
    have := Returns.det hj' h1
    exact congrArg Prod.snd this
  | false =>
    obtain ⟨Y, h1, h2⟩ := hh_reverse hn A tau X
    refine ⟨Y, ⟨_, by simpa using h1⟩, ?_, by simpa using h2⟩
    rintro Y' ⟨j, hj⟩
    have hj' : Returns (hhStep n A tau 0 (-1)) ((n : ℤ) - 2, X) (j, Y') := by simpa using hj
    have := Returns.det hj' h1
    exact congrArg Prod.snd this

end hh

end Odes.Hess
