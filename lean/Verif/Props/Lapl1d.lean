import Verif.Lemmas.Lapl1dBuild
import Mathlib.Data.Real.Basic
import Mathlib.Tactic.NormNum
import Mathlib.Tactic.FinCases
import Mathlib.Algebra.BigOperators.Fin

/-!
# The matrix of the SDIRKL example (C83)
-/

namespace Odes.Lapl

open Spec Finset

/-- C83: for any contents of the map (entries in the order of the iterators, positions within
`1..n`, `n` the largest row number) with no empty column, the arrays handed to SuperLU are
compressed columns of the matrix, and no index leaves `colptr`. -/
theorem superlu_arrays {α : Type} [AddCommMonoid α] (P : Premat α) (n : ℕ) (hn : P.maxLig = n)
    (h : Sorted P.M) (hk : ∀ e ∈ P.M, (1 ≤ e.1.1 ∧ e.1.1 ≤ n) ∧ 1 ≤ e.1.2 ∧ e.1.2 ≤ n)
    (hc : ∀ c : ℤ, 1 ≤ c → c ≤ n → ∃ e ∈ P.M, e.1.2 = c) :
    ∃ s, cscInit P = some (n, s) ∧
      IsCsc (n := n) s.rowind s.a s.colptr fun r c => elem P.M ((r : ℤ) + 1, (c : ℤ) + 1) :=
  csc_correct P n hn h hk hc

/-- C83: `BuildMat` followed by `SuperLu::init`: the arrays are compressed columns of
`I - γ Δ`, for every `n ≥ 2`. -/
theorem lapl_arrays {α : Type} [Field α] [CharZero α] (n : ℕ) (hn : 2 ≤ n) (γ : α) :
    ∃ s, cscInit (buildMat n Premat.new γ) = some (n, s) ∧
      IsCsc s.rowind s.a s.colptr ((1 : Matrix (Fin n) (Fin n) α) - γ • lap1 n) := by
  obtain ⟨h, hm⟩ := build_good n hn (Premat.new) γ
  have hmax : (buildMat n Premat.new γ).maxLig = n := by
    rw [hm]; show max (-1) (n : ℤ) = n; omega
  have hsome : ∀ e ∈ (buildMat n Premat.new γ).M, (1 ≤ e.1.1 ∧ e.1.1 ≤ n) ∧ 1 ≤ e.1.2 ∧ e.1.2 ≤ n := by
    intro e he
    have h1 := h.ne_none he
    unfold ents at h1
    split_ifs at h1 <;> first | omega | exact absurd rfl h1
  obtain ⟨s, h1, h2⟩ := csc_correct _ n hmax h.sorted hsome fun c hc1 hc2 => by
    obtain ⟨e, he, hek⟩ := h.mem (k := (c, c)) (by
      unfold ents
      rw [if_pos ⟨hc1, hc2, rfl⟩]
      exact Option.some_ne_none _)
    exact ⟨e, he, by rw [hek]⟩
  refine ⟨s, h1, ?_⟩
  refine Eq.subst (motive := fun M => IsCsc s.rowind s.a s.colptr M) ?_ h2
  symm
  funext r c
  show (1 : Matrix (Fin n) (Fin n) α) r c - γ * (lap1 n : Matrix (Fin n) (Fin n) α) r c = _
  rw [← ents_lap n hn γ r c]
  unfold elem
  rw [h.val]

/-- C83 fails when a column is empty: a matrix of order 2 with an empty first column. -/
theorem superlu_empty_column : ∃ P : Premat ℝ, P.maxLig = (2 : ℕ) ∧ Sorted P.M ∧
    (∀ e ∈ P.M, (1 ≤ e.1.1 ∧ e.1.1 ≤ 2) ∧ 1 ≤ e.1.2 ∧ e.1.2 ≤ 2) ∧
    ∃ s, cscInit P = some (2, s) ∧
      ¬ IsCsc (n := 2) s.rowind s.a s.colptr fun r c => elem P.M ((r : ℤ) + 1, (c : ℤ) + 1) := by
  refine ⟨⟨[((1, 2), 1), ((2, 2), 1)], 2, 2⟩, rfl, ?_, ?_, ⟨[0, 1], [1, 1],
    fun k => if k = 1 then some 1 else if k = 0 then some 0 else if k = 2 then some 2 else none, 1⟩,
    ?_, ?_⟩
  · simp [Sorted, before]
  · simp
  · rfl
  · rintro ⟨ptr, hp, h0, h2, -, -, -, -, hM⟩
    have h1 := hp 1 (by norm_num)
    simp only [if_true, Option.some.injEq] at h1
    have h1' : ptr 1 = 1 := by omega
    have e : (0 : ℝ) = ∑ l ∈ Finset.Ico (ptr 0) (ptr 1),
        if ([0, 1] : List ℤ).getD l 0 = (0 : ℤ) then ([1, 1] : List ℝ).getD l 0 else 0 := hM 0 0
    rw [h0, h1'] at e
    simp at e

/-- C83: with more columns than rows `colptr` is written out of bounds. -/
theorem superlu_wide_ub : ∃ P : Premat ℝ, P = ((Premat.new.set 1 1 1).set 1 2 1).set 1 3 1 ∧
    cscInit P = none :=
  ⟨_, rfl, rfl⟩

/-- C83: `clear` keeps the largest row number: initialising the same object again with a
smaller size gives a wrong order, and an element of `colptr` that was never written. -/
theorem lapl_reinit (n m : ℕ) (hn : 2 ≤ n) (hm : n < m) (γ γ' : ℝ) :
    ∃ s, cscInit (buildMat n (buildMat m Premat.new γ') γ) = some (m, s) ∧
      s.colptr n = none := by
  obtain ⟨-, hmm⟩ := build_good m (by omega) (Premat.new) γ'
  obtain ⟨h, hmn⟩ := build_good n hn (buildMat m Premat.new γ') γ
  have hmax : (buildMat n (buildMat m Premat.new γ') γ).maxLig = m := by
    rw [hmn, hmm]; show max (max (-1) (m : ℤ)) n = m; omega
  have hsome : ∀ e ∈ (buildMat n (buildMat m Premat.new γ') γ).M, 1 ≤ e.1.2 ∧ e.1.2 ≤ n := by
    intro e he
    have h1 := h.ne_none he
    unfold ents at h1
    split_ifs at h1 <;> first | omega | exact absurd rfl h1
  have hcol : ∀ c : ℤ, 1 ≤ c → c ≤ n →
      ∃ e ∈ (buildMat n (buildMat m Premat.new γ') γ).M, e.1.2 = c := fun c hc1 hc2 => by
    obtain ⟨e, he, hek⟩ := h.mem (k := (c, c)) (by
      unfold ents
      rw [if_pos ⟨hc1, hc2, rfl⟩]
      exact Option.some_ne_none _)
    exact ⟨e, he, by rw [hek]⟩
  generalize buildMat n (buildMat m Premat.new γ') γ = P at *
  have hn' : P.maxLig.toNat = m := by omega
  unfold cscInit
  rw [hn']
  let s0 : Csc ℝ := ⟨[], [], fun k => if k = m then some (P.M.length : ℤ) else none, -1⟩
  have I0 : CInv n m P.M 0 s0 :=
    ⟨rfl, rfl, le_refl _, by show (-1 : ℤ) < n; omega, fun j _ h => by omega, Or.inl ⟨rfl, rfl⟩,
      fun c hc => by simp only [s0] at hc; omega, by simp [s0], fun c _ h => by simp [s0, h]⟩
  obtain ⟨s, h1, I⟩ := foldlM_inv hm.le h.sorted hsome hcol P.M.length 0 s0 (by omega) I0
  rw [List.drop_zero] at h1
  exact ⟨s, by show Option.map _ (List.foldlM (cscStep m) s0 P.M) = _; rw [h1]; rfl,
    I.rest n I.hi (by omega)⟩

/-- the hypotheses of `superlu_arrays` are met by the matrix of `BuildMat`; smallest case. -/
example : ∃ s, cscInit (buildMat 2 Premat.new (1 : ℚ)) = some (2, s) ∧
    s.rowind = [0, 1, 0, 1] ∧ s.a = [3, -2, -2, 3] := by
  refine ⟨_, rfl, ?_, ?_⟩ <;> decide +kernel

end Odes.Lapl
