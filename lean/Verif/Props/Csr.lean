import Verif.Lemmas.Csr
import Mathlib.Data.Real.Basic
import Mathlib.LinearAlgebra.Matrix.Notation
import Mathlib.Tactic.NormNum
import Mathlib.Tactic.FinCases
import Mathlib.Tactic.FieldSimp
import Mathlib.Tactic.Ring
import Mathlib.Tactic.Linarith
import Mathlib.Algebra.BigOperators.Fin

/-!
# The class `CSRLineWise` of the SDIRKL example (C106)
-/

namespace Odes.Lapl

open Spec Finset

/-- the matrix of a map; indices from 1. -/
def matOf {α : Type} [Zero α] (n : ℕ) (l : List (Entry α)) : Matrix (Fin n) (Fin n) α :=
  fun r c => elem l ((r : ℤ) + 1, (c : ℤ) + 1)

/-- C106, what holds: if the positions are within `1..n`, `n` the largest row number, and neither the first nor the
last column is empty, then the arrays are compressed rows of the *transposed* matrix; empty columns in
between are treated correctly. -/
theorem csr_transposed_partial {α : Type} [AddCommMonoid α] (P : Premat α) (n : ℕ) (hn : P.maxLig = n)
    (h : Sorted P.M) (hk : ∀ e ∈ P.M, (1 ≤ e.1.1 ∧ e.1.1 ≤ n) ∧ 1 ≤ e.1.2 ∧ e.1.2 ≤ n)
    (h1 : ∃ e ∈ P.M, e.1.2 = 1) (hlast : ∃ e ∈ P.M, e.1.2 = n) :
    ∃ s, csrInit P = .ret n s ∧ IsCsr s.ia s.ja s.a (matOf n P.M).transpose := by
  obtain ⟨f, hf, hf1⟩ := h1
  obtain ⟨g, hg, hgn⟩ := hlast
  obtain ⟨e, l, hl⟩ := List.exists_cons_of_ne_nil (List.ne_nil_of_mem hf)
  have he : e.1.2 = 1 := by
    have q := (hk e (by rw [hl]; simp)).2.1
    rw [hl] at hf h
    rcases List.mem_cons.1 hf with rfl | hf
    · exact hf1
    · have := (before_iff _ _).1 ((List.pairwise_cons.1 h).1 f hf)
      omega
  rcases csr_outcome P h hl he (by omega) with ⟨-, b, hb, hbc⟩ | ⟨s, hs, -, hja, ha, ⟨b, hb, hbc⟩, hle, hia, -⟩
  · have := (hk b hb).2.2
    omega
  · have hcur : s.curia = n := by
      have q1 := (hle g hg).2
      have q2 := (hk b hb).2.2
      omega
    rw [hn] at hs
    exact ⟨s, hs, csr_correct h (List.ne_nil_of_mem hf) hk hja ha fun c hc => hia c (by omega)⟩

/-- C106: the outcome of `init` in all other cases: an empty map or a column number above the largest row number
is undefined behaviour; a first column other than 1 throws. -/
theorem csr_bad_cases {α : Type} (P : Premat α) (h : Sorted P.M) :
    (P.M = [] → csrInit P = .ub) ∧
    (∀ e l, P.M = e :: l → e.1.2 ≠ 1 → csrInit P = .throws) ∧
    (∀ e l, P.M = e :: l → e.1.2 = 1 → 0 ≤ P.maxLig → (∃ f ∈ P.M, P.maxLig < f.1.2) → csrInit P = .ub) := by
  refine ⟨fun hl => by unfold csrInit; rw [hl], fun e l hl he => ?_, fun e l hl he hr hf => ?_⟩
  · unfold csrInit
    rw [hl]
    simp only
    rw [if_pos he]
  · rcases csr_outcome P h hl he hr with ⟨hu, -⟩ | ⟨s, -, hle, -⟩
    · exact hu
    · obtain ⟨f, hf, hlt⟩ := hf
      have := hle f hf
      omega

/-- C106: if the last columns are empty then elements of `ia` are never written, and `print` reads one of them. -/
theorem csr_empty_last {α : Type} (P : Premat α) (n : ℕ) (hn : P.maxLig = n) (h : Sorted P.M)
    (hk : ∀ e ∈ P.M, 1 ≤ e.1.2 ∧ e.1.2 < n) (h1 : ∃ e ∈ P.M, e.1.2 = 1) :
    ∃ s, csrInit P = .ret n s ∧ s.ia n = none ∧ csrPrint n s = none := by
  obtain ⟨f, hf, hf1⟩ := h1
  obtain ⟨e, l, hl⟩ := List.exists_cons_of_ne_nil (List.ne_nil_of_mem hf)
  have he : e.1.2 = 1 := by
    have q := (hk e (by rw [hl]; simp)).1
    rw [hl] at hf h
    rcases List.mem_cons.1 hf with rfl | hf
    · exact hf1
    · have := (before_iff _ _).1 ((List.pairwise_cons.1 h).1 f hf)
      omega
  rcases csr_outcome P h hl he (by omega) with ⟨-, b, hb, hbc⟩ | ⟨s, hs, -, -, -, ⟨b, hb, hbc⟩, -, -, hno⟩
  · have := (hk b hb).2
    omega
  · have q2 := hk b hb
    have hnone : s.ia n = none := hno n (by omega)
    rw [hn] at hs
    refine ⟨s, hs, hnone, ?_⟩
    unfold csrPrint
    obtain ⟨m, rfl⟩ : ∃ m, n = m + 1 := ⟨n - 1, by omega⟩
    rw [List.range_succ, List.mapM_append]
    have : csrLine s (m + 1) = none := by
      unfold csrLine
      rw [hnone]
      split
      · rename_i h1 h2; cases h2
      · rfl
    simp only [List.mapM_cons, this]
    cases (List.range m).mapM fun t => csrLine s (t + 1) <;> rfl

/-- C106 fails: a matrix of order 2 with no empty row or column whose arrays are not compressed rows of it. -/
theorem csr_not_rows : ∃ P : Premat ℝ, P = ((Premat.new.set 1 1 1).set 1 2 2).set 2 2 3 ∧
    ∃ s, csrInit P = .ret 2 s ∧ s.ia 0 = some 1 ∧ s.ia 1 = some 2 ∧ s.ia 2 = some 4 ∧ s.ja = [1, 1, 2] ∧
      s.a = [1, 2, 3] ∧ ¬ IsCsr (n := 2) s.ia s.ja s.a (matOf 2 P.M) := by
  refine ⟨_, rfl, ⟨fun k => if k = 2 then some 4 else if k = 1 then some 2 else if k = 0 then some 1 else none,
    [1, 1, 2], [1, 2, 3], 2⟩, ?_, rfl, rfl, rfl, rfl, rfl, ?_⟩
  · show CsrOut.ret _ _ = _
    congr 1
  · rintro ⟨ptr, hp, h0, h2, -, -, -, -, hM⟩
    have h1 := hp 1 (by norm_num)
    have h1' : ptr 1 = 1 := by
      simp at h1
      omega
    have e : (2 : ℝ) = ∑ l ∈ Finset.Ico (ptr 0) (ptr 1),
        if ([1, 1, 2] : List ℤ).getD l 0 = (1 : ℤ) + 1 then ([1, 2, 3] : List ℝ).getD l 0 else 0 := hM 0 1
    rw [h0, h1'] at e
    simp at e

/-- C106: for the matrix `I - γ Δ` of the example the arrays represent the transposed matrix, which is another
matrix as soon as `n ≥ 3` and `γ ≠ 0`. -/
theorem csr_lapl {α : Type} [Field α] [CharZero α] (n : ℕ) (hn : 2 ≤ n) (γ : α) :
    ∃ s, csrInit (buildMat n Premat.new γ) = .ret n s ∧
      IsCsr s.ia s.ja s.a ((1 : Matrix (Fin n) (Fin n) α) - γ • lap1 n).transpose ∧
      (3 ≤ n → γ ≠ 0 → ((1 : Matrix (Fin n) (Fin n) α) - γ • lap1 n).transpose ≠ 1 - γ • lap1 n) := by
  obtain ⟨h, hm⟩ := build_good n hn (Premat.new) γ
  have hmax : (buildMat n Premat.new γ).maxLig = n := by
    rw [hm]; show max (-1) (n : ℤ) = n; omega
  have hsome : ∀ e ∈ (buildMat n Premat.new γ).M, (1 ≤ e.1.1 ∧ e.1.1 ≤ n) ∧ 1 ≤ e.1.2 ∧ e.1.2 ≤ n := by
    intro e he
    have h1 := h.ne_none he
    unfold ents at h1
    split_ifs at h1 <;> first | omega | exact absurd rfl h1
  have hcol : ∀ c : ℤ, 1 ≤ c → c ≤ n → ∃ e ∈ (buildMat n Premat.new γ).M, e.1.2 = c := fun c hc1 hc2 => by
    obtain ⟨e, he, hek⟩ := h.mem (k := (c, c)) (by
      unfold ents
      rw [if_pos ⟨hc1, hc2, rfl⟩]
      exact Option.some_ne_none _)
    exact ⟨e, he, by rw [hek]⟩
  obtain ⟨s, h1, h2⟩ := csr_transposed_partial _ n hmax h.sorted hsome (hcol 1 le_rfl (by omega))
    (hcol n (by omega) le_rfl)
  have hM : matOf n (buildMat n Premat.new γ).M = (1 : Matrix (Fin n) (Fin n) α) - γ • lap1 n := by
    funext r c
    show _ = (1 : Matrix (Fin n) (Fin n) α) r c - γ * (lap1 n : Matrix (Fin n) (Fin n) α) r c
    rw [← ents_lap n hn γ r c]
    unfold matOf elem
    rw [h.val]
  rw [hM] at h2
  refine ⟨s, h1, h2, fun h3 hγ hT => ?_⟩
  have q := congrFun (congrFun hT ⟨0, by omega⟩) ⟨1, by omega⟩
  rw [Matrix.transpose_apply] at q
  have q' : (ents (γ / (1 / (n - 1 : α) * (1 / (n - 1 : α)))) n (2, 1)).getD 0
      = (ents (γ / (1 / (n - 1 : α) * (1 / (n - 1 : α)))) n (1, 2)).getD 0 := by
    have q1 := ents_lap n hn γ (⟨1, by omega⟩ : Fin n) ⟨0, by omega⟩
    have q2 := ents_lap n hn γ (⟨0, by omega⟩ : Fin n) ⟨1, by omega⟩
    exact q1.trans (q.trans q2.symm)
  have hn1 : (n - 1 : α) ≠ 0 := by
    intro h
    have : (n : α) = (1 : ℕ) := by push_cast; linear_combination h
    have := Nat.cast_injective this
    omega
  unfold ents at q'
  rw [if_neg (by simp), if_neg (by simp; omega), if_pos (by simp; omega), if_neg (by simp), if_pos (by simp)] at q'
  simp only [Option.getD_some] at q'
  have hu : γ / (1 / (n - 1 : α) * (1 / (n - 1 : α))) ≠ 0 :=
    div_ne_zero hγ (mul_ne_zero (one_div_ne_zero hn1) (one_div_ne_zero hn1))
  apply hu
  linear_combination q'

/-- the hypotheses of `csr_transposed_partial` are met by a matrix with an empty column in the middle. -/
example : ∃ s, csrInit (((Premat.new.set 1 1 (5 : ℚ)).set 3 3 7).set 2 3 6) = .ret 3 s ∧
    s.ia 0 = some 1 ∧ s.ia 1 = some 2 ∧ s.ia 2 = some 2 ∧ s.ia 3 = some 4 ∧ s.ja = [1, 2, 3] ∧
    s.a = [5, 6, 7] ∧ csrPrint 3 s = some [[(1, 5)], [], [(2, 6), (3, 7)]] := by
  refine ⟨_, rfl, ?_, ?_, ?_, ?_, ?_, ?_, ?_⟩ <;> decide +kernel

end Odes.Lapl
