import Verif.Model.Csr
import Verif.Lemmas.Lapl1dBuild
import Verif.Spec.Csr

/-! # Proofs about `CSRLineWise::init` -/

namespace Odes.Lapl

open Spec Finset

variable {α : Type}

theorem fill_range (order : ℤ) {curia : ℤ} (h0 : 0 ≤ curia) (v : ℤ) (ia : ℕ → Option ℤ) :
    ∀ k : ℕ, (curia + k - 1 ≤ order ∨ k = 0 →
      (List.range k).foldlM (fun ia (t : ℕ) => wr order ia (curia + 1 + t - 1) v) ia
        = some fun m : ℕ => if curia ≤ (m : ℤ) ∧ (m : ℤ) < curia + k then some v else ia m) ∧
    (¬ (curia + k - 1 ≤ order ∨ k = 0) →
      (List.range k).foldlM (fun ia (t : ℕ) => wr order ia (curia + 1 + t - 1) v) ia = none) := by
  intro k
  induction k with
  | zero =>
    refine ⟨fun _ => ?_, fun h => absurd (Or.inr rfl) h⟩
    rw [List.range_zero, List.foldlM_nil]
    show some ia = _
    congr 1
    funext m
    rw [if_neg (by omega)]
  | succ k ih =>
    rw [List.range_succ, List.foldlM_append]
    by_cases hk : curia + k - 1 ≤ order ∨ k = 0
    · rw [ih.1 hk]
      simp only [Option.bind_eq_bind, Option.bind_some, List.foldlM_cons, List.foldlM_nil]
      unfold wr
      constructor
      · intro h
        rw [if_pos (by omega)]
        simp only [Option.bind_some]
        show some _ = some _
        congr 1
        funext m
        split_ifs <;> first | rfl | (exfalso; push_cast at *; omega)
      · intro h
        rw [if_neg (by omega)]
        rfl
    · rw [ih.2 hk]
      refine ⟨fun h => ?_, fun _ => rfl⟩
      exfalso
      omega

theorem fill_eq {order curia cc : ℤ} (h0 : 0 ≤ curia) (hc : curia < cc) (v : ℤ) (ia : ℕ → Option ℤ) :
    fill order ia curia cc v = if cc - 1 ≤ order then
      some fun m : ℕ => if curia ≤ (m : ℤ) ∧ (m : ℤ) < cc then some v else ia m else none := by
  have e : ((cc - curia).toNat : ℤ) = cc - curia := by omega
  obtain ⟨h1, h2⟩ := fill_range order h0 v ia (cc - curia).toNat
  unfold fill
  split_ifs with h
  · rw [h1 (by omega)]
    congr 1
    funext m
    rw [e]
    congr 1
    simp
  · exact h2 (by omega)

/-- state after `i` entries. -/
structure RInv (l : List (Entry α)) (i : ℕ) (s : Csr α) : Prop where
  ja : s.ja = (l.take i).map fun e => e.1.1
  a : s.a = (l.take i).map fun e => e.2
  one : 1 ≤ s.curia
  last : i = 0 ∧ s.curia = 1 ∨ ∃ h : i - 1 < l.length, 0 < i ∧ s.curia = l[i - 1].1.2
  ptr : ∀ c : ℕ, (c : ℤ) < s.curia → s.ia c = some (upto l c + 1 : ℤ)
  rest : ∀ c : ℕ, s.curia ≤ c → s.ia c = none

theorem csrStep_inv (order : ℤ) {l : List (Entry α)} (h : Sorted l) (h1 : ∀ e ∈ l, 1 ≤ e.1.2)
    {i : ℕ} (hi : i < l.length) {s : Csr α} (I : RInv l i s) :
    (csrStep order s l[i] = none ∧ order + 1 < l[i].1.2) ∨
      ∃ s', csrStep order s l[i] = some s' ∧ RInv l (i + 1) s' := by
  have hsorted : ∀ j (hj : j < l.length), j < i → l[j].1.2 ≤ l[i].1.2 := by
    intro j hj hji
    have := (before_iff _ _).1 ((List.pairwise_iff_getElem.1 h) j i hj hi hji)
    omega
  have hpos := h1 _ (List.getElem_mem hi)
  have hge : s.curia ≤ l[i].1.2 := by
    rcases I.last with ⟨-, h1⟩ | ⟨h1, h2, h3⟩
    · omega
    · have := hsorted (i - 1) h1 (by omega)
      omega
  have hmr : (l.take (i + 1)).map (fun e => e.1.1)
      = (l.take i).map (fun e => e.1.1) ++ [l[i].1.1] := by
    rw [List.take_succ_eq_append_getElem hi, List.map_append]; rfl
  have hma : (l.take (i + 1)).map (fun e => e.2) = (l.take i).map (fun e => e.2) ++ [l[i].2] := by
    rw [List.take_succ_eq_append_getElem hi, List.map_append]; rfl
  have hlen : s.a.length = i := by rw [I.a]; simp; omega
  have h0 := I.one
  unfold csrStep
  by_cases hne : l[i].1.2 = s.curia
  · rw [if_neg (by simpa using hne)]
    refine Or.inr ⟨_, rfl, ?_, ?_, I.one, Or.inr ⟨by simpa using hi, by omega, ?_⟩, I.ptr, I.rest⟩
    · rw [hmr, ← I.ja]
    · rw [hma, ← I.a]
    · simpa using hne.symm
  · simp only [ne_eq, hne, not_false_eq_true, if_true]
    rw [fill_eq (by omega) (by omega)]
    split_ifs with ho
    · refine Or.inr ⟨_, rfl, ?_, ?_, ?_, Or.inr ⟨by simpa using hi, by omega, by simp⟩, ?_, ?_⟩
      · rw [hmr, ← I.ja]
      · rw [hma, ← I.a]
      · show 1 ≤ l[i].1.2; omega
      · intro c hc
        show (if s.curia ≤ (c : ℤ) ∧ (c : ℤ) < l[i].1.2 then some ((s.a.length : ℤ) + 1) else s.ia c) = _
        have hc' : (c : ℤ) < l[i].1.2 := hc
        split_ifs with hcc
        · rw [hlen]
          have hptr : upto l c = i := by
            refine le_antisymm ?_ ?_
            · by_contra hlt
              have := (lt_upto h c i hi).1 (by omega)
              omega
            · rcases Nat.eq_zero_or_pos i with rfl | hpos
              · exact Nat.zero_le _
              · have := (lt_upto h c (i - 1) (by omega)).2 (by
                  rcases I.last with ⟨h1, -⟩ | ⟨h1, h2, h3⟩
                  · omega
                  · omega)
                omega
          rw [hptr]
        · exact I.ptr c (by omega)
      · intro c hc
        have hc' : l[i].1.2 ≤ (c : ℤ) := hc
        show (if s.curia ≤ (c : ℤ) ∧ (c : ℤ) < l[i].1.2 then some ((s.a.length : ℤ) + 1) else s.ia c) = _
        rw [if_neg (by omega)]
        exact I.rest c (by omega)
    · exact Or.inl ⟨rfl, by omega⟩

theorem csr_foldlM (order : ℤ) {l : List (Entry α)} (h : Sorted l) (h1 : ∀ e ∈ l, 1 ≤ e.1.2) :
    ∀ (t i : ℕ) (s : Csr α), i + t = l.length → RInv l i s →
      ((l.drop i).foldlM (csrStep order) s = none ∧ ∃ e ∈ l, order + 1 < e.1.2) ∨
      ∃ s', (l.drop i).foldlM (csrStep order) s = some s' ∧ RInv l l.length s' := by
  intro t
  induction t with
  | zero =>
    intro i s hi I
    rw [List.drop_eq_nil_of_le (by omega)]
    exact Or.inr ⟨s, rfl, by rwa [← hi]⟩
  | succ t ih =>
    intro i s hi I
    have hil : i < l.length := by omega
    rw [List.drop_eq_getElem_cons hil, List.foldlM_cons]
    rcases csrStep_inv order h h1 hil I with ⟨e, he⟩ | ⟨s', e, I'⟩
    · rw [e]
      exact Or.inl ⟨rfl, _, List.getElem_mem hil, he⟩
    · rw [e]
      exact ih (i + 1) s' (by omega) I'

/-- the outcome of `init` on a nonempty map whose first column is 1. -/
theorem csr_outcome (P : Premat α) (h : Sorted P.M) {e : Entry α} {l : List (Entry α)}
    (hl : P.M = e :: l) (he : e.1.2 = 1) (hrow : 0 ≤ P.maxLig) :
    (csrInit P = .ub ∧ ∃ e ∈ P.M, P.maxLig < e.1.2) ∨
    ∃ s, csrInit P = .ret P.maxLig s ∧ (∀ e ∈ P.M, e.1.2 ≤ P.maxLig) ∧
      s.ja = P.M.map (fun e => e.1.1) ∧ s.a = P.M.map (fun e => e.2) ∧
      (∃ e ∈ P.M, e.1.2 = s.curia) ∧ (∀ e ∈ P.M, 1 ≤ e.1.2 ∧ e.1.2 ≤ s.curia) ∧
      (∀ c : ℕ, (c : ℤ) ≤ s.curia → s.ia c = some (upto P.M c + 1 : ℤ)) ∧
      ∀ c : ℕ, s.curia < c → s.ia c = none := by
  have h1 : ∀ f ∈ P.M, 1 ≤ f.1.2 := by
    intro f hf
    rw [hl] at hf h
    rcases List.mem_cons.1 hf with rfl | hf
    · omega
    · have := (before_iff _ _).1 ((List.pairwise_cons.1 h).1 f hf)
      omega
  have w0 : wr P.maxLig (fun _ => none) 0 1
      = some fun m => if m = (0 : ℤ).toNat then some 1 else none := if_pos ⟨le_rfl, hrow⟩
  have e0 : csrInit P = match P.M.foldlM (csrStep P.maxLig)
      ⟨fun m => if m = (0 : ℤ).toNat then some 1 else none, [], [], 1⟩ with
      | none => .ub
      | some s => match wr P.maxLig s.ia s.curia (s.a.length + 1) with
        | none => .ub
        | some ia => .ret P.maxLig { s with ia := ia } := by
    unfold csrInit
    rw [hl]
    simp only
    rw [if_neg (by simpa using he), w0]
    rfl
  have hup0 : upto P.M 0 = 0 := by
    unfold upto
    rw [List.countP_eq_zero]
    intro f hf
    have := h1 f hf
    simp only [decide_eq_true_eq]; omega
  have I0 : RInv P.M 0 (⟨fun m => if m = (0 : ℤ).toNat then some 1 else none, [], [], 1⟩ : Csr α) := by
    refine ⟨rfl, rfl, le_rfl, Or.inl ⟨rfl, rfl⟩, fun c hc => ?_, fun c hc => ?_⟩
    · obtain rfl : c = 0 := by simp only at hc; omega
      show some (1 : ℤ) = _
      have : upto P.M ((0 : ℕ) : ℤ) = 0 := hup0
      rw [this]; rfl
    · simp only at hc
      show (if c = (0 : ℤ).toNat then some (1 : ℤ) else none) = _
      rw [if_neg (by simp; omega)]
  rw [e0]
  rcases csr_foldlM P.maxLig h h1 P.M.length 0 _ (by omega) I0 with ⟨q, f, hf, hfc⟩ | ⟨s, q, I⟩
  · rw [List.drop_zero] at q
    rw [q]
    exact Or.inl ⟨rfl, f, hf, by omega⟩
  · rw [List.drop_zero] at q
    rw [q]
    have hpos : 0 < P.M.length := by rw [hl]; simp
    have hlast : ∃ h : P.M.length - 1 < P.M.length, s.curia = P.M[P.M.length - 1].1.2 := by
      rcases I.last with ⟨h2, -⟩ | ⟨h2, -, h3⟩
      · omega
      · exact ⟨h2, h3⟩
    obtain ⟨hll, hcur⟩ := hlast
    have hmax : ∀ f ∈ P.M, f.1.2 ≤ s.curia := by
      intro f hf
      obtain ⟨j, hj, rfl⟩ := List.getElem_of_mem hf
      rcases (Nat.le_sub_one_of_lt hj).lt_or_eq with hlt | heq
      · have := (before_iff _ _).1 ((List.pairwise_iff_getElem.1 h) j _ hj hll hlt)
        omega
      · simp only [heq]; omega
    have h0 := I.one
    simp only
    unfold wr
    by_cases ho : s.curia ≤ P.maxLig
    · rw [if_pos ⟨by omega, ho⟩]
      refine Or.inr ⟨_, rfl, fun f hf => (hmax f hf).trans ho, ?_, ?_, ⟨_, List.getElem_mem hll, hcur.symm⟩,
        fun f hf => ⟨h1 f hf, hmax f hf⟩, ?_, ?_⟩
      · show s.ja = _
        rw [I.ja, List.take_length]
      · show s.a = _
        rw [I.a, List.take_length]
      · intro c hc
        have hc' : (c : ℤ) ≤ s.curia := hc
        show (if c = s.curia.toNat then some ((s.a.length : ℤ) + 1) else s.ia c) = _
        split_ifs with hcc
        · have hup : upto P.M c = P.M.length := by
            unfold upto
            rw [List.countP_eq_length]
            intro f hf
            have := hmax f hf
            simp only [decide_eq_true_eq]; omega
          rw [hup, I.a, List.take_length, List.length_map]
        · exact I.ptr c (by omega)
      · intro c hc
        have hc' : s.curia < c := hc
        show (if c = s.curia.toNat then some ((s.a.length : ℤ) + 1) else s.ia c) = _
        rw [if_neg (by omega)]
        exact I.rest c (by omega)
    · rw [if_neg (by omega)]
      exact Or.inl ⟨rfl, _, List.getElem_mem hll, by omega⟩

/-- the arrays are compressed rows of the transposed matrix. -/
theorem csr_correct [AddCommMonoid α] {n : ℕ} {l : List (Entry α)} (h : Sorted l) (hne : l ≠ [])
    (hk : ∀ e ∈ l, (1 ≤ e.1.1 ∧ e.1.1 ≤ n) ∧ 1 ≤ e.1.2 ∧ e.1.2 ≤ n) {s : Csr α}
    (hja : s.ja = l.map fun e => e.1.1) (ha : s.a = l.map fun e => e.2)
    (hia : ∀ c : ℕ, c ≤ n → s.ia c = some (upto l c + 1 : ℤ)) :
    IsCsr (n := n) s.ia s.ja s.a fun r c => elem l ((c : ℤ) + 1, (r : ℤ) + 1) := by
  refine ⟨fun c => upto l c, hia, ?_, ?_, ?_, ?_, ?_, ?_, ?_⟩
  · unfold upto
    rw [List.countP_eq_zero]
    intro e he
    have := (hk e he).2.1
    simp only [decide_eq_true_eq]; push_cast; omega
  · rw [ha, List.length_map]
    unfold upto
    rw [List.countP_eq_length]
    intro e he
    simpa using (hk e he).2.2
  · rw [ha, hja, List.length_map, List.length_map]
  · intro c _
    exact upto_mono l (by push_cast; omega)
  · intro r hr
    rw [hja] at hr
    obtain ⟨e, he, rfl⟩ := List.mem_map.1 hr
    exact (hk e he).1
  · intro c hcn i j hi hij hj
    have hjl : j < l.length := hj.trans_le (upto_le l _)
    have hil : i < l.length := hij.trans hjl
    rw [hja]
    rw [getD_get (by simpa using hil), getD_get (by simpa using hjl)]
    simp only [List.getElem_map]
    have h2 := (lt_upto h _ j hjl).1 hj
    have h3 : ¬ l[i].1.2 ≤ (c : ℤ) := fun h' => by
      have h5 := (lt_upto h _ i hil).2 h'
      have h6 : upto l (c : ℤ) ≤ i := hi
      omega
    have h4 := (before_iff _ _).1 ((List.pairwise_iff_getElem.1 h) i j hil hjl hij)
    push_cast at h2
    omega
  · intro c r
    show elem l _ = _
    obtain ⟨d, l', hl'⟩ := List.exists_cons_of_ne_nil hne
    rw [elem_sum h _ d]
    have hsub : Finset.Ico (upto l (c : ℕ)) (upto l ((c : ℕ) + 1 : ℕ)) ⊆ range l.length := by
      intro i hi
      have := (Finset.mem_Ico.1 hi).2
      exact Finset.mem_range.2 (this.trans_le (upto_le l _))
    rw [← Finset.sum_subset hsub]
    · refine Finset.sum_congr rfl fun i hi => ?_
      have h2 : upto l (c : ℕ) ≤ i := (Finset.mem_Ico.1 hi).1
      have h3 : i < upto l ((c : ℕ) + 1 : ℕ) := (Finset.mem_Ico.1 hi).2
      have hil : i < l.length := h3.trans_le (upto_le l _)
      have h4 := (lt_upto h _ i hil).1 h3
      have h5 : ¬ l[i].1.2 ≤ ((c : ℕ) : ℤ) := fun h' => by
        have := (lt_upto h _ i hil).2 h'
        omega
      rw [hja, ha, getD_get hil, getD_get (by simpa using hil), getD_get (by simpa using hil)]
      simp only [List.getElem_map]
      push_cast at h4
      refine if_congr ?_ rfl rfl
      rw [Prod.ext_iff]
      constructor
      · rintro ⟨h6, -⟩
        exact h6
      · intro h6
        exact ⟨h6, by simp only; omega⟩
    · intro i hi hni
      have hil := Finset.mem_range.1 hi
      rw [getD_get hil, if_neg]
      intro he
      apply hni
      rw [Finset.mem_Ico]
      have h6 : l[i].1.2 = (c : ℤ) + 1 := by rw [he]
      refine ⟨?_, (lt_upto h _ i hil).2 (by push_cast; omega)⟩
      by_contra hlt
      have := (lt_upto h _ i hil).1 (not_le.1 hlt)
      omega

end Odes.Lapl
