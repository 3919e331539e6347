import Verif.Model.Rock4Tables
import Verif.Lemmas.Rock4Ok
import Verif.Lemmas.Rock4LOk
import Verif.Lemmas.Rock4L
import Verif.Lemmas.Rock4Control

/-!
# The tables are those tested
-/

namespace Odes

open Rock4Check
open Rock4 (Sel MS)
open Spec (blockStart)

theorem flat_getD : ∀ (t : List (List ℤ)) (k q : ℕ), q < (t.getD k []).length →
    t.flatten.getD (((t.take k).map List.length).sum + q) 0 = (t.getD k []).getD q 0
  | [], k, q, h => by simp at h
  | l :: t, 0, q, h => by
    have h' : q < l.length := by simpa using h
    simp [List.getD, List.getElem?_append_left h']
  | l :: t, k + 1, q, h => by
    have h' : q < (t.getD k []).length := by simpa using h
    have ih := flat_getD t k q h'
    rw [List.getD_cons_succ, ← ih]
    simp only [List.take_succ_cons, List.map_cons, List.sum_cons, List.flatten_cons, List.getD]
    rw [List.getElem?_append_right (by omega)]
    congr 2
    omega

/-- pieces of equal length. -/
theorem flat_getD_const (t : List (List ℤ)) (c : ℕ) (hc : ∀ l ∈ t, l.length = c) (k q : ℕ)
    (hk : k < t.length) (hq : q < c) :
    flatAt t (k * c + q) = (t.getD k []).getD q 0 := by
  have hl : (t.getD k []).length = c := by
    have : t.getD k [] ∈ t := by
      rw [List.getD, List.getElem?_eq_getElem hk, Option.getD_some]
      exact List.getElem_mem hk
    exact hc _ this
  have hs : ((t.take k).map List.length).sum = k * c := by
    have : (t.take k).map List.length = List.replicate k c := by
      rw [List.eq_replicate_iff]
      constructor
      · rw [List.length_map, List.length_take]; omega
      · intro x hx
        obtain ⟨l, hl, rfl⟩ := List.mem_map.1 hx
        exact hc l (List.mem_of_mem_take hl)
    rw [this]; simp
  rw [flatAt, ← hs]
  exact flat_getD t k q (by omega)

/-- lengths of the pieces. -/
theorem lens : Tables.Rock4.recf.map List.length = degs.map (fun d => 2 * d - 1) ∧
    Tables.Rock4L.recf.map List.length = degs.map (fun d => 2 * d - 1) ∧
    (Tables.Rock4.fpa.length = 6 ∧ ∀ l ∈ Tables.Rock4.fpa, l.length = 50) ∧
    (Tables.Rock4.fpb.length = 4 ∧ ∀ l ∈ Tables.Rock4.fpb, l.length = 50) ∧
    (Tables.Rock4.fpbe.length = 5 ∧ ∀ l ∈ Tables.Rock4.fpbe, l.length = 50) ∧
    (Tables.Rock4L.fpa.length = 50 ∧ ∀ l ∈ Tables.Rock4L.fpa, l.length = 6) ∧
    (Tables.Rock4L.fpb.length = 50 ∧ ∀ l ∈ Tables.Rock4L.fpb, l.length = 4) ∧
    (Tables.Rock4L.fpbe.length = 50 ∧ ∀ l ∈ Tables.Rock4L.fpbe, l.length = 5) := by
  decide +kernel

theorem degs_MS : ∀ k : Fin 50, MS[k.1]? = some (degs.getD k 0 : ℤ) ∧ 1 ≤ degs.getD k 0 ∧
    blockStart MS k = ((1 + ((degs.take k).map (fun d => 2 * d - 1)).sum : ℕ) : ℤ) := by
  decide +kernel

/-- an entry of the recurrence table inside the block of formula `k`. -/
theorem recf_at (t : List (List ℤ)) (ht : t.map List.length = degs.map (fun d => 2 * d - 1))
    (k : Fin 50) (q : ℕ) (hq : q < 2 * degs.getD k 0 - 1) (i : ℤ)
    (hi : i = blockStart MS k + q) :
    flatAt t (i.toNat - 1) = (t.getD k []).getD q 0 := by
  have h3 := (degs_MS k).2.2
  have hl : (t.getD k []).length = 2 * degs.getD k 0 - 1 := by
    have hlen : degs.length = 50 := by decide
    have e : (t.map List.length)[k.1]? = (degs.map (fun d => 2 * d - 1))[k.1]? := by rw [ht]
    rw [List.getElem?_map, List.getElem?_map, List.getElem?_eq_getElem (l := degs) (by omega)] at e
    simp only [List.getD]
    rw [List.getElem?_eq_getElem (l := degs) (by omega)]
    cases h : t[k.1]? with
    | none => rw [h] at e; simp at e
    | some l => rw [h] at e; simpa using e
  have hs : ((t.take k).map List.length).sum = ((degs.take k).map (fun d => 2 * d - 1)).sum := by
    rw [List.map_take, List.map_take, ht]
  have e : i.toNat - 1 = ((t.take k).map List.length).sum + q := by
    rw [hs]; omega
  rw [flatAt, e]
  exact flat_getD t k q (by omega)

theorem scale19_pos : 0 < scale19 := by norm_num [scale19]

theorem lit_eq (z : ℤ) : (z : ℝ) / (scale19 : ℕ) = lit z := rfl

/-- the formula designated by a selection passes the test. -/
theorem order_of (T : Rock4L.Tab ℝ) (be : ℕ → ℕ → ℝ) (t : List (List ℤ)) (a b e : ℕ → ℕ → ℤ)
    (ht : t.map List.length = degs.map (fun d => 2 * d - 1))
    (hrecf : ∀ i, T.recf i = lit (flatAt t (i - 1)))
    (ha : ∀ k < 50, ∀ j < 6, T.fpa (k + 1) (j + 1) = lit (a k (j + 1)))
    (hb : ∀ k < 50, ∀ j < 4, T.fpb (k + 1) (j + 1) = lit (b k (j + 1)))
    (he : ∀ k < 50, ∀ j < 5, be (k + 1) (j + 1) = lit (e k (j + 1)))
    (hok : ∀ k : ℕ, k < 50 → formulaOk scale19 (degs.getD k 0) (t.getD k []) (a k) (b k) (e k)
      = true) {d mz mr : ℤ} (hs : Sel d mz mr) :
    Near4 (Spec.wStep (Rock4L.formulaOf T d mz mr)) ∧
      Near3 (Spec.wEmb (Rock4L.formulaOf T d mz mr) fun j => be mz.toNat (j + 1)) := by
  obtain ⟨k, hk, h1, h2, h3⟩ := hs
  have hd := (degs_MS ⟨k, hk⟩).1
  have hd1 := (degs_MS ⟨k, hk⟩).2.1
  simp only at hd hd1
  rw [hd] at h1
  have hd' : d = (degs.getD k 0 : ℕ) := by
    have := Option.some.inj h1
    exact this.symm
  have hdeg : (Rock4L.formulaOf T d mz mr).deg = degs.getD k 0 := by
    show d.toNat = _
    rw [hd']; simp
  have hmz : mz.toNat = k + 1 := by omega
  have hat := fun q hq i hi => recf_at t ht ⟨k, hk⟩ q hq i hi
  refine formulaOk_sound scale19_pos (t.getD k []) (a k) (b k) (e k) _ _ (by rw [hdeg]; exact hd1)
    ?_ ?_ ?_ ?_ ?_ ?_ ?_ ?_ ?_ ?_ (by rw [hdeg]; exact hok k hk)
  · rw [lit_eq]
    show _ = Rock4L.muOf T mr 1
    rw [Rock4L.muOf, if_pos rfl, hrecf, hat 0 (by simp only; omega) mr (by simp [h3])]
  · intro q hq
    rw [hdeg] at hq
    rw [lit_eq, lit_eq]
    show _ = Rock4L.muOf T mr (q + 2) ∧ _ = Rock4L.kapOf T mr (q + 2)
    rw [Rock4L.muOf, if_neg (by omega), Rock4L.kapOf, hrecf, hrecf,
      hat (2 * q + 1) (by simp only; omega) _ (by simp only [h3]; push_cast; ring),
      hat (2 * q + 2) (by simp only; omega) _ (by simp only [h3]; push_cast; ring)]
    exact ⟨rfl, rfl⟩
  all_goals try (rw [lit_eq]; show _ = T.fpa mz.toNat _; rw [hmz, ha k hk _ (by norm_num)])
  · intro j
    rw [lit_eq]; show _ = T.fpb mz.toNat _; rw [hmz, hb k hk _ j.2]
  · intro j
    rw [lit_eq, hmz, he k hk _ j.2]

theorem Rock4.order_tab {d mz mr : ℤ} (hs : Sel d mz mr) :
    Near4 (Spec.wStep (Rock4L.formulaOf Rock4.realTab d mz mr)) ∧
      Near3 (Spec.wEmb (Rock4L.formulaOf Rock4.realTab d mz mr)
        fun j => Rock4.realFpbe mz.toNat (j + 1)) := by
  obtain ⟨l1, -, ⟨l3, l3'⟩, ⟨l4, l4'⟩, ⟨l5, l5'⟩, -⟩ := lens
  refine order_of Rock4.realTab Rock4.realFpbe Tables.Rock4.recf _ _ _ l1 (fun _ => rfl) ?_ ?_ ?_
    Rock4Check.Rock4.all_ok hs
  · intro k hk j hj
    show lit (flatAt Tables.Rock4.fpa (j * 50 + k)) = _
    rw [flat_getD_const _ 50 l3' j k (by omega) hk]; rfl
  · intro k hk j hj
    show lit (flatAt Tables.Rock4.fpb (j * 50 + k)) = _
    rw [flat_getD_const _ 50 l4' j k (by omega) hk]; rfl
  · intro k hk j hj
    show lit (flatAt Tables.Rock4.fpbe (j * 50 + k)) = _
    rw [flat_getD_const _ 50 l5' j k (by omega) hk]; rfl

theorem Rock4L.order_tab {d mz mr : ℤ} (hs : Sel d mz mr) :
    Near4 (Spec.wStep (Rock4L.formulaOf Rock4L.shipped d mz mr)) ∧
      Near3 (Spec.wEmb (Rock4L.formulaOf Rock4L.shipped d mz mr)
        fun j => Rock4L.shippedFpbe mz.toNat (j + 1)) := by
  obtain ⟨-, l2, -, -, -, ⟨l6, l6'⟩, ⟨l7, l7'⟩, ⟨l8, l8'⟩⟩ := lens
  refine order_of Rock4L.shipped Rock4L.shippedFpbe Tables.Rock4L.recf _ _ _ l2 (fun _ => rfl)
    ?_ ?_ ?_ Rock4Check.Rock4L.all_ok hs
  · intro k hk j hj
    show lit (flatAt Tables.Rock4L.fpa (k * 6 + j)) = _
    rw [flat_getD_const _ 6 l6' k j (by omega) hj]; rfl
  · intro k hk j hj
    show lit (flatAt Tables.Rock4L.fpb (k * 4 + j)) = _
    rw [flat_getD_const _ 4 l7' k j (by omega) hj]; rfl
  · intro k hk j hj
    show lit (flatAt Tables.Rock4L.fpbe (k * 5 + j)) = _
    rw [flat_getD_const _ 5 l8' k j (by omega) hj]; rfl

end Odes
