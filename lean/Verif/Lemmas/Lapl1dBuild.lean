import Verif.Lemmas.Lapl1d
import Mathlib.Algebra.CharZero.Defs
import Mathlib.Data.Matrix.Basic
import Mathlib.Algebra.Field.Basic
import Mathlib.Tactic.Push
import Mathlib.Tactic.LinearCombination

namespace Odes.Lapl

open Spec Finset

variable {α : Type}

/-- the entries of `P` are given by `f`. -/
structure Good (P : Premat α) (f : ℤ × ℤ → Option α) : Prop where
  sorted : Sorted P.M
  val : ∀ k, P.M.lookup k = f k

theorem Good.set {P : Premat α} {f : ℤ × ℤ → Option α} (h : Good P f) (i j : ℤ) (v : α) :
    Good (P.set i j v) (fun k => if k = (i, j) then some v else f k) :=
  ⟨put_sorted h.sorted, fun k => by show (put _ _ _).lookup k = _; rw [put_lookup h.sorted, h.val]⟩

theorem lookup_eq_none {l : List (Entry α)} {k : ℤ × ℤ} (h : l.lookup k = none) :
    ∀ e ∈ l, e.1 ≠ k := by
  induction l with
  | nil => simp
  | cons e l ih =>
    rw [List.lookup_cons] at h
    intro f hf
    by_cases hk : k = e.1
    · subst hk; simp at h
    · have : (k == e.1) = false := by simpa using hk
      rw [this] at h
      rcases List.mem_cons.1 hf with rfl | hf
      · exact fun h' => hk h'.symm
      · exact ih h f hf

theorem Good.mem {P : Premat α} {f : ℤ × ℤ → Option α} (h : Good P f) {k : ℤ × ℤ}
    (hk : f k ≠ none) : ∃ e ∈ P.M, e.1 = k := by
  by_contra hn
  push Not at hn
  apply hk
  rw [← h.val, lookup_none hn]

theorem Good.ne_none {P : Premat α} {f : ℤ × ℤ → Option α} (h : Good P f) {e : Entry α}
    (he : e ∈ P.M) : f e.1 ≠ none := fun hn => by
  rw [← h.val] at hn
  exact lookup_eq_none hn e he rfl

variable [Field α]

/-- the entries after the rows `2 .. m`. -/
def rows (u d : α) (m : ℕ) (k : ℤ × ℤ) : Option α :=
  if 2 ≤ k.1 ∧ k.1 ≤ m ∧ (k.2 = k.1 + 1 ∨ k.2 = k.1 - 1) then some (-u)
  else if 2 ≤ k.1 ∧ k.1 ≤ m ∧ k.2 = k.1 then some d else none

theorem loop_good (u d : α) (P : Premat α) (hP : P.M = []) (c : ℕ) :
    let Q := (List.range' 2 c).foldl (fun (P : Premat α) (i : ℕ) =>
      ((P.set i (i + 1) (-u)).set i (i - 1) (-u)).set i i d) P
    Good Q (rows u d (c + 1)) ∧ Q.maxLig = max P.maxLig (if c = 0 then P.maxLig else c + 1) := by
  induction c with
  | zero =>
    refine ⟨⟨by simp [Sorted, hP], fun k => ?_⟩, by simp⟩
    simp only [List.range'_zero, List.foldl_nil, hP, List.lookup_nil, rows]
    rw [if_neg (by omega), if_neg (by omega)]
  | succ c ih =>
    intro Q
    obtain ⟨ih, ihm⟩ := ih
    simp only [Q]
    rw [List.range'_concat, List.foldl_append, List.foldl_cons, List.foldl_nil]
    set R := (List.range' 2 c).foldl (fun (P : Premat α) (i : ℕ) =>
      ((P.set i (i + 1) (-u)).set i (i - 1) (-u)).set i i d) P with hR
    have h1 := ((ih.set ((2 + 1 * c : ℕ) : ℤ) ((2 + 1 * c : ℕ) + 1) (-u)).set ((2 + 1 * c : ℕ) : ℤ)
      ((2 + 1 * c : ℕ) - 1) (-u)).set ((2 + 1 * c : ℕ) : ℤ) ((2 + 1 * c : ℕ) : ℤ) d
    refine ⟨⟨h1.sorted, fun k => ?_⟩, ?_⟩
    · rw [h1.val]
      obtain ⟨a, b⟩ := k
      simp only [rows, Prod.mk.injEq]
      split_ifs <;> first | rfl | (exfalso; omega)
    · show max (max (max R.maxLig _) _) _ = _
      rw [ihm, if_neg (Nat.succ_ne_zero c)]
      split_ifs <;> push_cast <;> omega

/-- all the entries. -/
def ents (u : α) (n : ℕ) (k : ℤ × ℤ) : Option α :=
  if 1 ≤ k.1 ∧ k.1 ≤ n ∧ k.2 = k.1 then some (2 * u + 1)
  else if k.1 = 1 ∧ k.2 = 2 ∨ k.1 = n ∧ k.2 = n - 1 then some (-(2 * u))
  else if 2 ≤ k.1 ∧ k.1 < n ∧ (k.2 = k.1 + 1 ∨ k.2 = k.1 - 1) then some (-u) else none

theorem build_good (n : ℕ) (hn : 2 ≤ n) (P : Premat α) (g : α) :
    Good (buildMat n P g) (ents (g / (1 / (n - 1 : α) * (1 / (n - 1 : α)))) n) ∧
      (buildMat n P g).maxLig = max P.maxLig n := by
  unfold buildMat
  simp only
  set u := g / (1 / (n - 1 : α) * (1 / (n - 1 : α))) with hu
  obtain ⟨h, hm⟩ := loop_good u (2 * u + 1) P.clear rfl (n - 2)
  have h1 := (((h.set 1 1 (2 * u + 1)).set 1 2 (-(2 * u))).set n n (2 * u + 1)).set n (n - 1)
    (-(2 * u))
  refine ⟨⟨h1.sorted, fun k => ?_⟩, ?_⟩
  · rw [h1.val]
    obtain ⟨a, b⟩ := k
    simp only [rows, ents, Prod.mk.injEq]
    split_ifs <;> first | rfl | (exfalso; omega)
  · show max (max (max (max _ _) _) _) _ = _
    rw [hm]
    show max (max (max (max (max P.maxLig (if n - 2 = 0 then P.maxLig else _)) _) _) _) _ = _
    split_ifs <;> omega

theorem ents_lap [CharZero α] (n : ℕ) (hn : 2 ≤ n) (g : α) (r c : Fin n) :
    (ents (g / (1 / (n - 1 : α) * (1 / (n - 1 : α)))) n ((r : ℤ) + 1, (c : ℤ) + 1)).getD 0
      = (1 : Matrix (Fin n) (Fin n) α) r c - g * (lap1 n : Matrix (Fin n) (Fin n) α) r c := by
  have hn1 : (n - 1 : α) ≠ 0 := by
    intro h
    have : (n : α) = (1 : ℕ) := by push_cast; linear_combination h
    have := Nat.cast_injective this
    omega
  have hu : g / (1 / (n - 1 : α) * (1 / (n - 1 : α))) = g * (n - 1 : α) ^ 2 := by
    field_simp
  rw [hu, Matrix.one_apply]
  unfold lap1 ents mirror
  have hrc : (r = c) ↔ (r : ℤ) = c := by rw [Fin.ext_iff]; omega
  have hcr : (c = r) ↔ (r : ℤ) = c := by rw [Fin.ext_iff]; omega
  simp only [hrc, hcr]
  have hr := r.2
  have hc := c.2
  split_ifs <;> first | (exfalso; omega) | (simp only [Option.getD_some, Option.getD_none]; ring)

end Odes.Lapl
