import Verif.Lemmas.Gauss
import Mathlib.Algebra.BigOperators.Field
import Mathlib.Data.List.GetD
import Mathlib.Tactic.Positivity
import Mathlib.Tactic.Ring

/-!
# From the integer checks to the real tables
-/

namespace Odes.Symp

open Spec

theorem le_of_nat {x : ℤ} {E D : ℕ} (hE : 0 < E) (hD : 0 < D) (h : x.natAbs * E ≤ D) :
    |(x : ℝ) / D| ≤ 1 / E := by
  have h1 : ((x.natAbs * E : ℕ) : ℝ) ≤ (D : ℝ) := by exact_mod_cast h
  rw [Nat.cast_mul, Nat.cast_natAbs, Int.cast_abs] at h1
  have hD' : (0 : ℝ) < D := by exact_mod_cast hD
  have hE' : (0 : ℝ) < E := by exact_mod_cast hE
  rw [abs_div, abs_of_pos hD', div_le_div_iff₀ hD' hE']
  linarith

variable {t : GTab}

theorem shape_spec (h : okShape t = true) :
    t.rows.length = t.s ∧ (∀ r ∈ t.rows, r.length = t.s) ∧ t.b.length = t.s ∧ t.q.length = t.s ∧
      (∀ r ∈ t.q, r.length = t.s) ∧ ∀ i : Fin t.s, (t.ic i : ℝ) / 10 ^ t.da = ∑ j, t.A i j := by
  simp only [okShape, Bool.and_eq_true, beq_iff_eq, List.all_eq_true] at h
  obtain ⟨⟨⟨⟨⟨h1, h2⟩, h3⟩, h4⟩, h5⟩, h6⟩ := h
  refine ⟨h1, h2, h3, h4, h5, fun i => ?_⟩
  have := allLt_spec h6 i i.2
  rw [beq_iff_eq, isum_spec] at this
  have h7 : ((t.ic i : ℤ) : ℝ) = ∑ j : Fin t.s, (t.iA i j : ℝ) := by rw [← this]; push_cast; rfl
  rw [Int.cast_natCast] at h7
  rw [h7, Finset.sum_div]
  rfl

theorem coop_spec {E : ℕ} (hE : 0 < E) (h : okCoop t E = true) (i j : Fin t.s) :
    |defect t.A t.w i j| ≤ 1 / E := by
  have h1 := of_decide_eq_true (allLt_spec (allLt_spec h i i.2) j j.2)
  have h2 := le_of_nat hE (by positivity) h1
  refine le_of_eq_of_le ?_ h2
  congr 1
  unfold defect GTab.A GTab.w
  push_cast
  field_simp

theorem B_spec (hs : okShape t = true) {E : ℕ} (hE : 0 < E) (h : okB t E = true) {k : ℕ}
    (hk : k < 2 * t.s) : |∑ i, t.w i * (∑ j, t.A i j) ^ k - 1 / (k + 1)| ≤ 1 / E := by
  have h1 := of_decide_eq_true (allLt_spec h k hk)
  have h2 := le_of_nat hE (by positivity) h1
  refine le_of_eq_of_le ?_ h2
  congr 1
  have hc := (shape_spec hs).2.2.2.2.2
  have h3 : ∀ i : Fin t.s, t.w i * (∑ j, t.A i j) ^ k =
      ((t.ib i * t.ic i ^ k : ℕ) : ℝ) / (10 ^ t.db * (10 ^ t.da) ^ k) := by
    intro i
    rw [← hc, GTab.w]
    push_cast
    rw [div_pow, div_mul_div_comm]
  rw [Finset.sum_congr rfl fun i _ => h3 i, ← Finset.sum_div, isum_spec]
  push_cast
  have : (k : ℝ) + 1 ≠ 0 := by positivity
  field_simp

theorem C_spec (hs : okShape t = true) {E : ℕ} (hE : 0 < E) (h : okC t E = true) {k : ℕ}
    (hk : k < t.s) (i : Fin t.s) :
    |∑ j, t.A i j * (∑ l, t.A j l) ^ k - (∑ l, t.A i l) ^ (k + 1) / (k + 1)| ≤ 1 / E := by
  have h1 := of_decide_eq_true (allLt_spec (allLt_spec h k hk) i i.2)
  have h2 := le_of_nat hE (by positivity) h1
  refine le_of_eq_of_le ?_ h2
  congr 1
  have hc := (shape_spec hs).2.2.2.2.2
  have h3 : ∀ j : Fin t.s, t.A i j * (∑ l, t.A j l) ^ k =
      (t.iA i j * ((t.ic j ^ k : ℕ) : ℤ) : ℝ) / (10 ^ t.da) ^ (k + 1) := by
    intro j
    rw [← hc, GTab.A]
    push_cast
    rw [div_pow, div_mul_div_comm, pow_succ' ((10 : ℝ) ^ t.da)]
  rw [Finset.sum_congr rfl fun i _ => h3 i, ← Finset.sum_div, isum_spec, ← hc, div_pow]
  push_cast
  have : (k : ℝ) + 1 ≠ 0 := by positivity
  field_simp

theorem D_spec (hs : okShape t = true) {E : ℕ} (hE : 0 < E) (h : okD t E = true) {k : ℕ}
    (hk : k < t.s) (j : Fin t.s) :
    |∑ i, t.w i * (∑ l, t.A i l) ^ k * t.A i j -
      t.w j * (1 - (∑ l, t.A j l) ^ (k + 1)) / (k + 1)| ≤ 1 / E := by
  have h1 := of_decide_eq_true (allLt_spec (allLt_spec h k hk) j j.2)
  have h2 := le_of_nat hE (by positivity) h1
  refine le_of_eq_of_le ?_ h2
  congr 1
  have hc := (shape_spec hs).2.2.2.2.2
  have h3 : ∀ i : Fin t.s, t.w i * (∑ l, t.A i l) ^ k * t.A i j =
      (t.iA i j * ((t.ib i * t.ic i ^ k : ℕ) : ℤ) : ℝ) / (10 ^ t.db * (10 ^ t.da) ^ (k + 1)) := by
    intro i
    rw [← hc, GTab.A, GTab.w]
    push_cast
    rw [div_pow, div_mul_div_comm, div_mul_div_comm, pow_succ ((10 : ℝ) ^ t.da)]
    ring
  rw [Finset.sum_congr rfl fun i _ => h3 i, ← Finset.sum_div, isum_spec, ← hc, div_pow, GTab.w]
  push_cast
  have : (k : ℝ) + 1 ≠ 0 := by positivity
  field_simp

theorem Q_spec (hs : okShape t = true) (h0 : 0 < t.s) (h : okQ t = true) :
    ∑ j, t.A ⟨0, h0⟩ j + 1 / 2 ≤ ∑ j, t.Q ⟨0, h0⟩ j := by
  have h1 := of_decide_eq_true h
  rw [ge_iff_le, isum_spec] at h1
  have h2 : ((2 * (t.ic 0 : ℝ)) + 10 ^ t.da) * 10 ^ t.dq ≤
      (∑ j : Fin t.s, (t.iq 0 j : ℝ)) * 10 ^ t.da * 2 := by exact_mod_cast h1
  have hc := (shape_spec hs).2.2.2.2.2 ⟨0, h0⟩
  rw [← hc]
  have h3 : ∑ j, t.Q ⟨0, h0⟩ j = (∑ j : Fin t.s, (t.iq 0 j : ℝ)) / 10 ^ t.dq := by
    rw [Finset.sum_div]; rfl
  rw [h3]
  have ha : (0 : ℝ) < 10 ^ t.da := by positivity
  have hq : (0 : ℝ) < 10 ^ t.dq := by positivity
  rw [le_div_iff₀ hq]
  have h4 : ((t.ic 0 : ℝ) / 10 ^ t.da + 1 / 2) * 10 ^ t.dq =
      ((2 * (t.ic 0 : ℝ)) + 10 ^ t.da) * 10 ^ t.dq / (2 * 10 ^ t.da) := by
    field_simp
  show ((t.ic 0 : ℝ) / 10 ^ t.da + 1 / 2) * 10 ^ t.dq ≤ _
  rw [h4, div_le_iff₀ (by positivity)]
  linarith

/-- entries of a list of rows of the same length. -/
theorem flatten_getD {α : Type} (L : List (List α)) (s : ℕ) (d : α) (hL : ∀ r ∈ L, r.length = s)
    (i j : ℕ) (hj : j < s) : L.flatten.getD (i * s + j) d = (L.getD i []).getD j d := by
  induction L generalizing i with
  | nil => simp
  | cons r L ih =>
    have hr := hL r (by simp)
    rw [List.flatten_cons]
    cases i with
    | zero => rw [Nat.zero_mul, Nat.zero_add, List.getD_append _ _ _ _ (by omega), List.getD_cons_zero]
    | succ i =>
      rw [List.getD_append_right _ _ _ _ (by rw [hr]; nlinarith), List.getD_cons_succ,
        ← ih (fun r hr => hL r (by simp [hr])) i]
      congr 1
      rw [hr]
      have : (i + 1) * s = i * s + s := by ring
      omega

theorem flatten_length {α : Type} (L : List (List α)) (s : ℕ) (hL : ∀ r ∈ L, r.length = s) :
    L.flatten.length = L.length * s := by
  induction L with
  | nil => simp
  | cons r L ih =>
    rw [List.flatten_cons, List.length_append, ih fun r hr => hL r (by simp [hr]), hL r (by simp),
      List.length_cons]
    ring

theorem getD_map {α β : Type} (l : List α) (f : α → β) (k : ℕ) (a : α) (b : β) (h : f a = b) :
    (l.map f).getD k b = f (l.getD k a) := by
  rw [← h, List.getD_map]

theorem la_getD (h : okShape t = true) (i j : Fin t.s) : t.la.getD (i * t.s + j) 0 = t.A i j := by
  rw [GTab.la, getD_map _ _ _ (0 : ℤ) _ (by simp),
    flatten_getD _ _ _ (shape_spec h).2.1 _ _ j.2]
  rfl

theorem lb_getD (i : Fin t.s) : t.lb.getD i 0 = t.w i := by
  rw [GTab.lb, getD_map _ _ _ (0 : ℕ) _ (by simp)]
  rfl

theorem lc_getD (h : okShape t = true) (i j : Fin t.s) : t.lc.getD (i * t.s + j) 0 = t.Q i j := by
  rw [GTab.lc, getD_map _ _ _ (0 : ℤ) _ (by simp),
    flatten_getD _ _ _ (shape_spec h).2.2.2.2.1 _ _ j.2]
  rfl

/-- lengths of the lists. -/
theorem la_length (h : okShape t = true) : t.la.length = t.s * t.s ∧ t.lb.length = t.s ∧
    t.lc.length = t.s * t.s := by
  obtain ⟨h1, h2, h3, h4, h5, -⟩ := shape_spec h
  refine ⟨?_, ?_, ?_⟩
  · rw [GTab.la, List.length_map, flatten_length _ _ h2, h1]
  · rw [GTab.lb, List.length_map, h3]
  · rw [GTab.lc, List.length_map, flatten_length _ _ h5, h4]

end Odes.Symp
