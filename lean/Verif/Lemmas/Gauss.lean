import Verif.Tables.Gauss
import Verif.Spec.Symplectic
import Mathlib.Algebra.BigOperators.Intervals
import Mathlib.Tactic.Linarith
import Mathlib.Tactic.FieldSimp
import Mathlib.Data.Real.Basic

/-!
# Tables of the Gauss methods: conditions checked on the whole tables
-/

namespace Odes.Symp

open Spec

namespace GTab

/-- entries, 0 outside. -/
def iA (t : GTab) (i j : ℕ) : ℤ := (t.rows.getD i []).getD j 0
@[inherit_doc iA] def ib (t : GTab) (i : ℕ) : ℕ := t.b.getD i 0
@[inherit_doc iA] def ic (t : GTab) (i : ℕ) : ℕ := t.c.getD i 0
@[inherit_doc iA] def iq (t : GTab) (i j : ℕ) : ℤ := (t.q.getD i []).getD j 0

/-- the real numbers written in the source. -/
noncomputable def A (t : GTab) (i j : Fin t.s) : ℝ := (t.iA i j : ℝ) / 10 ^ t.da
@[inherit_doc A] noncomputable def w (t : GTab) (i : Fin t.s) : ℝ := (t.ib i : ℝ) / 10 ^ t.db
@[inherit_doc A] noncomputable def Q (t : GTab) (i j : Fin t.s) : ℝ := (t.iq i j : ℝ) / 10 ^ t.dq
/-- the lists `la`, `lb`, `lc` as real numbers. -/
noncomputable def la (t : GTab) : List ℝ := t.rows.flatten.map fun (m : ℤ) => (m : ℝ) / 10 ^ t.da
@[inherit_doc la] noncomputable def lb (t : GTab) : List ℝ := t.b.map fun (m : ℕ) => (m : ℝ) / 10 ^ t.db
@[inherit_doc la] noncomputable def lc (t : GTab) : List ℝ := t.q.flatten.map fun (m : ℤ) => (m : ℝ) / 10 ^ t.dq

end GTab

/-- `∀ i < k`, computed. -/
def allLt : ℕ → (ℕ → Bool) → Bool
  | 0, _ => true
  | k + 1, p => p k && allLt k p

theorem allLt_spec {k : ℕ} {p : ℕ → Bool} (h : allLt k p = true) : ∀ i, i < k → p i = true := by
  induction k with
  | zero => intro i hi; omega
  | succ k ih =>
    rw [allLt, Bool.and_eq_true] at h
    intro i hi
    rcases Nat.lt_succ_iff_lt_or_eq.1 hi with hi | rfl
    · exact ih h.2 i hi
    · exact h.1

/-- a sum, computed. -/
def isum : ℕ → (ℕ → ℤ) → ℤ
  | 0, _ => 0
  | k + 1, g => isum k g + g k

theorem isum_spec (k : ℕ) (g : ℕ → ℤ) : isum k g = ∑ i : Fin k, g i := by
  rw [Fin.sum_univ_eq_sum_range]
  induction k with
  | zero => rfl
  | succ k ih => rw [isum, ih, Finset.sum_range_succ]

/-- shape of a table; sums of the rows. -/
def okShape (t : GTab) : Bool :=
  t.rows.length == t.s && t.rows.all (fun r => r.length == t.s) && t.b.length == t.s &&
  t.q.length == t.s && t.q.all (fun r => r.length == t.s) &&
  allLt t.s fun i => isum t.s (t.iA i) == t.ic i

/-- defect of the symplecticity condition at most `1/E`. -/
def okCoop (t : GTab) (E : ℕ) : Bool :=
  allLt t.s fun i => allLt t.s fun j =>
    ((t.ib i * t.iA i j + t.ib j * t.iA j i) * 10 ^ t.db - t.ib i * t.ib j * 10 ^ t.da : ℤ).natAbs * E
      ≤ 10 ^ t.da * 10 ^ t.db * 10 ^ t.db

/-- `B(2s)` to `1/E`. -/
def okB (t : GTab) (E : ℕ) : Bool :=
  allLt (2 * t.s) fun k =>
    ((k + 1 : ℕ) * isum t.s (fun i => ((t.ib i * t.ic i ^ k : ℕ) : ℤ)) -
      ((10 ^ t.db * (10 ^ t.da) ^ k : ℕ) : ℤ)).natAbs * E ≤ (k + 1) * 10 ^ t.db * (10 ^ t.da) ^ k

/-- `C(s)` to `1/E`. -/
def okC (t : GTab) (E : ℕ) : Bool :=
  allLt t.s fun k => allLt t.s fun i =>
    ((k + 1 : ℕ) * isum t.s (fun j => t.iA i j * ((t.ic j ^ k : ℕ) : ℤ)) -
      ((t.ic i ^ (k + 1) : ℕ) : ℤ)).natAbs * E ≤ (k + 1) * (10 ^ t.da) ^ (k + 1)

/-- `D(s)` to `1/E`. -/
def okD (t : GTab) (E : ℕ) : Bool :=
  allLt t.s fun k => allLt t.s fun j =>
    ((k + 1 : ℕ) * isum t.s (fun i => t.iA i j * ((t.ib i * t.ic i ^ k : ℕ) : ℤ)) -
      (t.ib j : ℤ) * (((10 ^ t.da) ^ (k + 1) : ℕ) - ((t.ic j ^ (k + 1) : ℕ) : ℤ))).natAbs * E ≤
        (k + 1) * 10 ^ t.db * (10 ^ t.da) ^ (k + 1)

/-- first row of the extrapolation: the sum is not the first node. -/
def okQ (t : GTab) : Bool :=
  isum t.s (t.iq 0) * 10 ^ t.da * 2 ≥ (2 * t.ic 0 + 10 ^ t.da : ℤ) * 10 ^ t.dq

theorem gaussD_ok : gaussD.all (fun t => okShape t && okCoop t (4 * 10 ^ 12) && okB t (10 ^ 12) &&
    okC t (5 * 10 ^ 11) && okD t (2 * 10 ^ 12) && okQ t) = true := by decide +kernel

theorem gaussL_ok : gaussL.all (fun t => okShape t && okCoop t (4 * 10 ^ 33) && okB t (10 ^ 33) &&
    okC t (10 ^ 33) && okD t (10 ^ 33) && okQ t) = true := by decide +kernel

end Odes.Symp
