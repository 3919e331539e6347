import Verif.Model.TimeLoop
import Verif.Lemmas.SympFlt

/-!
# Adding the rounded distance to the end of the interval
-/

namespace Odes.TimeLoop

open Odes.Symp Spec

variable {F : FP}

instance : LT F.T := ⟨fun x y => x.1 < y.1⟩

theorem lt_val (x y : F.T) : x < y ↔ x.1 < y.1 := Iff.rfl
theorem le_val (x y : F.T) : x ≤ y ↔ x.1 ≤ y.1 := Iff.rfl

/-- `-x` is exact. -/
def negF (x : F.T) : F.T := ⟨-x.1, x.2.neg⟩

/-- the macro `ABS(tend-t)` of Rock4-NG/include/ToolOMP.hpp 6 (its expansion is `-tend-t` if `tend-t` is
negative); for `tend-t>=0` this is also `abs(tend-t)` of Rock4L.hpp. -/
noncomputable def distF (tend t : F.T) : F.T :=
  open Classical in if (0 : F.T) ≤ tend - t then tend - t else negF tend - t

theorem sub_nonneg' {a b : F.T} (h : b.1 ≤ a.1) : 0 ≤ (a - b).1 := by
  rw [FP.sub_val]
  exact F.rn.ge Flt.zero (by linarith)

theorem distF_eq {tend t : F.T} (h : t.1 ≤ tend.1) : distF tend t = tend - t := by
  unfold distF
  rw [if_pos]
  exact sub_nonneg' h

/-- the step ends exactly at `tend` if at least half of the way from 0 to `tend` is behind. -/
theorem land_exact {tend t : F.T} (h1 : tend.1 / 2 ≤ t.1) (h2 : t.1 ≤ tend.1) :
    t + (tend - t) = tend := by
  apply Subtype.ext
  have e : (tend - t).1 = tend.1 - t.1 := by
    rw [FP.sub_val]
    exact F.rn.exact (tend.2.sterbenz t.2 (by linarith) (by linarith))
  rw [FP.add_val, e, add_sub_cancel]
  exact F.rn.exact tend.2

theorem land_zero {tend t : F.T} (h : t.1 = 0) : t + (tend - t) = tend := by
  apply Subtype.ext
  rw [FP.add_val, FP.sub_val, h, sub_zero, F.rn.exact tend.2, zero_add, F.rn.exact tend.2]

/-- in general the error is of the size of a rounding error of `tend` and of the step. -/
theorem land_near (tend t : F.T) :
    |(t + (tend - t)).1 - tend.1| ≤
      F.eps * |tend.1| + (1 + F.eps) * (F.eps * |tend.1 - t.1|) := by
  have he := F.eps_pos
  have h1 := F.err (tend.1 - t.1)
  have h2 := F.err (t.1 + (tend - t).1)
  rw [FP.add_val]
  rw [FP.sub_val] at h2 ⊢
  set d := F.rnd (tend.1 - t.1)
  set r := F.rnd (t.1 + d)
  have h3 : |t.1 + d| ≤ |tend.1| + |d - (tend.1 - t.1)| := by
    have : t.1 + d = tend.1 + (d - (tend.1 - t.1)) := by ring
    rw [this]; exact abs_add_le _ _
  have h4 : r - tend.1 = (r - (t.1 + d)) + (d - (tend.1 - t.1)) := by ring
  rw [h4]
  refine (abs_add_le _ _).trans ?_
  have h5 := mul_le_mul_of_nonneg_left h3 he.le
  have h6 := mul_le_mul_of_nonneg_left h1 he.le
  nlinarith

/-- rounding of a number strictly between the midpoints around `m*2^e`. -/
theorem rnd_eq (F : FP) {m e : ℤ} {x : ℝ} (hm : m < 2 ^ F.p) (h0 : (2 : ℝ) ^ (F.p - 1 : ℤ) * 2 ^ e ≤ x)
    (h1 : 2 * |x - m * 2 ^ e| < 2 ^ e) (hm0 : 0 ≤ m) : F.rnd x = m * 2 ^ e := by
  have hpos : (0 : ℝ) < 2 ^ e := z2 e
  have hf : Flt F.p ((2 : ℝ) ^ (F.p - 1 : ℤ) * 2 ^ e) := by
    rw [← zpow_add₀ (by norm_num)]; exact Flt.two_zpow F.hp _
  have h2 := F.rn.ge hf h0
  have h3 : (0 : ℝ) < 2 ^ (F.p - 1 : ℤ) * 2 ^ e := mul_pos (z2 _) (z2 _)
  obtain ⟨k, hk⟩ := (F.rn.flt x).multiple F.hp (e := e) (by rw [abs_of_pos (by linarith)]; exact h2)
  have h4 := F.rn.near x (m * 2 ^ e) ⟨m, e, by rw [abs_of_nonneg hm0]; exact hm, rfl⟩
  rw [hk] at h4 ⊢
  have h5 : |((k - m : ℤ) : ℝ) * 2 ^ e| < 2 ^ e := by
    have : ((k - m : ℤ) : ℝ) * 2 ^ e = -(x - k * 2 ^ e) + (x - m * 2 ^ e) := by push_cast; ring
    rw [this]
    refine (abs_add_le _ _).trans_lt ?_
    rw [abs_neg]; linarith
  rw [abs_mul, abs_of_pos hpos] at h5
  have h6 : |((k - m : ℤ) : ℝ)| < 1 := by
    by_contra hcon
    rw [not_lt] at hcon
    nlinarith
  have h7 : |k - m| < 1 := by exact_mod_cast h6
  have : k = m := by
    have := Int.abs_lt_one_iff.1 h7
    omega
  rw [this]

end Odes.TimeLoop
