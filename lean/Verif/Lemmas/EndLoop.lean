import Verif.Model.EndLoop
import Verif.Props.HessFloat

/-!
# The time loops of Rodas and Radau5 with rounded operations: elementary facts
-/

namespace Odes.EndLoop

open Odes.Symp Odes.TimeLoop Odes.Hess Spec

variable {F : FP}

/-- rounding is monotone, whatever the rule for ties. -/
theorem rnd_mono (F : FP) {x y : ℝ} (h : x ≤ y) : F.rnd x ≤ F.rnd y := by
  rcases h.eq_or_lt with rfl | h
  · exact le_rfl
  by_contra hcon
  rw [not_le] at hcon
  have h1 := F.rn.near x _ (F.rn.flt y)
  have h2 := F.rn.near y _ (F.rn.flt x)
  rw [abs_le_abs_iff_sq] at h1 h2
  nlinarith
where
  abs_le_abs_iff_sq {a b : ℝ} : |a| ≤ |b| ↔ a ^ 2 ≤ b ^ 2 := (sq_le_sq).symm

theorem rnd_pos (F : FP) {x : ℝ} (h : 0 < x) : 0 < F.rnd x := by
  have h1 := F.err x
  have h2 := F.eps_le
  have h3 := F.eps_pos
  rw [abs_of_pos h, abs_le] at h1
  nlinarith

/-- the sign of a computed difference is right. -/
theorem sub_pos' (a b : F.T) : 0 < (a - b).1 ↔ b.1 < a.1 := by
  rw [FP.sub_val]
  refine ⟨fun h => ?_, fun h => rnd_pos F (by linarith)⟩
  by_contra hc
  rw [not_lt] at hc
  have := F.rn.le Flt.zero (show a.1 - b.1 ≤ 0 by linarith)
  linarith

theorem sub_nonneg_iff (a b : F.T) : 0 ≤ (a - b).1 ↔ b.1 ≤ a.1 := by
  refine ⟨fun h => ?_, sub_nonneg'⟩
  by_contra hc
  rw [not_le] at hc
  have := (sub_pos' b a).2 hc
  rw [FP.sub_val] at h this
  have h1 := F.err (a.1 - b.1)
  have h2 := F.eps_le
  have h3 := F.eps_pos
  rw [abs_of_neg (show a.1 - b.1 < 0 by linarith), abs_le] at h1
  nlinarith

theorem mul_one' (a : F.T) : a * 1 = a := by
  apply Subtype.ext
  rw [FP.mul_val, FP.one_val, mul_one, F.rn.exact a.2]

theorem one_mul' (a : F.T) : 1 * a = a := by
  apply Subtype.ext
  rw [FP.mul_val, FP.one_val, one_mul, F.rn.exact a.2]

theorem div_one' (a : F.T) : a / 1 = a := by
  apply Subtype.ext
  rw [div_val, FP.one_val, div_one, F.rn.exact a.2]

/-- adding a nonnegative number does not decrease. -/
theorem le_add' (x : F.T) {h : F.T} (h0 : 0 ≤ h.1) : x.1 ≤ (x + h).1 := by
  rw [FP.add_val]; exact F.rn.ge x.2 (by linarith)

theorem add_mono (x : F.T) {h h' : F.T} (hh : h.1 ≤ h'.1) : (x + h).1 ≤ (x + h').1 := by
  rw [FP.add_val, FP.add_val]; exact rnd_mono F (by linarith)

/-- the quotient of two different floating point numbers does not round to 1. -/
theorem quot_lt {a b : F.T} (ha : 0 < a.1) (hab : a.1 < b.1) : (a / b).1 < 1 := by
  have hb : 0 < b.1 := ha.trans hab
  obtain ⟨m, e, m1, m2, hm⟩ := b.2.normal F.hp hb.ne'
  have he := z2 e
  have hm0 : 0 < m := by
    rw [hm] at hb
    exact_mod_cast pos_of_mul_pos_left hb he.le
  rw [abs_of_pos hm0] at m1 m2
  by_contra hcon
  rw [not_lt, div_val] at hcon
  have hz : Flt F.p (1 - (2 : ℝ) ^ (-(F.p : ℤ))) := by
    refine ⟨2 ^ F.p - 1, -(F.p : ℤ), ?_, ?_⟩
    · rw [abs_of_nonneg]
      · linarith
      · have : (1 : ℤ) ≤ 2 ^ F.p := one_le_pow₀ (by norm_num)
        linarith
    · push_cast
      rw [sub_mul, one_mul, zpow_neg, zpow_natCast, mul_inv_cancel₀ (by positivity)]
  have hq : a.1 / b.1 < 1 := (div_lt_one hb).2 hab
  have h1 := F.rn.near (a.1 / b.1) _ hz
  set q := a.1 / b.1
  set u := (2 : ℝ) ^ (-(F.p : ℤ)) with hu
  have hu0 : 0 < u := z2 _
  have h2 : 1 - q ≤ |q - (1 - u)| := by
    refine le_trans ?_ h1
    rw [abs_of_neg (by linarith)]; linarith
  have h3 : 1 - u / 2 ≤ q := by
    rcases abs_cases (q - (1 - u)) with ⟨e1, _⟩ | ⟨e1, _⟩ <;> rw [e1] at h2 <;> linarith
  have h4 : b.1 * (1 - u / 2) ≤ a.1 := by
    have : a.1 = b.1 * q := by rw [mul_div_cancel₀ _ hb.ne']
    rw [this]; exact mul_le_mul_of_nonneg_left h3 hb.le
  have hu1 : u ≤ 1 / 2 := by
    have : u = F.eps := by rw [hu, FP.eps, zpow_neg, zpow_natCast, one_div]
    rw [this]; exact F.eps_le
  have m1' : (2 : ℝ) ^ (F.p - 1 : ℤ) ≤ m := by
    have : ((F.p : ℤ) - 1) = ((F.p - 1 : ℕ) : ℤ) := by have := F.hp; omega
    rw [this, zpow_natCast]; exact_mod_cast m1
  have m2' : (m : ℝ) * u < 1 := by
    rw [hu, zpow_neg, zpow_natCast, ← div_eq_mul_inv, div_lt_one (by positivity)]
    exact_mod_cast m2
  have e1 : (2 : ℝ) ^ (e - 1) = 2 ^ e / 2 := by
    rw [zpow_sub₀ (by norm_num), zpow_one]
  obtain ⟨k, hk⟩ := a.2.multiple F.hp (e := e - 1) (by
    rw [abs_of_pos ha, e1]
    refine le_trans ?_ h4
    rw [hm]
    nlinarith [mul_le_mul_of_nonneg_right m1' he.le])
  have h5 : b.1 - a.1 = ((2 * m - k : ℤ) : ℝ) * (2 ^ e / 2) := by
    rw [hk, hm, e1]; push_cast; ring
  have h6 : (1 : ℝ) ≤ ((2 * m - k : ℤ) : ℝ) := by
    have : 0 < ((2 * m - k : ℤ) : ℝ) * (2 ^ e / 2) := by rw [← h5]; linarith
    have : 0 < ((2 * m - k : ℤ) : ℝ) := pos_of_mul_pos_left this (by positivity)
    exact_mod_cast this
  have h7 : 2 ^ e / 2 ≤ b.1 - a.1 := by
    rw [h5]; nlinarith
  have h8 : b.1 * u < 2 ^ e := by
    rw [hm]
    calc (m : ℝ) * 2 ^ e * u = (m * u) * 2 ^ e := by ring
      _ < 1 * 2 ^ e := mul_lt_mul_of_pos_right m2' he
      _ = _ := one_mul _
  nlinarith

/-- the setting of a call with `x < xend`: `posneg=1`, and the macros. -/
structure Fwd (c : Cn F.T) : Prop where
  posneg : c.posneg = 1
  zero : c.zero = 0
  quot1 : c.quot1 = 1
  abs : ∀ x, (c.abs x).1 = |x.1|
  min : ∀ x y, (c.min x y).1 = min x.1 y.1
  dist : c.dist = distF c.xend
  hmaxn : 0 < c.hmaxn.1
  c1e6 : 0 < c.c1e6.1
  c10001 : c.c10001.1 = F.rnd 1.0001
  c01 : c.c01.1 = F.rnd 0.1
  uround : 0 < c.uround.1

namespace Fwd

variable {c : Cn F.T}

/-- the step before the test of the end. -/
noncomputable def pre (c : Cn F.T) (s : Rs F.T) : F.T :=
  open Classical in c.min (c.abs (if c.abs s.h < c.c10u then c.c1e6 else s.h)) c.hmaxn

theorem pre_nonneg (W : Fwd c) (s : Rs F.T) : 0 ≤ (pre c s).1 := by
  unfold pre
  rw [W.min, W.abs]
  exact le_min (abs_nonneg _) W.hmaxn.le

theorem pre_pos (W : Fwd c) {s : Rs F.T} (h : s.h.1 ≠ 0) : 0 < (pre c s).1 := by
  unfold pre
  rw [W.min, W.abs]
  refine lt_min (abs_pos.2 ?_) W.hmaxn
  split_ifs
  · exact W.c1e6.ne'
  · exact h

theorem clip_eq (W : Fwd c) (s : Rs F.T) :
    (c.xend.1 < (s.x + pre c s * c.c10001).1 ∧ clip c s = { s with h := c.xend - s.x, last := true }) ∨
    ((s.x + pre c s * c.c10001).1 ≤ c.xend.1 ∧ clip c s = { s with h := pre c s }) := by
  have e : ∀ p : F.T, (c.zero < (s.x + p * c.posneg * c.c10001 - c.xend) * c.posneg) ↔
      c.xend.1 < (s.x + p * c.c10001).1 := by
    intro p
    rw [W.posneg, W.zero, mul_one', mul_one', lt_val, FP.zero_val, sub_pos']
  by_cases h : c.xend.1 < (s.x + pre c s * c.c10001).1
  · left
    refine ⟨h, ?_⟩
    unfold clip
    rw [← e] at h
    unfold pre at h
    simp only
    rw [if_pos h, if_pos h]
  · right
    refine ⟨not_lt.1 h, ?_⟩
    rw [← e] at h
    unfold clip
    unfold pre at h ⊢
    simp only
    rw [if_neg h, if_neg h, W.posneg, mul_one']

theorem c1 (W : Fwd c) : 1 ≤ c.c10001.1 := by
  rw [W.c10001]; exact F.rn.ge (Flt.one F.hp) (by norm_num)

/-- a step which is not chopped does not pass `xend`. -/
theorem pre_le (W : Fwd c) {s : Rs F.T} (h : (s.x + pre c s * c.c10001).1 ≤ c.xend.1) :
    (s.x + pre c s).1 ≤ c.xend.1 := by
  refine (add_mono _ ?_).trans h
  rw [FP.mul_val]
  refine F.rn.ge (pre c s).2 ?_
  have := W.c1
  have := W.pre_nonneg s
  nlinarith

end Fwd

end Odes.EndLoop
