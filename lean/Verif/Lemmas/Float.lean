import Mathlib.Data.Real.Archimedean
import Mathlib.Algebra.Order.Field.Power
import Mathlib.Algebra.Order.Round
import Mathlib.Data.Int.Log
import Mathlib.Tactic.Linarith
import Mathlib.Tactic.FieldSimp
import Mathlib.Tactic.Positivity
import Mathlib.Tactic.NormNum
import Mathlib.Tactic.Ring

/-!
# Binary floating point numbers with `p` bits, exponents without bound; round to nearest

No overflow, no underflow, no NaN.
-/

namespace Odes.Spec

/-- a number with `p` significant bits. -/
def Flt (p : ℕ) (x : ℝ) : Prop := ∃ m e : ℤ, |m| < 2 ^ p ∧ x = m * (2 : ℝ) ^ e

/-- `rnd` rounds to a nearest number with `p` bits (any rule for ties). -/
structure IsRN (p : ℕ) (rnd : ℝ → ℝ) : Prop where
  flt : ∀ x, Flt p (rnd x)
  near : ∀ x y, Flt p y → |x - rnd x| ≤ |x - y|

variable {p : ℕ}

theorem z2 (e : ℤ) : (0 : ℝ) < 2 ^ e := zpow_pos (by norm_num) e

theorem Flt.zero : Flt p 0 := ⟨0, 0, by simp, by simp⟩

theorem Flt.neg {x : ℝ} (h : Flt p x) : Flt p (-x) := by
  obtain ⟨m, e, h1, h2⟩ := h
  exact ⟨-m, e, by rwa [abs_neg], by rw [h2]; push_cast; ring⟩

theorem Flt.two_zpow (hp : 1 ≤ p) (e : ℤ) : Flt p ((2 : ℝ) ^ e) := by
  refine ⟨1, e, ?_, by simp⟩
  rw [abs_one]
  exact one_lt_pow₀ (by norm_num) (by omega)

theorem Flt.one (hp : 1 ≤ p) : Flt p 1 := by simpa using Flt.two_zpow hp 0

theorem Flt.mul_zpow {x : ℝ} (h : Flt p x) (k : ℤ) : Flt p (x * 2 ^ k) := by
  obtain ⟨m, e, h1, h2⟩ := h
  exact ⟨m, e + k, h1, by rw [h2, zpow_add₀ (by norm_num)]; ring⟩

/-- exponent such that `x` has `p` bits before the point. -/
theorem exists_scale (hp : 1 ≤ p) {x : ℝ} (hx : x ≠ 0) :
    ∃ e : ℤ, (2 : ℝ) ^ (p - 1 : ℤ) * 2 ^ e ≤ |x| ∧ |x| < (2 : ℝ) ^ (p : ℤ) * 2 ^ e := by
  have hpos : 0 < |x| := abs_pos.2 hx
  refine ⟨Int.log 2 |x| - (p - 1), ?_, ?_⟩
  · rw [← zpow_add₀ (by norm_num)]
    have := Int.zpow_log_le_self (b := 2) (by norm_num) hpos
    simpa using this
  · rw [← zpow_add₀ (by norm_num)]
    have := Int.lt_zpow_succ_log_self (b := 2) (by norm_num) |x|
    rw [show (p : ℤ) + (Int.log 2 |x| - (p - 1)) = Int.log 2 |x| + 1 by ring]
    exact_mod_cast this

/-- normalized form. -/
theorem Flt.normal (hp : 1 ≤ p) {x : ℝ} (h : Flt p x) (hx : x ≠ 0) :
    ∃ m e : ℤ, 2 ^ (p - 1) ≤ |m| ∧ |m| < 2 ^ p ∧ x = m * (2 : ℝ) ^ e := by
  obtain ⟨m, e, h1, h2⟩ := h
  obtain ⟨e', h3, h4⟩ := exists_scale hp hx
  have hee : e' ≤ e := by
    by_contra hcon
    push Not at hcon
    have hm : |(m : ℝ)| ≤ (2 : ℝ) ^ p - 1 := by
      have : |m| + 1 ≤ 2 ^ p := h1
      have : ((|m| + 1 : ℤ) : ℝ) ≤ ((2 ^ p : ℤ) : ℝ) := by exact_mod_cast this
      push_cast at this
      linarith
    have h5 : |x| = |(m : ℝ)| * 2 ^ e := by
      rw [h2, abs_mul, abs_of_pos (z2 e)]
    have h6 : (2 : ℝ) ^ (p : ℤ) * 2 ^ e ≤ 2 ^ (p - 1 : ℤ) * 2 ^ e' := by
      rw [← zpow_add₀ (by norm_num), ← zpow_add₀ (by norm_num)]
      exact zpow_le_zpow_right₀ (by norm_num) (by omega)
    have hpos : (0 : ℝ) < 2 ^ e := z2 e
    rw [zpow_natCast] at h6
    nlinarith
  obtain ⟨d, hd⟩ : ∃ d : ℕ, e = e' + d := ⟨(e - e').toNat, by omega⟩
  have hx2 : x = ((m * 2 ^ d : ℤ) : ℝ) * 2 ^ e' := by
    rw [h2, hd, zpow_add₀ (by norm_num)]
    push_cast
    rw [zpow_natCast]; ring
  have hpos : (0 : ℝ) < 2 ^ e' := z2 e'
  have habs : |x| = ((|m * 2 ^ d| : ℤ) : ℝ) * 2 ^ e' := by
    rw [hx2, abs_mul, abs_of_pos hpos, Int.cast_abs]
  rw [habs] at h3 h4
  have h3' := le_of_mul_le_mul_right h3 hpos
  have h4' := lt_of_mul_lt_mul_right h4 hpos.le
  refine ⟨m * 2 ^ d, e', ?_, ?_, hx2⟩
  · have : ((2 ^ (p - 1) : ℤ) : ℝ) ≤ ((|m * 2 ^ d| : ℤ) : ℝ) := by
      refine le_trans (le_of_eq ?_) h3'
      push_cast
      rw [show (p : ℤ) - 1 = ((p - 1 : ℕ) : ℤ) by omega, zpow_natCast]
    exact_mod_cast this
  · have : ((|m * 2 ^ d| : ℤ) : ℝ) < ((2 ^ p : ℤ) : ℝ) := by
      refine lt_of_lt_of_eq h4' ?_
      push_cast
      rw [zpow_natCast]
    exact_mod_cast this

/-- a number with `p` bits which is not smaller than `2^(p-1+e)` is an integer multiple of `2^e`. -/
theorem Flt.multiple (hp : 1 ≤ p) {x : ℝ} (h : Flt p x) {e : ℤ}
    (hx : (2 : ℝ) ^ (p - 1 : ℤ) * 2 ^ e ≤ |x|) : ∃ k : ℤ, x = k * (2 : ℝ) ^ e := by
  have hpos : (0 : ℝ) < 2 ^ (p - 1 : ℤ) * 2 ^ e := mul_pos (z2 _) (z2 _)
  have hx0 : x ≠ 0 := fun h0 => by rw [h0, abs_zero] at hx; linarith
  obtain ⟨m, e', h1, h2, h3⟩ := h.normal hp hx0
  have hle : e ≤ e' := by
    by_contra hcon
    push Not at hcon
    have h4 : |x| = ((|m| : ℤ) : ℝ) * 2 ^ e' := by
      rw [h3, abs_mul, abs_of_pos (z2 e'), Int.cast_abs]
    have h5 : ((|m| : ℤ) : ℝ) < 2 ^ (p : ℤ) := by
      rw [zpow_natCast]
      exact_mod_cast h2
    have h6 : (2 : ℝ) ^ (p : ℤ) * 2 ^ e' ≤ 2 ^ (p - 1 : ℤ) * 2 ^ e := by
      rw [← zpow_add₀ (by norm_num), ← zpow_add₀ (by norm_num)]
      exact zpow_le_zpow_right₀ (by norm_num) (by omega)
    have hpos' : (0 : ℝ) < 2 ^ e' := z2 e'
    nlinarith
  obtain ⟨d, hd⟩ : ∃ d : ℕ, e' = e + d := ⟨(e' - e).toNat, by omega⟩
  refine ⟨m * 2 ^ d, ?_⟩
  rw [h3, hd, zpow_add₀ (by norm_num)]
  push_cast
  rw [zpow_natCast]; ring

/-- an integer multiple of `2^e` not larger than a multiple with `p` bits. -/
theorem Flt.of_le {k m e : ℤ} (hm : |m| < 2 ^ p) (h : |(k : ℝ) * 2 ^ e| ≤ |(m : ℝ) * 2 ^ e|) :
    Flt p (k * 2 ^ e) := by
  refine ⟨k, e, lt_of_le_of_lt ?_ hm, rfl⟩
  have hpos : (0 : ℝ) < 2 ^ e := z2 e
  rw [abs_mul, abs_mul, abs_of_pos hpos] at h
  have := le_of_mul_le_mul_right h hpos
  exact_mod_cast this

/-- Sterbenz: the difference of two numbers within a factor 2 is exact. -/
theorem Flt.sterbenz {x y : ℝ} (hx : Flt p x) (hy : Flt p y) (h1 : y / 2 ≤ x) (h2 : x ≤ 2 * y) :
    Flt p (x - y) := by
  obtain ⟨mx, ex, hmx, rfl⟩ := hx
  obtain ⟨my, ey, hmy, rfl⟩ := hy
  set x := (mx : ℝ) * 2 ^ ex with hxd
  set y := (my : ℝ) * 2 ^ ey with hyd
  have hy0 : 0 ≤ y := by linarith
  have hx0 : 0 ≤ x := by linarith
  rcases le_total ex ey with hle | hle
  · obtain ⟨d, hd⟩ : ∃ d : ℕ, ey = ex + d := ⟨(ey - ex).toNat, by omega⟩
    have e : x - y = ((mx - my * 2 ^ d : ℤ) : ℝ) * 2 ^ ex := by
      rw [hxd, hyd, hd, zpow_add₀ (by norm_num)]
      push_cast
      rw [zpow_natCast]; ring
    rw [e]
    refine Flt.of_le hmx ?_
    rw [← e, ← hxd, abs_of_nonneg hx0, abs_le]
    constructor <;> linarith
  · obtain ⟨d, hd⟩ : ∃ d : ℕ, ex = ey + d := ⟨(ex - ey).toNat, by omega⟩
    have e : x - y = ((mx * 2 ^ d - my : ℤ) : ℝ) * 2 ^ ey := by
      rw [hxd, hyd, hd, zpow_add₀ (by norm_num)]
      push_cast
      rw [zpow_natCast]; ring
    rw [e]
    refine Flt.of_le hmy ?_
    rw [← e, ← hyd, abs_of_nonneg hy0, abs_le]
    constructor <;> linarith

section Rounding

variable {rnd : ℝ → ℝ} (hr : IsRN p rnd)

include hr

theorem IsRN.exact {x : ℝ} (h : Flt p x) : rnd x = x := by
  have := hr.near x x h
  rw [sub_self, abs_zero] at this
  have := abs_nonpos_iff.1 this
  linarith

theorem IsRN.ge {x y : ℝ} (hy : Flt p y) (h : y ≤ x) : y ≤ rnd x := by
  by_contra hcon
  push Not at hcon
  have := hr.near x y hy
  rw [abs_of_nonneg (by linarith), abs_of_nonneg (by linarith)] at this
  linarith

theorem IsRN.le {x y : ℝ} (hy : Flt p y) (h : x ≤ y) : rnd x ≤ y := by
  by_contra hcon
  push Not at hcon
  have := hr.near x y hy
  rw [abs_of_nonpos (by linarith), abs_of_nonpos (by linarith)] at this
  linarith

/-- relative error of one rounding. -/
theorem IsRN.rel (hp : 1 ≤ p) (x : ℝ) : |x - rnd x| ≤ |x| / 2 ^ p := by
  by_cases hx : x = 0
  · rw [hx, hr.exact Flt.zero]; simp
  obtain ⟨e, h1, h2⟩ := exists_scale hp hx
  have hpos : (0 : ℝ) < 2 ^ e := z2 e
  set k := round (x / 2 ^ e) with hk
  have hk1 : |x / 2 ^ e - k| ≤ 1 / 2 := abs_sub_round _
  have hxk : |x - k * 2 ^ e| ≤ 2 ^ e / 2 := by
    have : x - k * 2 ^ e = (x / 2 ^ e - k) * 2 ^ e := by field_simp
    rw [this, abs_mul, abs_of_pos hpos]
    nlinarith
  have hflt : Flt p ((k : ℝ) * 2 ^ e) := by
    have hkp : |k| ≤ 2 ^ p := by
      have h3 : |x / 2 ^ e| < 2 ^ p := by
        rw [abs_div, abs_of_pos hpos, div_lt_iff₀ hpos]
        simpa using h2
      have h4 : ((|k| : ℤ) : ℝ) < 2 ^ p + 1 := by
        rw [Int.cast_abs]
        have : |(k : ℝ)| ≤ |x / 2 ^ e - k| + |x / 2 ^ e| := by
          have := abs_sub_abs_le_abs_sub (k : ℝ) (x / 2 ^ e)
          rw [abs_sub_comm] at this
          linarith
        linarith
      have : |k| < 2 ^ p + 1 := by exact_mod_cast h4
      omega
    rcases lt_or_eq_of_le hkp with hlt | heq
    · exact ⟨k, e, hlt, rfl⟩
    · have h5 : Flt p ((2 : ℝ) ^ ((p : ℤ) + e)) := Flt.two_zpow hp _
      rw [zpow_add₀ (by norm_num), zpow_natCast] at h5
      rcases abs_eq (by positivity : (0 : ℤ) ≤ 2 ^ p) |>.1 heq with h6 | h6
      · rw [h6]; push_cast; exact h5
      · rw [h6]; push_cast; rw [neg_mul]; exact h5.neg
  refine (hr.near x _ hflt).trans (hxk.trans ?_)
  rw [le_div_iff₀ (by positivity)]
  refine le_trans (le_of_eq ?_) h1
  rw [show (2 : ℝ) ^ p = 2 ^ (p - 1 : ℤ) * 2 by
    rw [← zpow_natCast, ← zpow_add_one₀ (by norm_num)]; congr 1; ring]
  ring

/-- Dekker's fast two-sum, all facts needed. -/
theorem IsRN.fastTwoSum (hp : 1 ≤ p) {a b : ℝ} (ha : Flt p a) (hb : Flt p b) (hab : |b| ≤ |a|) :
    Flt p (a - rnd (a + b)) ∧ Flt p (b + (a - rnd (a + b))) := by
  by_cases hb0 : b = 0
  · rw [hb0, add_zero, hr.exact ha, sub_self, add_zero]
    exact ⟨Flt.zero, Flt.zero⟩
  obtain ⟨mb, eb, hb1, hb2, hb3⟩ := hb.normal hp hb0
  have hpos : (0 : ℝ) < 2 ^ eb := z2 eb
  have hbabs : |b| = ((|mb| : ℤ) : ℝ) * 2 ^ eb := by
    rw [hb3, abs_mul, abs_of_pos hpos, Int.cast_abs]
  have hblow : (2 : ℝ) ^ (p - 1 : ℤ) * 2 ^ eb ≤ |b| := by
    rw [hbabs]
    refine mul_le_mul_of_nonneg_right ?_ hpos.le
    rw [show (p : ℤ) - 1 = ((p - 1 : ℕ) : ℤ) by omega, zpow_natCast]
    exact_mod_cast hb1
  have hbup : |b| < 2 ^ p * 2 ^ eb := by
    rw [hbabs]
    refine mul_lt_mul_of_pos_right ?_ hpos
    exact_mod_cast hb2
  obtain ⟨ka, hka⟩ := ha.multiple hp (hblow.trans hab)
  have hsum : a + b = ((ka + mb : ℤ) : ℝ) * 2 ^ eb := by rw [hka, hb3]; push_cast; ring
  by_cases hK : |ka + mb| < 2 ^ p
  · rw [hr.exact ⟨_, _, hK, hsum⟩]
    have : a - (a + b) = -b := by ring
    rw [this]
    refine ⟨hb.neg, ?_⟩
    rw [add_neg_cancel]
    exact Flt.zero
  · push Not at hK
    have hKr : (2 : ℝ) ^ p * 2 ^ eb ≤ |a + b| := by
      rw [hsum, abs_mul, abs_of_pos hpos]
      refine mul_le_mul_of_nonneg_right ?_ hpos.le
      exact_mod_cast hK
    have hpow : Flt p ((2 : ℝ) ^ p * 2 ^ eb) := by
      have := Flt.two_zpow hp ((p : ℤ) + eb)
      rwa [zpow_add₀ (by norm_num), zpow_natCast] at this
    -- size of the rounded sum
    have hslow : (2 : ℝ) ^ p * 2 ^ eb ≤ |rnd (a + b)| := by
      rcases le_total 0 (a + b) with h0 | h0
      · rw [abs_of_nonneg h0] at hKr
        exact (hr.ge hpow hKr).trans (le_abs_self _)
      · rw [abs_of_nonpos h0] at hKr
        have := hr.le hpow.neg (by linarith : a + b ≤ -(2 ^ p * 2 ^ eb))
        exact le_trans (by linarith) (neg_le_abs _)
    have hhalf : (2 : ℝ) ^ (p - 1 : ℤ) * 2 ^ eb ≤ |rnd (a + b)| := by
      refine le_trans ?_ hslow
      refine mul_le_mul_of_nonneg_right ?_ hpos.le
      rw [← zpow_natCast]
      exact zpow_le_zpow_right₀ (by norm_num) (by omega)
    obtain ⟨ks, hks⟩ := (hr.flt (a + b)).multiple hp hhalf
    constructor
    · -- Sterbenz
      have h2a : Flt p (2 * a) := by
        have := ha.mul_zpow 1
        rwa [zpow_one, mul_comm] at this
      have h2a' : Flt p (a / 2) := by
        have := ha.mul_zpow (-1)
        rwa [zpow_neg_one, ← div_eq_mul_inv] at this
      rcases le_total 0 a with ha0 | ha0
      · rw [abs_of_nonneg ha0] at hab
        obtain ⟨hbl, hbr⟩ := abs_le.1 hab
        rw [abs_of_nonneg (by linarith : 0 ≤ a + b)] at hKr
        have h1 : a / 2 ≤ a + b := by
          rcases le_total 0 b with hb0 | hb0
          · linarith
          · rw [abs_of_nonpos hb0] at hbup; linarith
        have := ((hr.flt (a + b)).sterbenz ha (hr.ge h2a' h1) (hr.le h2a (by linarith))).neg
        rwa [neg_sub] at this
      · rw [abs_of_nonpos ha0] at hab
        obtain ⟨hbl, hbr⟩ := abs_le.1 hab
        rw [abs_of_nonpos (by linarith : a + b ≤ 0)] at hKr
        have h1 : a + b ≤ a / 2 := by
          rcases le_total 0 b with hb0 | hb0
          · rw [abs_of_nonneg hb0] at hbup; linarith
          · linarith
        have := (hr.flt (a + b)).neg.sterbenz ha.neg (by linarith [hr.le h2a' h1])
          (by linarith [hr.ge h2a (by linarith : 2 * a ≤ a + b)])
        have e : a - rnd (a + b) = -rnd (a + b) - -a := by ring
        rwa [e]
    · have e : b + (a - rnd (a + b)) = ((ka + mb - ks : ℤ) : ℝ) * 2 ^ eb := by
        rw [hks, hka]
        conv_lhs => rw [hb3]
        push_cast; ring
      rw [e]
      refine Flt.of_le hb2 ?_
      rw [← e, ← hb3]
      have := hr.near (a + b) a ha
      have e2 : b + (a - rnd (a + b)) = a + b - rnd (a + b) := by ring
      rw [e2]
      refine this.trans_eq ?_
      congr 1; ring

end Rounding

/-- round to nearest exists. -/
theorem exists_rn (hp : 1 ≤ p) : ∃ rnd, IsRN p rnd := by
  have key : ∀ x : ℝ, ∃ r, Flt p r ∧ ∀ y, Flt p y → |x - r| ≤ |x - y| := by
    intro x
    by_cases hx : x = 0
    · exact ⟨0, Flt.zero, fun y _ => by rw [hx]; simp⟩
    obtain ⟨e, h1, h2⟩ := exists_scale hp hx
    have hpos : (0 : ℝ) < 2 ^ e := z2 e
    set k := round (x / 2 ^ e) with hk
    have hgrid : ∀ z : ℤ, |x - k * 2 ^ e| ≤ |x - z * 2 ^ e| := by
      intro z
      have e1 : ∀ w : ℤ, |x - w * 2 ^ e| = |x / 2 ^ e - w| * 2 ^ e := by
        intro w
        rw [← abs_of_pos hpos, ← abs_mul, abs_of_pos hpos]
        congr 1
        field_simp
      rw [e1, e1]
      exact mul_le_mul_of_nonneg_right (round_le _ z) hpos.le
    refine ⟨k * 2 ^ e, ?_, ?_⟩
    · have hkp : |k| ≤ 2 ^ p := by
        have h3 : |x / 2 ^ e| < 2 ^ p := by
          rw [abs_div, abs_of_pos hpos, div_lt_iff₀ hpos]
          simpa using h2
        have hk1 : |x / 2 ^ e - k| ≤ 1 / 2 := abs_sub_round _
        have h4 : ((|k| : ℤ) : ℝ) < 2 ^ p + 1 := by
          rw [Int.cast_abs]
          have : |(k : ℝ)| ≤ |x / 2 ^ e - k| + |x / 2 ^ e| := by
            have := abs_sub_abs_le_abs_sub (k : ℝ) (x / 2 ^ e)
            rw [abs_sub_comm] at this
            linarith
          linarith
        have : |k| < 2 ^ p + 1 := by exact_mod_cast h4
        omega
      rcases lt_or_eq_of_le hkp with hlt | heq
      · exact ⟨k, e, hlt, rfl⟩
      · have h5 : Flt p ((2 : ℝ) ^ ((p : ℤ) + e)) := Flt.two_zpow hp _
        rw [zpow_add₀ (by norm_num), zpow_natCast] at h5
        rcases abs_eq (by positivity : (0 : ℤ) ≤ 2 ^ p) |>.1 heq with h6 | h6
        · rw [h6]; push_cast; exact h5
        · rw [h6]; push_cast; rw [neg_mul]; exact h5.neg
    · intro y hy
      by_cases hbig : (2 : ℝ) ^ (p - 1 : ℤ) * 2 ^ e ≤ |y|
      · obtain ⟨z, hz⟩ := hy.multiple hp hbig
        rw [hz]; exact hgrid z
      · push Not at hbig
        rcases le_total 0 x with h0 | h0
        · rw [abs_of_nonneg h0] at h1
          have h3 := hgrid (2 ^ (p - 1) : ℤ)
          push_cast at h3
          rw [show (2 : ℝ) ^ (p - 1 : ℤ) = 2 ^ (p - 1) by
            rw [show (p : ℤ) - 1 = ((p - 1 : ℕ) : ℤ) by omega, zpow_natCast]] at h1 hbig
          refine h3.trans ?_
          have := le_abs_self y
          rw [abs_of_nonneg (by linarith), abs_of_nonneg (by linarith)]
          linarith
        · rw [abs_of_nonpos h0] at h1
          have h3 := hgrid (-2 ^ (p - 1) : ℤ)
          push_cast at h3
          rw [show (2 : ℝ) ^ (p - 1 : ℤ) = 2 ^ (p - 1) by
            rw [show (p : ℤ) - 1 = ((p - 1 : ℕ) : ℤ) by omega, zpow_natCast]] at h1 hbig
          refine h3.trans ?_
          have := neg_le_abs y
          rw [abs_of_nonpos (by linarith), abs_of_nonpos (by linarith)]
          linarith
  choose r hr1 hr2 using key
  exact ⟨r, hr1, hr2⟩

end Odes.Spec
