import Verif.Model.Num

/-! Basic lemmas about `X`. -/

namespace Odes.X

open Classical

theorem ofNat_eq (n : ℕ) [n.AtLeastTwo] : (OfNat.ofNat n : X) = fin (OfNat.ofNat n : ℝ) := by
  exact congrArg fin (Nat.cast_ofNat (R := ℝ) (n := n))
@[simp] theorem zero_eq : (0 : X) = fin 0 := by show fin ((0 : ℕ) : ℝ) = _; simp
@[simp] theorem one_eq : (1 : X) = fin 1 := by show fin ((1 : ℕ) : ℝ) = _; simp
@[simp] theorem ofNat_eq' (n : ℕ) [n.AtLeastTwo] :
    (OfNat.ofNat n : X) = fin (OfNat.ofNat n : ℝ) := ofNat_eq n
@[simp] theorem ofSci_eq (m : ℕ) (s : Bool) (e : ℕ) :
    (OfScientific.ofScientific m s e : X) = fin (OfScientific.ofScientific m s e : ℝ) := rfl

@[simp] theorem fin_inj {a b : ℝ} : fin a = fin b ↔ a = b := by simp
@[simp] theorem fin_add (a b : ℝ) : fin a + fin b = fin (a + b) := rfl
@[simp] theorem fin_neg (a : ℝ) : -fin a = fin (-a) := rfl
@[simp] theorem fin_sub (a b : ℝ) : fin a - fin b = fin (a - b) := by
  show fin (a + -b) = _; rw [sub_eq_add_neg]
@[simp] theorem fin_mul (a b : ℝ) : fin a * fin b = fin (a * b) := rfl
theorem fin_div' (a b : ℝ) : fin a / fin b = if b = 0 then infTimes a else fin (a / b) := rfl
theorem fin_div (a b : ℝ) (h : b ≠ 0) : fin a / fin b = fin (a / b) := by
  rw [fin_div', if_neg h]
@[simp] theorem fin_lt (a b : ℝ) : fin a < fin b ↔ a < b := Iff.rfl
@[simp] theorem fin_le (a b : ℝ) : fin a ≤ fin b ↔ a ≤ b := Iff.rfl
@[simp] theorem fin_feq (a b : ℝ) : Feq (fin a) (fin b) ↔ a = b := Iff.rfl

@[simp] theorem nan_add (a : X) : nan + a = nan := by cases a <;> rfl
@[simp] theorem add_nan (a : X) : a + nan = nan := by cases a <;> rfl
@[simp] theorem nan_sub (a : X) : nan - a = nan := by cases a <;> rfl
@[simp] theorem sub_nan (a : X) : a - nan = nan := by cases a <;> rfl
@[simp] theorem nan_mul (a : X) : nan * a = nan := by cases a <;> rfl
@[simp] theorem mul_nan (a : X) : a * nan = nan := by cases a <;> rfl
@[simp] theorem nan_div (a : X) : nan / a = nan := by cases a <;> rfl
@[simp] theorem div_nan (a : X) : a / nan = nan := by cases a <;> rfl
@[simp] theorem neg_nan : -nan = nan := rfl
@[simp] theorem neg_pinf : -pinf = ninf := rfl
@[simp] theorem neg_ninf : -ninf = pinf := rfl
@[simp] theorem pinf_add_fin (a : ℝ) : pinf + fin a = pinf := rfl
@[simp] theorem fin_add_pinf (a : ℝ) : fin a + pinf = pinf := rfl
@[simp] theorem ninf_add_fin (a : ℝ) : ninf + fin a = ninf := rfl
@[simp] theorem fin_add_ninf (a : ℝ) : fin a + ninf = ninf := rfl
@[simp] theorem pinf_add_pinf : pinf + pinf = pinf := rfl
@[simp] theorem ninf_add_ninf : ninf + ninf = ninf := rfl
@[simp] theorem pinf_add_ninf : pinf + ninf = nan := rfl
@[simp] theorem ninf_add_pinf : ninf + pinf = nan := rfl
@[simp] theorem pinf_sub_fin (a : ℝ) : pinf - fin a = pinf := rfl
@[simp] theorem fin_sub_pinf (a : ℝ) : fin a - pinf = ninf := rfl
@[simp] theorem ninf_sub_fin (a : ℝ) : ninf - fin a = ninf := rfl
@[simp] theorem fin_sub_ninf (a : ℝ) : fin a - ninf = pinf := rfl
@[simp] theorem pinf_mul_pinf : pinf * pinf = pinf := rfl
@[simp] theorem pinf_mul_ninf : pinf * ninf = ninf := rfl
@[simp] theorem ninf_mul_pinf : ninf * pinf = ninf := rfl
@[simp] theorem ninf_mul_ninf : ninf * ninf = pinf := rfl
@[simp] theorem pinf_mul_fin (a : ℝ) : pinf * fin a = infTimes a := rfl
@[simp] theorem fin_mul_pinf (a : ℝ) : fin a * pinf = infTimes a := rfl
@[simp] theorem ninf_mul_fin (a : ℝ) : ninf * fin a = infTimes (-a) := rfl
@[simp] theorem fin_mul_ninf (a : ℝ) : fin a * ninf = infTimes (-a) := rfl
@[simp] theorem fin_div_pinf (a : ℝ) : fin a / pinf = fin 0 := rfl
@[simp] theorem fin_div_ninf (a : ℝ) : fin a / ninf = fin 0 := rfl
@[simp] theorem pinf_div_fin (a : ℝ) : pinf / fin a = if 0 ≤ a then pinf else ninf := rfl
@[simp] theorem ninf_div_fin (a : ℝ) : ninf / fin a = if 0 ≤ a then ninf else pinf := rfl
@[simp] theorem pinf_div_pinf : pinf / pinf = nan := rfl
@[simp] theorem pinf_div_ninf : pinf / ninf = nan := rfl
@[simp] theorem ninf_div_pinf : ninf / pinf = nan := rfl
@[simp] theorem ninf_div_ninf : ninf / ninf = nan := rfl

@[simp] theorem not_nan_lt (a : X) : ¬ nan < a := by cases a <;> exact id
@[simp] theorem not_lt_nan (a : X) : ¬ a < nan := by cases a <;> exact id
@[simp] theorem not_nan_le (a : X) : ¬ nan ≤ a := by cases a <;> exact id
@[simp] theorem not_le_nan (a : X) : ¬ a ≤ nan := by cases a <;> exact id
@[simp] theorem fin_lt_pinf (a : ℝ) : fin a < pinf := trivial
@[simp] theorem ninf_lt_fin (a : ℝ) : ninf < fin a := trivial
@[simp] theorem ninf_lt_pinf : ninf < pinf := trivial
@[simp] theorem not_pinf_lt (a : X) : ¬ pinf < a := by cases a <;> exact id
@[simp] theorem not_lt_ninf (a : X) : ¬ a < ninf := by cases a <;> exact id
@[simp] theorem fin_le_pinf (a : ℝ) : fin a ≤ pinf := trivial
@[simp] theorem ninf_le_fin (a : ℝ) : ninf ≤ fin a := trivial
@[simp] theorem ninf_le_pinf : ninf ≤ pinf := trivial
@[simp] theorem pinf_le_pinf : pinf ≤ pinf := trivial
@[simp] theorem ninf_le_ninf : ninf ≤ ninf := trivial
@[simp] theorem not_pinf_le_fin (a : ℝ) : ¬ pinf ≤ fin a := id
@[simp] theorem not_pinf_le_ninf : ¬ pinf ≤ ninf := id
@[simp] theorem not_fin_le_ninf (a : ℝ) : ¬ fin a ≤ ninf := id

@[simp] theorem not_nan_feq (a : X) : ¬ Feq nan a := by cases a <;> exact id
@[simp] theorem not_feq_nan (a : X) : ¬ Feq a nan := by cases a <;> exact id
@[simp] theorem pinf_feq : Feq pinf pinf := trivial
@[simp] theorem ninf_feq : Feq ninf ninf := trivial
theorem feq_iff (a b : X) : Feq a b ↔ a = b ∧ a ≠ nan := by
  cases a <;> cases b <;> simp [Feq]

@[simp] theorem sqrt_nan : sqrt nan = nan := rfl
@[simp] theorem sqrt_pinf : sqrt pinf = pinf := rfl
@[simp] theorem sqrt_ninf : sqrt ninf = nan := rfl
theorem sqrt_fin (r : ℝ) : sqrt (fin r) = if r < 0 then nan else fin (Real.sqrt r) := rfl
theorem sqrt_fin_nonneg {r : ℝ} (h : 0 ≤ r) : sqrt (fin r) = fin (Real.sqrt r) := by
  rw [sqrt_fin, if_neg (not_lt.2 h)]

theorem infTimes_pos {r : ℝ} (h : 0 < r) : infTimes r = pinf := by simp [infTimes, h]
theorem infTimes_neg {r : ℝ} (h : r < 0) : infTimes r = ninf := by
  simp [infTimes, h, not_lt.2 h.le]
@[simp] theorem infTimes_zero : infTimes 0 = nan := by simp [infTimes]

theorem infTimes_not_fin (r s : ℝ) : infTimes r ≠ fin s := by
  unfold infTimes; split_ifs <;> simp

@[simp] theorem isFin_fin (r : ℝ) : IsFin (fin r) := ⟨r, rfl⟩
@[simp] theorem not_isFin_nan : ¬ IsFin nan := by rintro ⟨r, h⟩; cases h
@[simp] theorem not_isFin_pinf : ¬ IsFin pinf := by rintro ⟨r, h⟩; cases h
@[simp] theorem not_isFin_ninf : ¬ IsFin ninf := by rintro ⟨r, h⟩; cases h

/-- a value that compares with something is not NaN; between two finite values it is
finite. -/
theorem fin_of_between {a b : ℝ} {x : X} (h1 : fin a ≤ x) (h2 : x ≤ fin b) : ∃ r, x = fin r := by
  cases x <;> simp_all

theorem toInt_eq_some {x : X} {k : ℤ} (h : toInt x = some k) :
    ∃ r : ℝ, x = fin r ∧ k = (if 0 ≤ r then ⌊r⌋ else ⌈r⌉) ∧ -2147483648 ≤ k ∧ k ≤ 2147483647 := by
  cases x with
  | fin r =>
    simp only [toInt] at h
    split_ifs at h with h1 h2
    all_goals
      simp at h
      refine ⟨r, rfl, ?_, ?_, ?_⟩ <;> simp_all
  | _ => simp [toInt] at h

theorem ABS_fin (a : ℝ) : ABS (fin a) = fin |a| := by
  unfold ABS
  by_cases h : 0 ≤ a
  · simp [h, abs_of_nonneg h]
  · simp [h, abs_of_neg (not_le.1 h)]

theorem ABSsub_fin (b a : ℝ) : ABSsub (fin b) (fin a) = fin (if a ≤ b then b - a else -b - a) := by
  unfold ABSsub
  by_cases h : a ≤ b
  · simp [h]
  · simp [h]

theorem MIN_fin (a b : ℝ) : MIN (fin a) (fin b) = fin (min a b) := by
  unfold MIN
  by_cases h : a < b
  · simp [h, min_eq_left h.le]
  · simp [h, min_eq_right (not_lt.1 h)]

theorem MAX_fin (a b : ℝ) : MAX (fin a) (fin b) = fin (max a b) := by
  unfold MAX
  by_cases h : b < a
  · simp [h, max_eq_left h.le]
  · simp [h, max_eq_right (not_lt.1 h)]

theorem stdMin_fin (a b : ℝ) : stdMin (fin a) (fin b) = fin (min a b) := by
  unfold stdMin
  by_cases h : b < a
  · simp [h, min_eq_right h.le]
  · simp [h, min_eq_left (not_lt.1 h)]

theorem stdMax_fin (a b : ℝ) : stdMax (fin a) (fin b) = fin (max a b) := by
  unfold stdMax
  by_cases h : a < b
  · simp [h, max_eq_right h.le]
  · simp [h, max_eq_left (not_lt.1 h)]

theorem MAX_fin_left_cases (lo : ℝ) (x : X) :
    MAX (fin lo) x = fin lo ∨ MAX (fin lo) x = x := by
  unfold MAX; split_ifs <;> simp

theorem sub_neg_eq (a b : X) : a - -b = a + b := by
  cases a <;> cases b <;> first | rfl | simp

theorem neg_mul_eq (a b : X) : -a * b = -(a * b) := by
  cases a <;> cases b <;> simp [infTimes]
  all_goals
    rename_i r
    rcases lt_trichotomy r 0 with h | h | h <;> simp [h, not_lt.2 h.le]

theorem add_neg_eq (a b : X) : a + -b = a - b := rfl

end Odes.X
