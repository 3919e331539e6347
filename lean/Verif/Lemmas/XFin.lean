import Verif.Lemmas.Num

/-! Inversion lemmas: when the result of an operation is finite, so are the operands. -/

namespace Odes.X

open Classical

theorem add_fin_inv {a : ℝ} {x : X} {b : ℝ} (h : fin a + x = fin b) : x = fin (b - a) := by
  cases x <;> simp at h ⊢; linarith

theorem add_fin_inv' {a : ℝ} {x : X} {b : ℝ} (h : x + fin a = fin b) : x = fin (b - a) := by
  cases x <;> simp at h ⊢; linarith

theorem mul_fin_inv {a : ℝ} {x : X} {b : ℝ} (h : fin a * x = fin b) :
    ∃ c, x = fin c := by
  cases x with
  | fin r => exact ⟨r, rfl⟩
  | nan => simp at h
  | pinf => simp at h; exact absurd h (infTimes_not_fin _ _)
  | ninf => simp at h; exact absurd h (infTimes_not_fin _ _)

theorem mul_fin_inv' {a : ℝ} {x : X} {b : ℝ} (h : x * fin a = fin b) :
    ∃ c, x = fin c := by
  cases x with
  | fin r => exact ⟨r, rfl⟩
  | nan => simp at h
  | pinf => simp at h; exact absurd h (infTimes_not_fin _ _)
  | ninf => simp at h; exact absurd h (infTimes_not_fin _ _)

theorem div_fin_inv {a : ℝ} {x : X} {b : ℝ} (ha : 0 < a) (h : x / fin a = fin b) :
    x = fin (b * a) := by
  cases x with
  | fin r =>
    rw [fin_div _ _ ha.ne'] at h
    simp only [fin_inj] at h
    subst h
    simp [ha.ne']
  | nan => simp at h
  | pinf => simp [ha.le] at h
  | ninf => simp [ha.le] at h

theorem sqrt_fin_inv {x : X} {b : ℝ} (h : sqrt x = fin b) :
    ∃ r, x = fin r ∧ 0 ≤ r ∧ b = Real.sqrt r := by
  cases x with
  | fin r =>
    rw [sqrt_fin] at h
    split_ifs at h with h0
    simp at h
    exact ⟨r, rfl, not_lt.1 h0, h.symm⟩
  | nan => simp at h
  | pinf => simp at h
  | ninf => simp at h

/-- `std::max(lo, x)` with a finite left argument is never below `lo`, even for NaN. -/
theorem stdMax_left (lo : ℝ) (x : X) : stdMax (fin lo) x = pinf ∨
    ∃ r, stdMax (fin lo) x = fin r ∧ lo ≤ r := by
  unfold stdMax
  cases x with
  | fin r =>
    by_cases h : lo < r
    · right; exact ⟨r, by simp [h], h.le⟩
    · right; exact ⟨lo, by simp [h], le_refl _⟩
  | nan => right; exact ⟨lo, by simp, le_refl _⟩
  | pinf => left; simp
  | ninf => right; exact ⟨lo, by simp, le_refl _⟩

theorem stdMin_left {hi lo : ℝ} {x : X} (h : x = pinf ∨ ∃ r, x = fin r ∧ lo ≤ r) :
    ∃ r, stdMin (fin hi) x = fin r ∧ min hi lo ≤ r ∧ r ≤ hi := by
  rcases h with h | ⟨r, h, hr⟩
  · exact ⟨hi, by simp [stdMin, h], min_le_left _ _, le_refl _⟩
  · refine ⟨min hi r, by rw [h, stdMin_fin], ?_, min_le_left _ _⟩
    exact min_le_min le_rfl hr

end Odes.X
