import Verif.Model.Mem

/-! Lemmas about arrays and counted loops. -/

namespace Odes.Mem

variable {α σ : Type}

theorem Buf.rd_in {b : Buf α} {i : ℤ} (h : 0 ≤ i ∧ i < b.size) : b.rd i = some (b.cell i) := by
  rw [Buf.rd, if_pos h]

theorem Buf.wr_in {b : Buf α} {i : ℤ} (v : α) (h : 0 ≤ i ∧ i < b.size) :
    b.wr i v = some ⟨b.size, Function.update b.cell i v⟩ := by
  rw [Buf.wr, if_pos h]

theorem Buf.wr_some {b b' : Buf α} {i : ℤ} {v : α} (h : b.wr i v = some b') :
    0 ≤ i ∧ i < b.size ∧ b'.size = b.size ∧ b'.cell = Function.update b.cell i v := by
  unfold Buf.wr at h
  split_ifs at h with h1
  injection h with h
  subst h
  exact ⟨h1.1, h1.2, rfl, rfl⟩

theorem loopUp_inv {body : ℤ → σ → Option σ} (P : ℤ → σ → Prop) (k : ℕ) (i : ℤ) (s : σ)
    (h0 : P i s)
    (hstep : ∀ j s, i ≤ j → j < i + k → P j s → ∃ s', body j s = some s' ∧ P (j + 1) s') :
    ∃ s', loopUp body k i s = some s' ∧ P (i + k) s' := by
  induction k generalizing i s with
  | zero => exact ⟨s, rfl, by simpa using h0⟩
  | succ k ih =>
    obtain ⟨s1, h1, h2⟩ := hstep i s le_rfl (by push_cast; omega) h0
    obtain ⟨s2, h3, h4⟩ := ih (i + 1) s1 h2 (by
      intro j s hj hj' hp
      exact hstep j s (by omega) (by push_cast; omega) hp)
    refine ⟨s2, by simp [loopUp, h1, h3], ?_⟩
    push_cast
    rwa [show i + (k + 1 : ℤ) = i + 1 + k by ring]

/-- rule for `for(i=lo;i<=hi;i++)` -/
theorem forUp_inv {body : ℤ → σ → Option σ} (P : ℤ → σ → Prop) {lo hi : ℤ} {s : σ}
    (hlo : lo ≤ hi + 1) (h0 : P lo s)
    (hstep : ∀ j s, lo ≤ j → j ≤ hi → P j s → ∃ s', body j s = some s' ∧ P (j + 1) s') :
    ∃ s', forUp lo hi body s = some s' ∧ P (hi + 1) s' := by
  obtain ⟨s', h1, h2⟩ := loopUp_inv P (hi + 1 - lo).toNat lo s h0 (by
    intro j s hj hj' hp
    exact hstep j s hj (by omega) hp)
  refine ⟨s', h1, ?_⟩
  have : lo + ((hi + 1 - lo).toNat : ℤ) = hi + 1 := by omega
  rwa [this] at h2

theorem forUp_empty {body : ℤ → σ → Option σ} {lo hi : ℤ} (h : hi < lo) (s : σ) :
    forUp lo hi body s = some s := by
  unfold forUp
  rw [show (hi + 1 - lo).toNat = 0 by omega]; rfl

theorem loopDown_inv {body : ℤ → σ → Option σ} (P : ℤ → σ → Prop) (k : ℕ) (i : ℤ) (s : σ)
    (h0 : P i s)
    (hstep : ∀ j s, j ≤ i → i - k < j → P j s → ∃ s', body j s = some s' ∧ P (j - 1) s') :
    ∃ s', loopDown body k i s = some s' ∧ P (i - k) s' := by
  induction k generalizing i s with
  | zero => exact ⟨s, rfl, by simpa using h0⟩
  | succ k ih =>
    obtain ⟨s1, h1, h2⟩ := hstep i s le_rfl (by push_cast; omega) h0
    obtain ⟨s2, h3, h4⟩ := ih (i - 1) s1 h2 (by
      intro j s hj hj' hp
      exact hstep j s (by omega) (by push_cast; omega) hp)
    refine ⟨s2, by simp [loopDown, h1, h3], ?_⟩
    push_cast
    rwa [show i - (k + 1 : ℤ) = i - 1 - k by ring]

/-- rule for `for(i=hi;i>=lo;i--)` -/
theorem forDown_inv {body : ℤ → σ → Option σ} (P : ℤ → σ → Prop) {lo hi : ℤ} {s : σ}
    (hlo : lo ≤ hi + 1) (h0 : P hi s)
    (hstep : ∀ j s, lo ≤ j → j ≤ hi → P j s → ∃ s', body j s = some s' ∧ P (j - 1) s') :
    ∃ s', forDown hi lo body s = some s' ∧ P (lo - 1) s' := by
  obtain ⟨s', h1, h2⟩ := loopDown_inv P (hi + 1 - lo).toNat hi s h0 (by
    intro j s hj hj' hp
    exact hstep j s (by omega) hj hp)
  refine ⟨s', h1, ?_⟩
  have : hi - ((hi + 1 - lo).toNat : ℤ) = lo - 1 := by omega
  rwa [this] at h2

end Odes.Mem
