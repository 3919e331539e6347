import Mathlib.Tactic.Abel
import Verif.Model.Storage
import Verif.Spec.Lapack
import Verif.Lemmas.Mem
import Mathlib.Algebra.BigOperators.Intervals
import Mathlib.Data.Complex.Basic
import Mathlib.Order.Interval.Finset.Basic
import Mathlib.Data.Int.Interval
import Mathlib.Tactic.FieldSimp

/-!
# C01, C02, C03, C13, C14: storage and assembly of the Newton matrices
-/

namespace Odes.Storage

open Odes.Mem Odes.Lapack

variable {α : Type}

/-! ### C01 -/

/-- C01: the indexing operators of the banded classes address the cell LAPACK expects, for the real
and the complex class. -/
theorem band_layout (kl ku i j : ℤ) :
    frIdx kl ku i j = gb kl ku i j ∧ frcRe kl ku i j = re (gb kl ku i j) ∧
    frcIm kl ku i j = im (gb kl ku i j) := by
  refine ⟨?_, ?_, ?_⟩ <;> simp only [frIdx, frcRe, frcIm, ldab, cc, gb, cm, re, im] <;> ring

/-- C01: a band entry is inside the allocated buffer and not in the `kl` first rows of the band
array (the rows reserved for the fill-in of pivoting). -/
theorem band_in_bounds {n kl ku i j : ℤ} (hkl : 0 ≤ kl) (hku : 0 ≤ ku) (h : InBand n kl ku i j)
    (junk : ℤ → α) :
    0 ≤ frIdx kl ku i j ∧ frIdx kl ku i j < (frNew n kl ku junk).size ∧
    0 ≤ frcRe kl ku i j ∧ frcIm kl ku i j < (frcNew n kl ku junk).size ∧
    ∀ r c, 1 ≤ r → r ≤ kl → 1 ≤ c → c ≤ n → frIdx kl ku i j ≠ cm (ldab kl ku) r c := by
  obtain ⟨h1, h2, h3, h4, h5, h6⟩ := h
  simp only [frIdx, frcRe, frcIm, ldab, cc, frNew, frcNew]
  have e : j * (2 * kl + ku + 1 - 1) + i + (kl + ku - (2 * kl + ku + 1))
      = (j - 1) * (2 * kl + ku + 1) + (kl + ku + i - j) := by ring
  rw [e]
  have hl : 0 < 2 * kl + ku + 1 := by omega
  have hj0 : 0 ≤ (j - 1) * (2 * kl + ku + 1) := mul_nonneg (by omega) hl.le
  have hj1 : (j - 1) * (2 * kl + ku + 1) ≤ (n - 1) * (2 * kl + ku + 1) :=
    mul_le_mul_of_nonneg_right (by omega) hl.le
  refine ⟨by omega, by nlinarith, by omega, by nlinarith, ?_⟩
  intro r c hr1 hr2 hc1 hc2 he
  simp only [cm] at he
  -- compare columns
  have hd : ((j - 1) - (c - 1)) * (2 * kl + ku + 1) = (r - 1) - (kl + ku + i - j) := by linarith
  rcases lt_trichotomy j c with h | h | h
  · have : (j - 1 - (c - 1)) * (2 * kl + ku + 1) ≤ -1 * (2 * kl + ku + 1) :=
      mul_le_mul_of_nonneg_right (by omega) hl.le
    omega
  · subst h; simp at hd; omega
  · have : 1 * (2 * kl + ku + 1) ≤ (j - 1 - (c - 1)) * (2 * kl + ku + 1) :=
      mul_le_mul_of_nonneg_right (by omega) hl.le
    omega

/-- C01: two different band entries never share a cell (real class; real and imaginary cells of the
complex class). -/
theorem band_injective {n kl ku i j i' j' : ℤ} (hkl : 0 ≤ kl) (hku : 0 ≤ ku)
    (h : InBand n kl ku i j) (h' : InBand n kl ku i' j') :
    (frIdx kl ku i j = frIdx kl ku i' j' → i = i' ∧ j = j') ∧
    (frcRe kl ku i j = frcRe kl ku i' j' → i = i' ∧ j = j') ∧
    (frcIm kl ku i j = frcIm kl ku i' j' → i = i' ∧ j = j') ∧
    frcRe kl ku i j ≠ frcIm kl ku i' j' := by
  have key : frIdx kl ku i j = frIdx kl ku i' j' → i = i' ∧ j = j' := by
    intro e
    obtain ⟨h1, h2, h3, h4, h5, h6⟩ := h
    obtain ⟨k1, k2, k3, k4, k5, k6⟩ := h'
    simp only [frIdx, ldab, cc] at e
    have hd : (j - j') * (2 * kl + ku + 1) = (i' - j') - (i - j) := by linarith
    have hl : 0 < 2 * kl + ku + 1 := by omega
    rcases lt_trichotomy j j' with g | g | g
    · have : (j - j') * (2 * kl + ku + 1) ≤ -1 * (2 * kl + ku + 1) :=
        mul_le_mul_of_nonneg_right (by omega) hl.le
      omega
    · subst g; simp at hd; omega
    · have : 1 * (2 * kl + ku + 1) ≤ (j - j') * (2 * kl + ku + 1) :=
        mul_le_mul_of_nonneg_right (by omega) hl.le
      omega
  refine ⟨key, ?_, ?_, ?_⟩
  · intro e; apply key; simp only [frcRe, frIdx] at *; omega
  · intro e; apply key; simp only [frcIm, frIdx] at *; omega
  · simp only [frcRe, frcIm]; omega

example : InBand 5 2 1 4 2 := by unfold InBand; omega

/-! ### C02 -/

/-- C02: full storage is column major as in LAPACK. -/
theorem full_layout (n i j : ℤ) :
    faIdx n i j = ge n i j ∧ fcRe n i j = re (ge n i j) ∧ fcIm n i j = im (ge n i j) := by
  refine ⟨?_, ?_, ?_⟩ <;> simp only [faIdx, fcRe, fcIm, ge, cm, re, im] <;> ring

/-- C02: entries are inside the buffer. -/
theorem full_in_bounds {n i j : ℤ} (junk : ℤ → α) (hi : 1 ≤ i) (hi' : i ≤ n) (hj : 1 ≤ j)
    (hj' : j ≤ n) : 0 ≤ faIdx n i j ∧ faIdx n i j < (faNew n junk).size ∧
    0 ≤ fcRe n i j ∧ fcIm n i j < (fcNew n junk).size := by
  simp only [faIdx, fcRe, fcIm, faNew, fcNew]
  have h0 : 0 ≤ (j - 1) * n := mul_nonneg (by omega) (by omega)
  have h1 : (j - 1) * n ≤ (n - 1) * n := mul_le_mul_of_nonneg_right (by omega) (by omega)
  refine ⟨by omega, by nlinarith, by nlinarith, by nlinarith⟩

theorem fa_inj {n i j i' j' : ℤ} (hi : 1 ≤ i) (hi' : i ≤ n)
    (ki : 1 ≤ i') (ki' : i' ≤ n) (h : faIdx n i j = faIdx n i' j') : i = i' ∧ j = j' := by
  simp only [faIdx] at h
  have hd : (j - j') * n = i' - i := by linarith
  have hn : 0 < n := by omega
  rcases lt_trichotomy j j' with g | g | g
  · have : (j - j') * n ≤ -1 * n := mul_le_mul_of_nonneg_right (by omega) hn.le
    omega
  · subst g; simp at hd; omega
  · have : 1 * n ≤ (j - j') * n := mul_le_mul_of_nonneg_right (by omega) hn.le
    omega

/-- C02: the map from index pairs to the cells of the `n*n` buffer is a bijection. -/
theorem full_bijective {n : ℤ} (hn : 1 ≤ n) (k : ℤ) (hk : 0 ≤ k) (junk : ℤ → α)
    (hk' : k < (faNew n junk).size) :
    ∃! p : ℤ × ℤ, (1 ≤ p.1 ∧ p.1 ≤ n ∧ 1 ≤ p.2 ∧ p.2 ≤ n) ∧ faIdx n p.1 p.2 = k := by
  simp only [faNew] at hk'
  have hn0 : 0 < n := by omega
  have m0 := Int.emod_nonneg k hn0.ne'
  have m1 := Int.emod_lt_of_pos k hn0
  have m2 := Int.mul_ediv_add_emod k n
  have d0 : 0 ≤ k / n := Int.ediv_nonneg hk hn0.le
  have d1 : k / n < n := Int.ediv_lt_of_lt_mul hn0 hk'
  refine ⟨(k % n + 1, k / n + 1), ⟨⟨by simp; omega, by simp; omega, by simp; omega, by simp; omega⟩,
    ?_⟩, ?_⟩
  · simp only [faIdx]; linarith [mul_comm n (k / n)]
  · rintro ⟨i, j⟩ ⟨⟨a1, a2, a3, a4⟩, e⟩
    have : faIdx n i j = faIdx n (k % n + 1) (k / n + 1) := by
      rw [e]; simp only [faIdx]; linarith [mul_comm n (k / n)]
    obtain ⟨r1, r2⟩ := fa_inj a1 a2 (by omega) (by omega) this
    exact Prod.ext r1 r2

/-- C02: in the complex class the two cells of all entries tile the `2*n*n` buffer: every cell is
the real or the imaginary cell (not both) of exactly one entry. -/
theorem full_complex_bijective {n : ℤ} (hn : 1 ≤ n) (k : ℤ) (hk : 0 ≤ k) (junk : ℤ → α)
    (hk' : k < (fcNew n junk).size) :
    ∃! p : ℤ × ℤ × Bool, (1 ≤ p.1 ∧ p.1 ≤ n ∧ 1 ≤ p.2.1 ∧ p.2.1 ≤ n) ∧
      (if p.2.2 then fcIm n p.1 p.2.1 else fcRe n p.1 p.2.1) = k := by
  have e1 : ∀ i j : ℤ, fcRe n i j = 2 * faIdx n i j := by intro i j; simp only [fcRe, faIdx]; ring
  have e2 : ∀ i j : ℤ, fcIm n i j = 2 * faIdx n i j + 1 := by
    intro i j; simp only [fcIm, faIdx]; ring
  simp only [fcNew] at hk'
  have hk2 : k / 2 < (faNew n junk).size := by
    simp only [faNew]
    have : k < 2 * (n * n) := by linarith
    omega
  obtain ⟨⟨i, j⟩, ⟨⟨h1, h2⟩, hu⟩⟩ := full_bijective hn (k / 2) (by omega) junk hk2
  refine ⟨(i, j, decide (k % 2 = 1)), ⟨h1, ?_⟩, ?_⟩
  · simp only [e1, e2, h2]
    by_cases hm : k % 2 = 1
    · simp only [hm, decide_true, if_true]; omega
    · simp only [hm, decide_false]; simp; omega
  · rintro ⟨i', j', b⟩ ⟨g1, g2⟩
    simp only [e1, e2] at g2
    cases b
    · simp only [Bool.false_eq_true, if_false] at g2
      have := hu (i', j') ⟨g1, by simp only; omega⟩
      simp only [Prod.mk.injEq] at this ⊢
      refine ⟨this.1, this.2, ?_⟩
      simp; omega
    · simp only [if_true] at g2
      have := hu (i', j') ⟨g1, by simp only; omega⟩
      simp only [Prod.mk.injEq] at this ⊢
      refine ⟨this.1, this.2, ?_⟩
      simp; omega

/-- C02: `set(i,j,v)` makes the real part `v`, the imaginary part 0, and touches nothing else. -/
theorem fcSet_spec [Zero α] {n i j : ℤ} (b : Buf α) (hb : b.size = 2 * n * n) (v : α) (hi : 1 ≤ i)
    (hi' : i ≤ n) (hj : 1 ≤ j) (hj' : j ≤ n) :
    ∃ b', fcSet n b i j v 0 = some b' ∧ b'.size = b.size ∧ b'.cell (fcRe n i j) = v ∧
      b'.cell (fcIm n i j) = 0 ∧
      ∀ k, k ≠ fcRe n i j → k ≠ fcIm n i j → b'.cell k = b.cell k := by
  obtain ⟨-, -, h3, h4⟩ := full_in_bounds (α := α) b.cell hi hi' hj hj'
  simp only [fcNew] at h4
  have e : fcIm n i j = fcRe n i j + 1 := by simp only [fcIm, fcRe]; ring
  rw [e] at h4 ⊢
  unfold fcSet
  change ∃ b', ((b.wr (fcRe n i j) v).bind fun b => b.wr (fcRe n i j + 1) 0) = some b' ∧ _
  rw [Buf.wr_in _ ⟨h3, by omega⟩, Option.bind_some, Buf.wr_in _ ⟨by omega, by simp only; omega⟩]
  refine ⟨_, rfl, rfl, ?_, ?_, ?_⟩
  · simp only
    rw [Function.update_of_ne (by omega), Function.update_self]
  · simp
  · intro k k1 k2
    simp only
    rw [Function.update_of_ne k2, Function.update_of_ne k1]

/-- C02 for the banded complex class. -/
theorem frcSet_spec [Zero α] {n kl ku i j : ℤ} (hkl : 0 ≤ kl) (hku : 0 ≤ ku) (b : Buf α)
    (hb : b.size = 2 * ldab kl ku * n) (v : α) (h : InBand n kl ku i j) :
    ∃ b', frcSet kl ku b i j v 0 = some b' ∧ b'.size = b.size ∧ b'.cell (frcRe kl ku i j) = v ∧
      b'.cell (frcIm kl ku i j) = 0 ∧
      ∀ k, k ≠ frcRe kl ku i j → k ≠ frcIm kl ku i j → b'.cell k = b.cell k := by
  obtain ⟨-, -, h3, h4, -⟩ := band_in_bounds (α := α) hkl hku h b.cell
  simp only [frcNew] at h4
  have e : frcIm kl ku i j = frcRe kl ku i j + 1 := by simp only [frcIm, frcRe]
  rw [e] at h4 ⊢
  unfold frcSet
  change ∃ b', ((b.wr (frcRe kl ku i j) v).bind fun b => b.wr (frcRe kl ku i j + 1) 0) = some b' ∧ _
  rw [Buf.wr_in _ ⟨h3, by omega⟩, Option.bind_some, Buf.wr_in _ ⟨by omega, by simp only; omega⟩]
  refine ⟨_, rfl, rfl, ?_, ?_, ?_⟩
  · simp only
    rw [Function.update_of_ne (by omega), Function.update_self]
  · simp
  · intro k k1 k2
    simp only
    rw [Function.update_of_ne k2, Function.update_of_ne k1]

example : ∃ k : ℤ, 0 ≤ k ∧ k < (fcNew 3 (fun _ => (0 : ℤ))).size := ⟨17, by decide, by decide⟩

/-! ### C03 -/

/-- `x[i]=-X.x[i]` over the whole buffer. -/
theorem negLoop_spec [Neg α] (N : ℤ) (hN : 0 ≤ N) (x X : Buf α) (hx : x.size = N)
    (hX : X.size = N) :
    ∃ b, forUp 0 (N - 1) (fun i b => (X.rd i).bind fun v => b.wr i (-v)) x = some b ∧
      b.size = N ∧ ∀ k, 0 ≤ k → k < N → b.cell k = -X.cell k := by
  obtain ⟨b, h1, h2, h3⟩ := forUp_inv
    (P := fun j (b : Buf α) => b.size = N ∧ ∀ k, 0 ≤ k → k < j → b.cell k = -X.cell k)
    (body := fun i b => (X.rd i).bind fun v => b.wr i (-v)) (lo := 0) (hi := N - 1) (s := x)
    (by omega) ⟨hx, fun k a b => by omega⟩ (by
      rintro j b hj hj' ⟨i1, i2⟩
      refine ⟨⟨b.size, Function.update b.cell j (-X.cell j)⟩, ?_, i1, ?_⟩
      · try simp only
        rw [Buf.rd_in ⟨hj, by omega⟩, Option.bind_some, Buf.wr_in _ ⟨hj, by omega⟩]
      · intro k k1 k2
        dsimp only
        by_cases hk : k = j
        · subst hk; simp
        · rw [Function.update_of_ne hk]; exact i2 k k1 (by omega))
  exact ⟨b, h1, h2, fun k a c => h3 k a (by omega)⟩

/-- a loop adding `v` to the cells `d(lo), ..., d(hi)`. -/
theorem diagLoop_spec [Add α] (lo hi N : ℤ) (hlo : lo ≤ hi + 1) (d : ℤ → ℤ)
    (hd : ∀ i, lo ≤ i → i ≤ hi → 0 ≤ d i ∧ d i < N) (hinj : ∀ i j, d i = d j → i = j)
    (v : α) (x : Buf α) (hx : x.size = N) :
    ∃ b, forUp lo hi (fun i b => (b.rd (d i)).bind fun w => b.wr (d i) (w + v)) x = some b ∧
      b.size = N ∧ (∀ i, lo ≤ i → i ≤ hi → b.cell (d i) = x.cell (d i) + v) ∧
      ∀ k, (∀ i, lo ≤ i → i ≤ hi → k ≠ d i) → b.cell k = x.cell k := by
  obtain ⟨b, h1, h2, h3, h4⟩ := forUp_inv
    (P := fun j (b : Buf α) => b.size = N ∧
      (∀ i, lo ≤ i → i < j → b.cell (d i) = x.cell (d i) + v) ∧
      ∀ k, (∀ i, lo ≤ i → i < j → k ≠ d i) → b.cell k = x.cell k)
    (body := fun i b => (b.rd (d i)).bind fun w => b.wr (d i) (w + v)) (lo := lo) (hi := hi) (s := x)
    hlo ⟨hx, fun i a b => by omega, fun k _ => rfl⟩ (by
      rintro j b hj hj' ⟨i1, i2, i3⟩
      have hb := hd j hj hj'
      have hc : b.cell (d j) = x.cell (d j) := i3 _ (fun i _ h e => by
        have := hinj _ _ e; omega)
      refine ⟨⟨b.size, Function.update b.cell (d j) (b.cell (d j) + v)⟩, ?_, i1, ?_, ?_⟩
      · try simp only
        rw [Buf.rd_in ⟨hb.1, by omega⟩, Option.bind_some, Buf.wr_in _ ⟨hb.1, by omega⟩]
      · intro i a1 a2
        simp only
        by_cases e : i = j
        · subst e; rw [Function.update_self, hc]
        · rw [Function.update_of_ne (fun h => e (hinj _ _ h))]; exact i2 i a1 (by omega)
      · intro k hk
        simp only
        rw [Function.update_of_ne (hk j hj (by omega))]
        exact i3 k (fun i a1 a2 => hk i a1 (by omega)))
  exact ⟨b, h1, h2, fun i a c => h3 i a (by omega), fun k hk => h4 k (fun i a c => hk i a (by omega))⟩

/-- C03: full storage, real matrix: what `dgetrf` receives is `fac1*I - J`, for every entry. -/
theorem asmRealFull_spec [AddCommGroup α] {n : ℤ} (hn : 1 ≤ n) (fac1 : α) (E1 Jac : Buf α)
    (hE : E1.size = n * n) (hJ : Jac.size = n * n) :
    ∃ E, asmRealFull n fac1 E1 Jac = some E ∧ E.size = n * n ∧
      ∀ i j, 1 ≤ i → i ≤ n → 1 ≤ j → j ≤ n →
        ∃ v, faGet n Jac i j = some v ∧
          E.cell (ge n i j) = (if i = j then fac1 else 0) - v := by
  have hnn : 0 ≤ n * n := by positivity
  obtain ⟨b, h1, h2, h3⟩ := negLoop_spec (n * n) hnn E1 Jac hE hJ
  obtain ⟨E, g1, g2, g3, g4⟩ := diagLoop_spec 0 (n - 1) (n * n) (by omega) (fun i => i * (n + 1))
    (by intro i a c; constructor
        · positivity
        · nlinarith)
    (by intro i j e
        have : i * (n + 1) = j * (n + 1) := e
        exact mul_right_cancel₀ (by omega) this) fac1 b h2
  refine ⟨E, ?_, g2, ?_⟩
  · unfold asmRealFull faEqualMinus faAddDiag
    rw [h1, Option.bind_some]; exact g1
  · intro i j a1 a2 a3 a4
    obtain ⟨b1, b2, -⟩ := full_in_bounds (α := α) Jac.cell a1 a2 a3 a4
    simp only [faNew] at b2
    refine ⟨Jac.cell (faIdx n i j), ?_, ?_⟩
    · unfold faGet; rw [Buf.rd_in ⟨b1, by omega⟩]
    · rw [← (full_layout n i j).1]
      by_cases e : i = j
      · subst e
        have e1 : faIdx n i i = (i - 1) * (n + 1) := by simp only [faIdx]; ring
        have := g3 (i - 1) (by omega) (by omega)
        try simp only at this
        rw [← e1, h3 _ b1 b2] at this
        rw [this, if_pos rfl]; abel
      · rw [g4 _ (by
          intro m m1 m2 he
          have e1 : faIdx n (m + 1) (m + 1) = m * (n + 1) := by simp only [faIdx]; ring
          rw [← e1] at he
          have := fa_inj a1 a2 (by omega) (by omega) he
          omega), h3 _ b1 b2, if_neg e]; abel

/-- C03: banded storage, real matrix: what `dgbtrf` receives is `fac1*I - J` on the band. -/
theorem asmRealBand_spec [AddCommGroup α] {n kl ku : ℤ} (hn : 1 ≤ n) (hkl : 0 ≤ kl) (hku : 0 ≤ ku)
    (fac1 : α) (E1 Jac : Buf α) (hE : E1.size = ldab kl ku * n) (hJ : Jac.size = ldab kl ku * n) :
    ∃ E, asmRealBand n kl ku fac1 E1 Jac = some E ∧ E.size = ldab kl ku * n ∧
      ∀ i j, InBand n kl ku i j →
        ∃ v, frGet kl ku Jac i j = some v ∧
          E.cell (gb kl ku i j) = (if i = j then fac1 else 0) - v := by
  have hl : 0 < ldab kl ku := by unfold ldab; omega
  have hnn : 0 ≤ ldab kl ku * n := by positivity
  obtain ⟨b, h1, h2, h3⟩ := negLoop_spec (ldab kl ku * n) hnn E1 Jac hE hJ
  have hdg : ∀ i, i * ldab kl ku + cc kl ku = frIdx kl ku i i := by
    intro i; simp only [frIdx]; ring
  obtain ⟨E, g1, g2, g3, g4⟩ := diagLoop_spec 1 n (ldab kl ku * n) (by omega)
    (fun i => i * ldab kl ku + cc kl ku)
    (by intro i a c
        obtain ⟨b1, b2, -⟩ := band_in_bounds (α := α) (n := n) (i := i) (j := i) hkl hku
          ⟨by omega, by omega, by omega, by omega, by omega, by omega⟩ Jac.cell
        simp only [frNew] at b2
        rw [hdg]; exact ⟨b1, b2⟩)
    (by intro i j e
        have : i * ldab kl ku = j * ldab kl ku := by omega
        exact mul_right_cancel₀ hl.ne' this) fac1 b h2
  refine ⟨E, ?_, g2, ?_⟩
  · unfold asmRealBand frEqualMinus frAddDiag
    rw [h1, Option.bind_some]; exact g1
  · intro i j hb
    obtain ⟨b1, b2, -⟩ := band_in_bounds (α := α) hkl hku hb Jac.cell
    simp only [frNew] at b2
    refine ⟨Jac.cell (frIdx kl ku i j), ?_, ?_⟩
    · unfold frGet; rw [Buf.rd_in ⟨b1, by omega⟩]
    · rw [← (band_layout kl ku i j).1]
      by_cases e : i = j
      · subst e
        have := g3 i hb.1 hb.2.1
        simp only [hdg] at this
        rw [h3 _ b1 b2] at this
        rw [this, if_pos rfl]; abel
      · rw [g4 _ (by
          intro m m1 m2 he
          rw [hdg] at he
          have := (band_injective (n := n) hkl hku hb (i' := m) (j' := m)
            ⟨by omega, by omega, by omega, by omega, by omega, by omega⟩).1 he
          omega), h3 _ b1 b2, if_neg e]; abel

/-- the loop `Re(i,i)+=alpha; Im(i,i)=beta`. -/
theorem addShift_spec [Add α] (n N : ℤ) (hn : 1 ≤ n) (re im : ℤ → ℤ)
    (hr : ∀ i, 1 ≤ i → i ≤ n → 0 ≤ re i ∧ re i < N) (hm : ∀ i, 1 ≤ i → i ≤ n → 0 ≤ im i ∧ im i < N)
    (hrr : ∀ i j, 1 ≤ i → i ≤ n → 1 ≤ j → j ≤ n → re i = re j → i = j)
    (hmm : ∀ i j, 1 ≤ i → i ≤ n → 1 ≤ j → j ≤ n → im i = im j → i = j)
    (hrm : ∀ i j, 1 ≤ i → i ≤ n → 1 ≤ j → j ≤ n → re i ≠ im j)
    (alpha beta : α) (x : Buf α) (hx : x.size = N) :
    ∃ b, addShift re im n alpha beta x = some b ∧ b.size = N ∧
      (∀ i, 1 ≤ i → i ≤ n → b.cell (re i) = x.cell (re i) + alpha ∧ b.cell (im i) = beta) ∧
      ∀ k, (∀ i, 1 ≤ i → i ≤ n → k ≠ re i ∧ k ≠ im i) → b.cell k = x.cell k := by
  obtain ⟨b, h1, h2, h3, h4⟩ := forUp_inv
    (P := fun j (b : Buf α) => b.size = N ∧
      (∀ i, 1 ≤ i → i < j → b.cell (re i) = x.cell (re i) + alpha ∧ b.cell (im i) = beta) ∧
      ∀ k, (∀ i, 1 ≤ i → i < j → k ≠ re i ∧ k ≠ im i) → b.cell k = x.cell k)
    (body := fun i b => (b.rd (re i)).bind fun w => (b.wr (re i) (w + alpha)).bind fun b =>
      b.wr (im i) beta) (lo := 1) (hi := n) (s := x)
    (by omega) ⟨hx, fun i a b => by omega, fun k _ => rfl⟩ (by
      rintro j b hj hj' ⟨i1, i2, i3⟩
      have hb := hr j hj hj'
      have hb' := hm j hj hj'
      have hc : b.cell (re j) = x.cell (re j) := i3 _ (fun i i1 i2 =>
        ⟨fun e => by have := hrr j i hj hj' i1 (by omega) e; omega, hrm j i hj hj' i1 (by omega)⟩)
      refine ⟨⟨b.size, Function.update (Function.update b.cell (re j) (b.cell (re j) + alpha))
        (im j) beta⟩, ?_, i1, ?_, ?_⟩
      · try simp only
        rw [Buf.rd_in ⟨hb.1, by omega⟩, Option.bind_some, Buf.wr_in _ ⟨hb.1, by omega⟩,
          Option.bind_some, Buf.wr_in _ ⟨hb'.1, by simp only; omega⟩]
      · intro i a1 a2
        simp only
        by_cases e : i = j
        · subst e
          rw [Function.update_of_ne (hrm i i hj hj' hj hj'), Function.update_self, hc,
            Function.update_self]
          exact ⟨rfl, rfl⟩
        · rw [Function.update_of_ne (hrm i j a1 (by omega) hj hj'),
            Function.update_of_ne (fun h => e (hrr i j a1 (by omega) hj hj' h)),
            Function.update_of_ne (fun h => e (hmm i j a1 (by omega) hj hj' h)),
            Function.update_of_ne (hrm j i hj hj' a1 (by omega)).symm]
          exact i2 i a1 (by omega)
      · intro k hk
        simp only
        obtain ⟨k1, k2⟩ := hk j hj (by omega)
        rw [Function.update_of_ne k2, Function.update_of_ne k1]
        exact i3 k (fun i a1 a2 => hk i a1 (by omega)))
  exact ⟨b, h1, h2, fun i a c => h3 i a (by omega), fun k hk => h4 k (fun i a c => hk i a (by omega))⟩

/-- C03: full storage, complex matrix: what `zgetrf` receives is `(alpha+i*beta)*I - J`. -/
theorem asmComplexFull_spec [AddCommGroup α] {n : ℤ} (hn : 1 ≤ n) (alpha beta : α)
    (E2R Jac : Buf α) (hE : E2R.size = 2 * n * n) (hJ : Jac.size = n * n) :
    ∃ E, asmComplexFull n alpha beta E2R Jac = some E ∧ E.size = 2 * n * n ∧
      ∀ i j, 1 ≤ i → i ≤ n → 1 ≤ j → j ≤ n →
        ∃ v, faGet n Jac i j = some v ∧
          E.cell (re (ge n i j)) = (if i = j then alpha else 0) - v ∧
          E.cell (im (ge n i j)) = if i = j then beta else 0 := by
  have eR : ∀ i j : ℤ, fcRe n i j = 2 * faIdx n i j := by intro i j; simp only [fcRe, faIdx]; ring
  have eI : ∀ i j : ℤ, fcIm n i j = 2 * faIdx n i j + 1 := by
    intro i j; simp only [fcIm, faIdx]; ring
  -- the double loop
  obtain ⟨b, h1, h2, h3⟩ := forUp_inv
    (P := fun j (b : Buf α) => b.size = 2 * n * n ∧
      ∀ i j', 1 ≤ i → i ≤ n → 1 ≤ j' → j' < j →
        b.cell (fcRe n i j') = -Jac.cell (faIdx n i j') ∧ b.cell (fcIm n i j') = 0)
    (body := fun j b => forUp 1 n (fun i b => (faGet n Jac i j).bind fun v =>
      fcSet n b i j (-v) 0) b) (lo := 1) (hi := n) (s := E2R) (by omega)
    ⟨hE, fun i j a b c d => by omega⟩ (by
      rintro j b hj hj' ⟨i1, i2⟩
      obtain ⟨b', g1, g2, g3, g4⟩ := forUp_inv
        (P := fun m (c : Buf α) => c.size = 2 * n * n ∧
          (∀ i, 1 ≤ i → i < m →
            c.cell (fcRe n i j) = -Jac.cell (faIdx n i j) ∧ c.cell (fcIm n i j) = 0) ∧
          ∀ i j', 1 ≤ i → i ≤ n → j' ≠ j →
            c.cell (fcRe n i j') = b.cell (fcRe n i j') ∧
            c.cell (fcIm n i j') = b.cell (fcIm n i j'))
        (body := fun i b => (faGet n Jac i j).bind fun v => fcSet n b i j (-v) 0)
        (lo := 1) (hi := n) (s := b) (by omega)
        ⟨i1, fun i a b => by omega, fun i j' _ _ _ => ⟨rfl, rfl⟩⟩ (by
          rintro m c hm hm' ⟨k1, k2, k3⟩
          obtain ⟨q1, q2, -⟩ := full_in_bounds (α := α) Jac.cell hm hm' hj hj'
          simp only [faNew] at q2
          obtain ⟨c', c1, c2, c3, c4, c5⟩ := fcSet_spec c k1 (-Jac.cell (faIdx n m j)) hm hm' hj hj'
          refine ⟨c', ?_, by rw [c2, k1], ?_, ?_⟩
          · simp only [faGet]
            rw [Buf.rd_in ⟨q1, by omega⟩, Option.bind_some, c1]
          · intro i a1 a2
            by_cases e : i = m
            · subst e; exact ⟨c3, c4⟩
            · have ne : faIdx n i j ≠ faIdx n m j := fun h =>
                e (fa_inj a1 (by omega) hm hm' h).1
              rw [c5 _ (by rw [eR, eR]; omega) (by rw [eR, eI]; omega),
                c5 _ (by rw [eR, eI]; omega) (by rw [eI, eI]; omega)]
              exact k2 i a1 (by omega)
          · intro i j' a1 a2 a3
            have ne : faIdx n i j' ≠ faIdx n m j := fun h => a3 (fa_inj a1 a2 hm hm' h).2
            rw [c5 _ (by rw [eR, eR]; omega) (by rw [eR, eI]; omega),
              c5 _ (by rw [eR, eI]; omega) (by rw [eI, eI]; omega)]
            exact k3 i j' a1 a2 a3)
      refine ⟨b', g1, g2, ?_⟩
      intro i j' a1 a2 a3 a4
      by_cases e : j' = j
      · subst e; exact g3 i a1 (by omega)
      · rw [(g4 i j' a1 a2 e).1, (g4 i j' a1 a2 e).2]
        exact i2 i j' a1 a2 a3 (by omega))
  obtain ⟨E, s1, s2, s3, s4⟩ := addShift_spec n (2 * n * n) hn (fun i => fcRe n i i)
    (fun i => fcIm n i i)
    (by intro i a c
        obtain ⟨-, -, q3, q4⟩ := full_in_bounds (α := α) Jac.cell a c a c
        simp only [fcNew] at q4
        simp only [eI] at q4; simp only [eR] at q3 ⊢
        omega)
    (by intro i a c
        obtain ⟨-, -, q3, q4⟩ := full_in_bounds (α := α) Jac.cell a c a c
        simp only [fcNew] at q4
        simp only [eI] at q4 ⊢; simp only [eR] at q3
        omega)
    (by intro i j a c a' c' e
        simp only [eR] at e
        exact (fa_inj (n := n) (j := i) (j' := j) a c a' c' (by omega)).1)
    (by intro i j a c a' c' e
        simp only [eI] at e
        exact (fa_inj (n := n) (j := i) (j' := j) a c a' c' (by omega)).1)
    (by intro i j _ _ _ _ e; simp only [eR, eI] at e; omega) alpha beta b h2
  refine ⟨E, ?_, s2, ?_⟩
  · unfold asmComplexFull
    rw [h1, Option.bind_some]; exact s1
  · intro i j a1 a2 a3 a4
    obtain ⟨b1, b2, -⟩ := full_in_bounds (α := α) Jac.cell a1 a2 a3 a4
    simp only [faNew] at b2
    refine ⟨Jac.cell (faIdx n i j), ?_, ?_⟩
    · unfold faGet; rw [Buf.rd_in ⟨b1, by omega⟩]
    · rw [← (full_layout n i j).2.1, ← (full_layout n i j).2.2]
      obtain ⟨m1, m2⟩ := h3 i j a1 a2 a3 (by omega)
      by_cases e : i = j
      · subst e
        obtain ⟨t1, t2⟩ := s3 i a1 a2
        try simp only at t1 t2
        rw [t1, t2, m1, if_pos rfl, if_pos rfl]
        exact ⟨by abel, rfl⟩
      · have ne : ∀ m, 1 ≤ m → m ≤ n → faIdx n i j ≠ faIdx n m m := by
          intro m q1 q2 h
          have := fa_inj a1 a2 q1 q2 h
          omega
        rw [s4 _ (fun m q1 q2 => by
            have := ne m q1 q2
            simp only [eR, eI]; omega),
          s4 _ (fun m q1 q2 => by
            have := ne m q1 q2
            simp only [eR, eI]; omega), m1, m2, if_neg e, if_neg e]
        exact ⟨by abel, rfl⟩

/-- C03: banded storage, complex matrix: what `zgbtrf` receives is `(alpha+i*beta)*I - J` on the
band. -/
theorem asmComplexBand_spec [AddCommGroup α] {n kl ku : ℤ} (hn : 1 ≤ n) (hkl : 0 ≤ kl)
    (hku : 0 ≤ ku) (alpha beta : α) (E2R Jac : Buf α) (hE : E2R.size = 2 * ldab kl ku * n)
    (hJ : Jac.size = ldab kl ku * n) :
    ∃ E, asmComplexBand n kl ku alpha beta E2R Jac = some E ∧ E.size = 2 * ldab kl ku * n ∧
      ∀ i j, InBand n kl ku i j →
        ∃ v, frGet kl ku Jac i j = some v ∧
          E.cell (re (gb kl ku i j)) = (if i = j then alpha else 0) - v ∧
          E.cell (im (gb kl ku i j)) = if i = j then beta else 0 := by
  have eR : ∀ i j : ℤ, frcRe kl ku i j = 2 * frIdx kl ku i j := by
    intro i j; simp only [frcRe, frIdx]
  have eI : ∀ i j : ℤ, frcIm kl ku i j = 2 * frIdx kl ku i j + 1 := by
    intro i j; simp only [frcIm, frIdx]
  have inj : ∀ {i j i' j' : ℤ}, InBand n kl ku i j → InBand n kl ku i' j' →
      frIdx kl ku i j = frIdx kl ku i' j' → i = i' ∧ j = j' :=
    fun h h' => (band_injective hkl hku h h').1
  have dg : ∀ i, 1 ≤ i → i ≤ n → InBand n kl ku i i := fun i a c =>
    ⟨a, c, a, c, by omega, by omega⟩
  obtain ⟨b, h1, h2, h3⟩ := forUp_inv
    (P := fun j (b : Buf α) => b.size = 2 * ldab kl ku * n ∧
      ∀ i j', InBand n kl ku i j' → j' < j →
        b.cell (frcRe kl ku i j') = -Jac.cell (frIdx kl ku i j') ∧ b.cell (frcIm kl ku i j') = 0)
    (body := fun j b => forUp (max 1 (j - ku)) (min n (j + kl)) (fun i b =>
      (frGet kl ku Jac i j).bind fun v => frcSet kl ku b i j (-v) 0) b)
    (lo := 1) (hi := n) (s := E2R) (by omega)
    ⟨hE, fun i j a b => by have := a.2.2.1; omega⟩ (by
      rintro j b hj hj' ⟨i1, i2⟩
      obtain ⟨b', g1, g2, g3, g4⟩ := forUp_inv
        (P := fun m (c : Buf α) => c.size = 2 * ldab kl ku * n ∧
          (∀ i, InBand n kl ku i j → i < m →
            c.cell (frcRe kl ku i j) = -Jac.cell (frIdx kl ku i j) ∧
            c.cell (frcIm kl ku i j) = 0) ∧
          ∀ i j', InBand n kl ku i j' → j' ≠ j →
            c.cell (frcRe kl ku i j') = b.cell (frcRe kl ku i j') ∧
            c.cell (frcIm kl ku i j') = b.cell (frcIm kl ku i j'))
        (body := fun i b => (frGet kl ku Jac i j).bind fun v => frcSet kl ku b i j (-v) 0)
        (lo := max 1 (j - ku)) (hi := min n (j + kl)) (s := b) (by omega)
        ⟨i1, fun i a b => by obtain ⟨_, _, _, _, _, _⟩ := a; omega,
          fun i j' _ _ => ⟨rfl, rfl⟩⟩ (by
          rintro m c hm hm' ⟨k1, k2, k3⟩
          have hmb : InBand n kl ku m j := ⟨by omega, by omega, hj, hj', by omega, by omega⟩
          obtain ⟨q1, q2, -⟩ := band_in_bounds (α := α) hkl hku hmb Jac.cell
          simp only [frNew] at q2
          obtain ⟨c', c1, c2, c3, c4, c5⟩ := frcSet_spec hkl hku c k1
            (-Jac.cell (frIdx kl ku m j)) hmb
          refine ⟨c', ?_, by rw [c2, k1], ?_, ?_⟩
          · simp only [frGet]
            rw [Buf.rd_in ⟨q1, by omega⟩, Option.bind_some, c1]
          · intro i hib a2
            by_cases e : i = m
            · subst e; exact ⟨c3, c4⟩
            · have ne : frIdx kl ku i j ≠ frIdx kl ku m j := fun h => e (inj hib hmb h).1
              rw [c5 _ (by rw [eR, eR]; omega) (by rw [eR, eI]; omega),
                c5 _ (by rw [eR, eI]; omega) (by rw [eI, eI]; omega)]
              exact k2 i hib (by omega)
          · intro i j' hib a3
            have ne : frIdx kl ku i j' ≠ frIdx kl ku m j := fun h => a3 (inj hib hmb h).2
            rw [c5 _ (by rw [eR, eR]; omega) (by rw [eR, eI]; omega),
              c5 _ (by rw [eR, eI]; omega) (by rw [eI, eI]; omega)]
            exact k3 i j' hib a3)
      refine ⟨b', g1, g2, ?_⟩
      intro i j' hib a4
      by_cases e : j' = j
      · subst e
        exact g3 i hib (by obtain ⟨_, _, _, _, _, _⟩ := hib; omega)
      · rw [(g4 i j' hib e).1, (g4 i j' hib e).2]
        exact i2 i j' hib (by omega))
  obtain ⟨E, s1, s2, s3, s4⟩ := addShift_spec n (2 * ldab kl ku * n) hn (fun i => frcRe kl ku i i)
    (fun i => frcIm kl ku i i)
    (by intro i a c
        obtain ⟨-, -, q3, q4, -⟩ := band_in_bounds (α := α) hkl hku (dg i a c) Jac.cell
        simp only [frcNew] at q4
        simp only [eI] at q4; simp only [eR] at q3 ⊢
        omega)
    (by intro i a c
        obtain ⟨-, -, q3, q4, -⟩ := band_in_bounds (α := α) hkl hku (dg i a c) Jac.cell
        simp only [frcNew] at q4
        simp only [eI] at q4 ⊢; simp only [eR] at q3
        omega)
    (by intro i j a c a' c' e
        simp only [eR] at e
        exact (inj (dg i a c) (dg j a' c') (by omega)).1)
    (by intro i j a c a' c' e
        simp only [eI] at e
        exact (inj (dg i a c) (dg j a' c') (by omega)).1)
    (by intro i j _ _ _ _ e; simp only [eR, eI] at e; omega) alpha beta b h2
  refine ⟨E, ?_, s2, ?_⟩
  · unfold asmComplexBand
    rw [h1, Option.bind_some]; exact s1
  · intro i j hb
    obtain ⟨b1, b2, -⟩ := band_in_bounds (α := α) hkl hku hb Jac.cell
    simp only [frNew] at b2
    refine ⟨Jac.cell (frIdx kl ku i j), ?_, ?_⟩
    · unfold frGet; rw [Buf.rd_in ⟨b1, by omega⟩]
    · rw [← (band_layout kl ku i j).2.1, ← (band_layout kl ku i j).2.2]
      obtain ⟨m1, m2⟩ := h3 i j hb (by have := hb.2.2.2.1; omega)
      by_cases e : i = j
      · subst e
        obtain ⟨t1, t2⟩ := s3 i hb.1 hb.2.1
        try simp only at t1 t2
        rw [t1, t2, m1, if_pos rfl, if_pos rfl]
        exact ⟨by abel, rfl⟩
      · have ne : ∀ m, 1 ≤ m → m ≤ n → frIdx kl ku i j ≠ frIdx kl ku m m := by
          intro m q1 q2 h
          have := inj hb (dg m q1 q2) h
          omega
        rw [s4 _ (fun m q1 q2 => by
            have := ne m q1 q2
            simp only [eR, eI]; omega),
          s4 _ (fun m q1 q2 => by
            have := ne m q1 q2
            simp only [eR, eI]; omega), m1, m2, if_neg e, if_neg e]
        exact ⟨by abel, rfl⟩

/-- C03: Hessenberg storage, complex matrix: what `dechc` receives is `(alpha+i*beta)*I - J` on the
upper Hessenberg part (the only part `dechc` looks at, see `Props/Hessenberg.lean`). -/
theorem asmComplexHess_spec [AddCommGroup α] {n : ℤ} (hn : 1 ≤ n) (alpha beta : α)
    (E2R E2I Jac : Buf α) (hR : E2R.size = n * n) (hI : E2I.size = n * n) (hJ : Jac.size = n * n) :
    ∃ R I, asmComplexHess n alpha beta E2R E2I Jac = some (R, I) ∧ R.size = n * n ∧
      I.size = n * n ∧
      ∀ i j, 1 ≤ i → i ≤ n → 1 ≤ j → j ≤ n → i ≤ j + 1 →
        ∃ v, faGet n Jac i j = some v ∧ R.cell (ge n i j) = (if i = j then alpha else 0) - v ∧
          I.cell (ge n i j) = if i = j then beta else 0 := by
  have bd : ∀ {i j : ℤ}, 1 ≤ i → i ≤ n → 1 ≤ j → j ≤ n →
      0 ≤ faIdx n i j ∧ faIdx n i j < n * n := by
    intro i j a1 a2 a3 a4
    obtain ⟨b1, b2, -⟩ := full_in_bounds (α := α) Jac.cell a1 a2 a3 a4
    exact ⟨b1, b2⟩
  -- one assignment of both matrices
  have st : ∀ (p : Buf α × Buf α) (i j : ℤ) (v w : α), p.1.size = n * n → p.2.size = n * n →
      1 ≤ i → i ≤ n → 1 ≤ j → j ≤ n →
      faSet n p.1 i j v = some ⟨p.1.size, Function.update p.1.cell (faIdx n i j) v⟩ ∧
      faSet n p.2 i j w = some ⟨p.2.size, Function.update p.2.cell (faIdx n i j) w⟩ ∧
      faGet n Jac i j = some (Jac.cell (faIdx n i j)) := by
    intro p i j v w s1 s2 a1 a2 a3 a4
    obtain ⟨b1, b2⟩ := bd a1 a2 a3 a4
    refine ⟨?_, ?_, ?_⟩
    · unfold faSet; rw [Buf.wr_in _ ⟨b1, by omega⟩]
    · unfold faSet; rw [Buf.wr_in _ ⟨b1, by omega⟩]
    · unfold faGet; rw [Buf.rd_in ⟨b1, by omega⟩]
  obtain ⟨p, h1, h2, h3, h4⟩ := forUp_inv
    (P := fun j (p : Buf α × Buf α) => p.1.size = n * n ∧ p.2.size = n * n ∧
      ∀ j', 1 ≤ j' → j' < j → p.1.cell (faIdx n (j' + 1) j') = -Jac.cell (faIdx n (j' + 1) j') ∧
        p.2.cell (faIdx n (j' + 1) j') = 0)
    (body := fun j (p : Buf α × Buf α) =>
      (faGet n Jac (j + 1) j).bind fun v => (faSet n p.1 (j + 1) j (-v)).bind fun r =>
      (faSet n p.2 (j + 1) j 0).bind fun m => some (r, m))
    (lo := 1) (hi := n - 1) (s := (E2R, E2I)) (by omega)
    ⟨hR, hI, fun j a b => by omega⟩ (by
      rintro j p hj hj' ⟨i1, i2, i3⟩
      obtain ⟨t1, t2, t3⟩ := st p (j + 1) j (-Jac.cell (faIdx n (j + 1) j)) 0 i1 i2 (by omega)
        (by omega) (by omega) (by omega)
      refine ⟨(⟨p.1.size, Function.update p.1.cell (faIdx n (j + 1) j)
          (-Jac.cell (faIdx n (j + 1) j))⟩,
        ⟨p.2.size, Function.update p.2.cell (faIdx n (j + 1) j) 0⟩), ?_, i1, i2, ?_⟩
      · try dsimp only
        rw [t3, Option.bind_some, t1, Option.bind_some, t2, Option.bind_some]
      · intro j' a1 a2
        dsimp only
        by_cases e : j' = j
        · subst e; simp
        · have ne : faIdx n (j' + 1) j' ≠ faIdx n (j + 1) j := fun h =>
            e (fa_inj (by omega) (by omega) (by omega) (by omega) h).2
          rw [Function.update_of_ne ne, Function.update_of_ne ne]
          exact i3 j' a1 (by omega))
  obtain ⟨q, g1, g2, g3, g4, g5⟩ := forUp_inv
    (P := fun j (q : Buf α × Buf α) => q.1.size = n * n ∧ q.2.size = n * n ∧
      (∀ j', 1 ≤ j' → j' < n → q.1.cell (faIdx n (j' + 1) j') = -Jac.cell (faIdx n (j' + 1) j') ∧
        q.2.cell (faIdx n (j' + 1) j') = 0) ∧
      ∀ i j', 1 ≤ i → i ≤ j' → j' < j →
        q.1.cell (faIdx n i j') = (if i = j' then alpha else 0) - Jac.cell (faIdx n i j') ∧
        q.2.cell (faIdx n i j') = if i = j' then beta else 0)
    (body := fun j (p : Buf α × Buf α) =>
      (forUp 1 j (fun i (p : Buf α × Buf α) =>
        (faSet n p.2 i j 0).bind fun m => (faGet n Jac i j).bind fun v =>
        (faSet n p.1 i j (-v)).bind fun r => some (r, m)) p).bind fun p =>
      (faGet n p.1 j j).bind fun w => (faSet n p.1 j j (w + alpha)).bind fun r =>
      (faSet n p.2 j j beta).bind fun m => some (r, m))
    (lo := 1) (hi := n) (s := p) (by omega)
    ⟨h2, h3, fun j' a b => h4 j' a (by omega), fun i j' a b c => by omega⟩ (by
      rintro j q hj hj' ⟨i1, i2, i3, i4⟩
      obtain ⟨q', k1, k2, k3, k4, k5⟩ := forUp_inv
        (P := fun m (c : Buf α × Buf α) => c.1.size = n * n ∧ c.2.size = n * n ∧
          (∀ i, 1 ≤ i → i < m → c.1.cell (faIdx n i j) = -Jac.cell (faIdx n i j) ∧
            c.2.cell (faIdx n i j) = 0) ∧
          ∀ i j', 1 ≤ i → i ≤ n → (j' ≠ j ∨ j < i) →
            c.1.cell (faIdx n i j') = q.1.cell (faIdx n i j') ∧
            c.2.cell (faIdx n i j') = q.2.cell (faIdx n i j'))
        (body := fun i (p : Buf α × Buf α) =>
          (faSet n p.2 i j 0).bind fun m => (faGet n Jac i j).bind fun v =>
          (faSet n p.1 i j (-v)).bind fun r => some (r, m))
        (lo := 1) (hi := j) (s := q) (by omega)
        ⟨i1, i2, fun i a b => by omega, fun i j' _ _ _ => ⟨rfl, rfl⟩⟩ (by
          rintro m c hm hm' ⟨l1, l2, l3, l4⟩
          obtain ⟨t1, t2, t3⟩ := st c m j (-Jac.cell (faIdx n m j)) 0 l1 l2 (by omega)
            (by omega) (by omega) (by omega)
          refine ⟨(⟨c.1.size, Function.update c.1.cell (faIdx n m j) (-Jac.cell (faIdx n m j))⟩,
            ⟨c.2.size, Function.update c.2.cell (faIdx n m j) 0⟩), ?_, l1, l2, ?_, ?_⟩
          · try dsimp only
            rw [t2, Option.bind_some, t3, Option.bind_some, t1, Option.bind_some]
          · intro i a1 a2
            dsimp only
            by_cases e : i = m
            · subst e; simp
            · have ne : faIdx n i j ≠ faIdx n m j := fun h =>
                e (fa_inj (by omega) (by omega) (by omega) (by omega) h).1
              rw [Function.update_of_ne ne, Function.update_of_ne ne]
              exact l3 i a1 (by omega)
          · intro i j' a1 a2 a3
            dsimp only
            have ne : faIdx n i j' ≠ faIdx n m j := fun h => by
              have := fa_inj (by omega) (by omega) (by omega) (by omega) h
              omega
            rw [Function.update_of_ne ne, Function.update_of_ne ne]
            exact l4 i j' a1 a2 a3)
      obtain ⟨t1, t2, -⟩ := st q' j j (q'.1.cell (faIdx n j j) + alpha) beta k2 k3 hj hj' hj hj'
      obtain ⟨b1, b2⟩ := bd hj hj' hj hj'
      have t3 : faGet n q'.1 j j = some (q'.1.cell (faIdx n j j)) := by
        unfold faGet; rw [Buf.rd_in ⟨b1, by omega⟩]
      refine ⟨(⟨q'.1.size, Function.update q'.1.cell (faIdx n j j)
          (q'.1.cell (faIdx n j j) + alpha)⟩,
        ⟨q'.2.size, Function.update q'.2.cell (faIdx n j j) beta⟩), ?_, k2, k3, ?_, ?_⟩
      · try dsimp only
        rw [k1, Option.bind_some, t3, Option.bind_some, t1, Option.bind_some, t2,
          Option.bind_some]
      · intro j' a1 a2
        dsimp only
        have ne : faIdx n (j' + 1) j' ≠ faIdx n j j := fun h => by
          have := fa_inj (by omega) (by omega) (by omega) (by omega) h
          omega
        rw [Function.update_of_ne ne, Function.update_of_ne ne,
          (k5 (j' + 1) j' (by omega) (by omega) (by omega)).1,
          (k5 (j' + 1) j' (by omega) (by omega) (by omega)).2]
        exact i3 j' a1 a2
      · intro i j' a1 a2 a3
        dsimp only
        by_cases e : j' = j
        · subst e
          by_cases e2 : i = j'
          · subst e2
            rw [Function.update_self, Function.update_self, (k4 i a1 (by omega)).1, if_pos rfl,
              if_pos rfl]
            exact ⟨by abel, rfl⟩
          · have ne : faIdx n i j' ≠ faIdx n j' j' := fun h => by
              have := fa_inj (by omega) (by omega) (by omega) (by omega) h
              omega
            rw [Function.update_of_ne ne, Function.update_of_ne ne, (k4 i a1 (by omega)).1,
              (k4 i a1 (by omega)).2, if_neg e2, if_neg e2]
            exact ⟨by abel, rfl⟩
        · have ne : faIdx n i j' ≠ faIdx n j j := fun h => by
            have := fa_inj (by omega) (by omega) (by omega) (by omega) h
            omega
          rw [Function.update_of_ne ne, Function.update_of_ne ne,
            (k5 i j' a1 (by omega) (by omega)).1, (k5 i j' a1 (by omega) (by omega)).2]
          exact i4 i j' a1 a2 (by omega))
  refine ⟨q.1, q.2, ?_, g2, g3, ?_⟩
  · unfold asmComplexHess
    rw [h1, Option.bind_some]; exact g1
  · intro i j a1 a2 a3 a4 a5
    obtain ⟨b1, b2⟩ := bd a1 a2 a3 a4
    refine ⟨Jac.cell (faIdx n i j), ?_, ?_⟩
    · unfold faGet; rw [Buf.rd_in ⟨b1, by omega⟩]
    · rw [← (full_layout n i j).1]
      by_cases e : i ≤ j
      · exact g5 i j a1 e (by omega)
      · have e2 : i = j + 1 := by omega
        subst e2
        rw [(g4 j a3 (by omega)).1, (g4 j a3 (by omega)).2, if_neg (by omega), if_neg (by omega)]
        exact ⟨by abel, rfl⟩

/-- non-vacuous: a 2 × 2 instance of the hypotheses. -/
example : ∃ E1 Jac : Buf ℤ, E1.size = 2 * 2 ∧ Jac.size = 2 * 2 ∧ Jac.cell 1 ≠ 0 :=
  ⟨⟨4, fun _ => 0⟩, ⟨4, fun _ => 7⟩, rfl, rfl, by simp⟩

/-! ### C13 -/

/-- C13 fails: a negative witness for every size; too many subdiagonals (and no superdiagonal) are
accepted. -/
theorem band_widths_not_rejected (n : ℤ) (hn : 1 ≤ n) :
    ∃ nsub nsup, 0 ≤ nsup ∧ nsub ≥ n ∧ bandedCtorThrows n nsub nsup = false := by
  refine ⟨n, 0, le_rfl, le_rfl, ?_⟩
  unfold bandedCtorThrows
  simp; omega

/-- C13, what holds: an exception iff *both* widths are too large. -/
theorem band_widths_rejected_partial (n nsub nsup : ℤ) :
    bandedCtorThrows n nsub nsup = true ↔ nsub ≥ n ∧ nsup ≥ n := by
  unfold bandedCtorThrows; simp

/-- C13, second half: the band loops never leave the matrix, whatever the widths. -/
theorem band_loops_in_matrix {n nsub nsup i r : ℤ} (hi : 1 ≤ i) (hi' : i ≤ n)
    (h1 : Ibegin nsup i ≤ r) (h2 : r ≤ Iend n nsub i) :
    InBand n nsub nsup r i := by
  unfold Ibegin at h1; unfold Iend at h2
  refine ⟨by omega, by omega, hi, hi', by omega, by omega⟩

example : InBand 5 1 2 3 4 := band_loops_in_matrix (by decide) (by decide) (by decide) (by decide)

/-! ### C14 -/

/-- the interleaving loop. -/
theorem interleave_spec {n : ℤ} (hn : 1 ≤ n) (Zr Zi Z2N : Buf α) (hr : Zr.size = n)
    (hi : Zi.size = n) (hz : Z2N.size = 2 * n) :
    ∃ z, interleave n Zr Zi Z2N = some z ∧ z.size = 2 * n ∧ ∀ i, 1 ≤ i → i ≤ n →
      z.cell (re (i - 1)) = Zr.cell (i - 1) ∧ z.cell (im (i - 1)) = Zi.cell (i - 1) := by
  obtain ⟨z, h1, h2, h3⟩ := forDown_inv
    (P := fun j (b : Buf α) => b.size = 2 * n ∧ ∀ i, j < i → i ≤ n →
      b.cell (re (i - 1)) = Zr.cell (i - 1) ∧ b.cell (im (i - 1)) = Zi.cell (i - 1))
    (body := fun i b => (Zr.rd (i - 1)).bind fun r => (b.wr (2 * i - 1 - 1) r).bind fun b =>
      (Zi.rd (i - 1)).bind fun m => b.wr (2 * i - 1) m) (lo := 1) (hi := n) (s := Z2N) (by omega)
    ⟨hz, fun i a b => by omega⟩ (by
      rintro j b hj hj' ⟨i1, i2⟩
      refine ⟨⟨b.size, Function.update (Function.update b.cell (2 * j - 1 - 1) (Zr.cell (j - 1)))
        (2 * j - 1) (Zi.cell (j - 1))⟩, ?_, i1, ?_⟩
      · try dsimp only
        rw [Buf.rd_in ⟨by omega, by omega⟩, Option.bind_some, Buf.wr_in _ ⟨by omega, by omega⟩,
          Option.bind_some, Buf.rd_in ⟨by omega, by omega⟩, Option.bind_some,
          Buf.wr_in _ ⟨by omega, by dsimp only; omega⟩]
      · intro i a1 a2
        dsimp only
        by_cases e : i = j
        · subst e
          rw [show re (i - 1) = 2 * i - 1 - 1 by unfold re; ring,
            show im (i - 1) = 2 * i - 1 by unfold im; ring, Function.update_self,
            Function.update_of_ne (by omega), Function.update_self]
          exact ⟨rfl, rfl⟩
        · rw [Function.update_of_ne (by unfold re; omega), Function.update_of_ne (by unfold re; omega),
            Function.update_of_ne (by unfold im; omega), Function.update_of_ne (by unfold im; omega)]
          exact i2 i (by omega) a2)
  exact ⟨z, h1, h2, fun i a b => h3 i (by omega) b⟩

/-- the de-interleaving loop. -/
theorem deinterleave_spec {n : ℤ} (hn : 1 ≤ n) (z Zr Zi : Buf α) (hr : Zr.size = n)
    (hi : Zi.size = n) (hz : z.size = 2 * n) :
    ∃ a b, deinterleave n z Zr Zi = some (a, b) ∧ a.size = n ∧ b.size = n ∧
      ∀ i, 1 ≤ i → i ≤ n → a.cell (i - 1) = z.cell (re (i - 1)) ∧
        b.cell (i - 1) = z.cell (im (i - 1)) := by
  obtain ⟨q, h1, h2, h3, h4⟩ := forUp_inv
    (P := fun j (p : Buf α × Buf α) => p.1.size = n ∧ p.2.size = n ∧ ∀ i, 1 ≤ i → i < j →
      p.1.cell (i - 1) = z.cell (re (i - 1)) ∧ p.2.cell (i - 1) = z.cell (im (i - 1)))
    (body := fun i (p : Buf α × Buf α) => (z.rd (2 * i - 1)).bind fun m =>
      (p.2.wr (i - 1) m).bind fun b2 => (z.rd (2 * i - 1 - 1)).bind fun r =>
      (p.1.wr (i - 1) r).bind fun b1 => some (b1, b2)) (lo := 1) (hi := n) (s := (Zr, Zi))
    (by omega) ⟨hr, hi, fun i a b => by omega⟩ (by
      rintro j p hj hj' ⟨i1, i2, i3⟩
      refine ⟨(⟨p.1.size, Function.update p.1.cell (j - 1) (z.cell (2 * j - 1 - 1))⟩,
        ⟨p.2.size, Function.update p.2.cell (j - 1) (z.cell (2 * j - 1))⟩), ?_, i1, i2, ?_⟩
      · try dsimp only
        rw [Buf.rd_in ⟨by omega, by omega⟩, Option.bind_some, Buf.wr_in _ ⟨by omega, by omega⟩,
          Option.bind_some, Buf.rd_in ⟨by omega, by omega⟩, Option.bind_some,
          Buf.wr_in _ ⟨by omega, by omega⟩, Option.bind_some]
      · intro i a1 a2
        dsimp only
        by_cases e : i = j
        · subst e
          rw [show re (i - 1) = 2 * i - 1 - 1 by unfold re; ring,
            show im (i - 1) = 2 * i - 1 by unfold im; ring, Function.update_self,
            Function.update_self]
          exact ⟨rfl, rfl⟩
        · rw [Function.update_of_ne (by omega), Function.update_of_ne (by omega)]
          exact i3 i a1 (by omega))
  exact ⟨q.1, q.2, h1, h2, h3, fun i a b => h4 i a (by omega)⟩

/-- C14, any storage: `solvecomplex` either reports LAPACK's failure or returns real and imaginary
parts of the solution of the system LAPACK was given.  `E` is the assembled matrix. -/
theorem solveComplex_spec {n : ℤ} (hn : 1 ≤ n) (ent : Buf ℝ → ℤ → ℤ → ℂ)
    (lap : Buf ℝ → Buf ℝ → Option (Buf ℝ)) (hl : SolvesC n ent lap) (E Z2N Zr Zi : Buf ℝ)
    (hz : Z2N.size = 2 * n) (hr : Zr.size = n) (hi : Zi.size = n) :
    solveComplex n (lap E) Z2N Zr Zi = some (.error .factorisation) ∨
    ∃ a b, solveComplex n (lap E) Z2N Zr Zi = some (.ok (a, b)) ∧ a.size = n ∧ b.size = n ∧
      ∀ i, 1 ≤ i → i ≤ n →
        ∑ j ∈ Finset.Icc 1 n, ent E i j * (⟨a.cell (j - 1), b.cell (j - 1)⟩ : ℂ) =
          ⟨Zr.cell (i - 1), Zi.cell (i - 1)⟩ := by
  obtain ⟨z, h1, h2, h3⟩ := interleave_spec hn Zr Zi Z2N hr hi hz
  unfold solveComplex
  rw [h1, Option.bind_some]
  cases hlap : lap E z with
  | none => left; rfl
  | some z' =>
    right
    obtain ⟨s1, s2⟩ := hl E z z' hlap h2
    obtain ⟨a, b, d1, d2, d3, d4⟩ := deinterleave_spec hn z' Zr Zi hr hi s1
    refine ⟨a, b, by simp [d1], d2, d3, ?_⟩
    intro i a1 a2
    have := s2 i a1 a2
    unfold vecC at this
    rw [(h3 i a1 a2).1, (h3 i a1 a2).2] at this
    rw [← this]
    refine Finset.sum_congr rfl fun j hj => ?_
    rw [Finset.mem_Icc] at hj
    rw [(d4 j hj.1 hj.2).1, (d4 j hj.1 hj.2).2]

/-- C14, full storage: `decomc(alpha,beta,Jac)` then `solvecomplex(Zr,Zi)` solves
`((alpha+i*beta)I-J) z = b`. -/
theorem complex_solve_full {n : ℤ} (hn : 1 ≤ n) (alpha beta : ℝ) (E2R Jac : Buf ℝ)
    (hE : E2R.size = 2 * n * n) (hJ : Jac.size = n * n)
    (lap : Buf ℝ → Buf ℝ → Option (Buf ℝ)) (hl : SolvesC n (geC n) lap) (Z2N Zr Zi : Buf ℝ)
    (hz : Z2N.size = 2 * n) (hr : Zr.size = n) (hi : Zi.size = n) :
    ∃ E, asmComplexFull n alpha beta E2R Jac = some E ∧
    (solveComplex n (lap E) Z2N Zr Zi = some (.error .factorisation) ∨
    ∃ a b, solveComplex n (lap E) Z2N Zr Zi = some (.ok (a, b)) ∧ a.size = n ∧ b.size = n ∧
      ∀ i, 1 ≤ i → i ≤ n →
        ∑ j ∈ Finset.Icc 1 n, ((if i = j then (⟨alpha, beta⟩ : ℂ) else 0)
            - ((Jac.cell (ge n i j) : ℝ) : ℂ)) * (⟨a.cell (j - 1), b.cell (j - 1)⟩ : ℂ) =
          ⟨Zr.cell (i - 1), Zi.cell (i - 1)⟩) := by
  obtain ⟨E, e1, e2, e3⟩ := asmComplexFull_spec hn alpha beta E2R Jac hE hJ
  refine ⟨E, e1, ?_⟩
  rcases solveComplex_spec hn (geC n) lap hl E Z2N Zr Zi hz hr hi with h | ⟨a, b, h1, h2, h3, h4⟩
  · exact .inl h
  · refine .inr ⟨a, b, h1, h2, h3, fun i a1 a2 => ?_⟩
    rw [← h4 i a1 a2]
    refine Finset.sum_congr rfl fun j hj => ?_
    rw [Finset.mem_Icc] at hj
    obtain ⟨v, v1, v2, v3⟩ := e3 i j a1 a2 hj.1 hj.2
    have hv : v = Jac.cell (ge n i j) := by
      obtain ⟨b1, b2, -⟩ := full_in_bounds (α := ℝ) Jac.cell a1 a2 hj.1 hj.2
      simp only [faNew] at b2
      unfold faGet at v1
      rw [Buf.rd_in ⟨b1, by omega⟩] at v1
      injection v1 with v1
      rw [← v1, (full_layout n i j).1]
    congr 1
    unfold geC
    rw [v2, v3, hv]
    apply Complex.ext
    · by_cases e : i = j <;> simp [e]
    · by_cases e : i = j <;> simp [e]

open Classical in
/-- C14, banded storage; `J` is zero outside the band. -/
theorem complex_solve_band {n kl ku : ℤ} (hn : 1 ≤ n) (hkl : 0 ≤ kl) (hku : 0 ≤ ku)
    (alpha beta : ℝ) (E2R Jac : Buf ℝ)
    (hE : E2R.size = 2 * ldab kl ku * n) (hJ : Jac.size = ldab kl ku * n)
    (lap : Buf ℝ → Buf ℝ → Option (Buf ℝ)) (hl : SolvesC n (gbC n kl ku) lap) (Z2N Zr Zi : Buf ℝ)
    (hz : Z2N.size = 2 * n) (hr : Zr.size = n) (hi : Zi.size = n) :
    ∃ E, asmComplexBand n kl ku alpha beta E2R Jac = some E ∧
    (solveComplex n (lap E) Z2N Zr Zi = some (.error .factorisation) ∨
    ∃ a b, solveComplex n (lap E) Z2N Zr Zi = some (.ok (a, b)) ∧ a.size = n ∧ b.size = n ∧
      ∀ i, 1 ≤ i → i ≤ n →
        ∑ j ∈ Finset.Icc 1 n, ((if i = j then (⟨alpha, beta⟩ : ℂ) else 0)
            - (((if InBand n kl ku i j then Jac.cell (gb kl ku i j) else 0) : ℝ) : ℂ))
              * (⟨a.cell (j - 1), b.cell (j - 1)⟩ : ℂ) =
          ⟨Zr.cell (i - 1), Zi.cell (i - 1)⟩) := by
  obtain ⟨E, e1, e2, e3⟩ := asmComplexBand_spec hn hkl hku alpha beta E2R Jac hE hJ
  refine ⟨E, e1, ?_⟩
  rcases solveComplex_spec hn (gbC n kl ku) lap hl E Z2N Zr Zi hz hr hi with
    h | ⟨a, b, h1, h2, h3, h4⟩
  · exact .inl h
  · refine .inr ⟨a, b, h1, h2, h3, fun i a1 a2 => ?_⟩
    rw [← h4 i a1 a2]
    refine Finset.sum_congr rfl fun j hj => ?_
    rw [Finset.mem_Icc] at hj
    congr 1
    unfold gbC
    by_cases hb : InBand n kl ku i j
    · rw [if_pos hb, if_pos hb]
      obtain ⟨v, v1, v2, v3⟩ := e3 i j hb
      have hv : v = Jac.cell (gb kl ku i j) := by
        obtain ⟨b1, b2, -⟩ := band_in_bounds (α := ℝ) hkl hku hb Jac.cell
        simp only [frNew] at b2
        unfold frGet at v1
        rw [Buf.rd_in ⟨b1, by omega⟩] at v1
        injection v1 with v1
        rw [← v1, (band_layout kl ku i j).1]
      rw [v2, v3, hv]
      apply Complex.ext
      · by_cases e : i = j <;> simp [e]
      · by_cases e : i = j <;> simp [e]
    · rw [if_neg hb, if_neg hb, if_neg]
      · simp
      · intro e; subst e
        exact hb ⟨a1, a2, a1, a2, by omega, by omega⟩

/-- the LAPACK contract is satisfiable with non-trivial content: `n = 1`, complex division. -/
example : ∃ lap, SolvesC 1 (geC 1) lap ∧ ∃ E z z', lap E z = some z' ∧ z.size = 2 ∧
    vecC z 1 = 1 := by
  classical
  refine ⟨fun E z => if h : geC 1 E 1 1 ≠ 0 then
    some ⟨2, fun k => if k = 0 then (vecC z 1 / geC 1 E 1 1).re else (vecC z 1 / geC 1 E 1 1).im⟩
    else none, ?_, ?_⟩
  · intro E z z' h hz
    by_cases h0 : geC 1 E 1 1 ≠ 0
    · simp only [h0, ne_eq, not_false_eq_true, dite_true, Option.some.injEq] at h
      subst h
      refine ⟨rfl, fun i a b => ?_⟩
      have : i = 1 := by omega
      subst this
      simp only [Finset.Icc_self, Finset.sum_singleton]
      have : vecC ⟨2, fun k => if k = 0 then (vecC z 1 / geC 1 E 1 1).re
          else (vecC z 1 / geC 1 E 1 1).im⟩ 1 = vecC z 1 / geC 1 E 1 1 := by
        generalize vecC z 1 / geC 1 E 1 1 = w
        unfold vecC
        apply Complex.ext <;> simp [re, im]
      rw [this]
      field_simp
    · simp only [h0, dite_false] at h
      cases h
  · refine ⟨⟨2, fun k => if k = 0 then 1 else 0⟩, ⟨2, fun k => if k = 0 then 1 else 0⟩, ?_⟩
    have h1 : geC 1 ⟨2, fun k => if k = 0 then 1 else 0⟩ 1 1 = 1 := by
      unfold geC; apply Complex.ext <;> simp [ge, cm, re, im]
    simp only [h1, ne_eq, one_ne_zero, not_false_eq_true, dite_true]
    refine ⟨_, rfl, trivial, ?_⟩
    unfold vecC; apply Complex.ext <;> simp [re, im]

end Odes.Storage
