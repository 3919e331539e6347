import Verif.Model.NumJac
import Verif.Model.Radau
import Verif.Lemmas.Mem
import Verif.Props.Storage
import Verif.Lemmas.Num
import Mathlib.Algebra.BigOperators.Ring.Finset
import Mathlib.Order.Interval.Finset.Basic
import Mathlib.Data.Int.Interval

/-! # Numerical Jacobians, property C25 -/

namespace Odes.NumJac

open Odes.Mem Odes.Storage Odes.Lapack

section generic

variable {α : Type} [Add α] [Sub α] [Mul α] [Div α] [One α]

/-- the forward difference quotient for the entry `(i,j)`. -/
def quotient (delt : α → α) (F : (ℤ → α) → ℤ → α) (y Fy : ℤ → α) (i j : ℤ) : α :=
  (F (Function.update y j (y j + delt (y j))) i - Fy i) * (1 / delt (y j))

/-- contents of a storage with offsets `idx` after the entries `(i,j)` with `D i j` were given the
values `v i j`, starting from `old`. -/
def Filled (idx : ℤ → ℤ → ℤ) (D : ℤ → ℤ → Prop) (v : ℤ → ℤ → α) (old new : Buf α) : Prop :=
  new.size = old.size ∧ (∀ i j, D i j → new.cell (idx i j) = v i j) ∧
    ∀ k, (∀ i j, D i j → idx i j ≠ k) → new.cell k = old.cell k

theorem vec_update (b : Buf α) (j : ℤ) (v : α) :
    vec ⟨b.size, Function.update b.cell (j - 1) v⟩ = Function.update (vec b) j v := by
  funext i
  unfold vec
  by_cases h : i = j
  · subst h; rw [Function.update_self]; exact Function.update_self ..
  · rw [Function.update_of_ne h]; exact Function.update_of_ne (by omega) ..

theorem jacobian_spec (n : ℤ) (hn : 0 ≤ n) (ib ie : ℤ → ℤ)
    (set : Buf α → ℤ → ℤ → α → Option (Buf α)) (idx : ℤ → ℤ → ℤ) (size : ℤ)
    (hset : ∀ b i j v, set b i j v = b.wr (idx i j) v)
    (hb : ∀ j, 1 ≤ j → j ≤ n → 1 ≤ ib j ∧ ie j ≤ n ∧ ib j ≤ ie j + 1)
    (hidx : ∀ i j, 1 ≤ j → j ≤ n → ib j ≤ i → i ≤ ie j → 0 ≤ idx i j ∧ idx i j < size)
    (hinj : ∀ i j i' j', 1 ≤ j → j ≤ n → ib j ≤ i → i ≤ ie j → 1 ≤ j' → j' ≤ n → ib j' ≤ i' →
      i' ≤ ie j' → idx i j = idx i' j' → i = i' ∧ j = j')
    (delt : α → α) (F : (ℤ → α) → ℤ → α) (Fy : Buf α) (s : St α)
    (hy : s.y.size = n) (hF : Fy.size = n) (hJ : s.jac.size = size) :
    ∃ s', jacobian n ib ie set delt F Fy s = some s' ∧ s'.y = s.y ∧ s'.calls = s.calls + n.toNat ∧
      Filled idx (fun i j => 1 ≤ j ∧ j ≤ n ∧ ib j ≤ i ∧ i ≤ ie j)
        (quotient delt F (vec s.y) (vec Fy)) s.jac s'.jac := by
  obtain ⟨s', h1, h2, h3, h4, h5, h6⟩ := forUp_inv (lo := 1) (hi := n)
    (body := body n ib ie set delt F Fy) (s := s)
    (fun k t => t.y = s.y ∧ t.calls = s.calls + (k - 1).toNat ∧ t.jac.size = s.jac.size ∧
      (∀ i j, 1 ≤ j → j < k → ib j ≤ i → i ≤ ie j →
        t.jac.cell (idx i j) = quotient delt F (vec s.y) (vec Fy) i j) ∧
      ∀ c, (∀ i j, 1 ≤ j → j ≤ n → ib j ≤ i → i ≤ ie j → idx i j ≠ c) →
        t.jac.cell c = s.jac.cell c) (by omega)
    ⟨rfl, by simp, rfl, fun i j h1 h2 => by omega, fun _ _ => rfl⟩
    (by
      rintro j t j1 j2 ⟨t1, t2, t3, t4, t5⟩
      obtain ⟨b1, b2, b3⟩ := hb j j1 j2
      unfold body
      rw [t1, Buf.rd_in ⟨by omega, by omega⟩, Option.bind_some, Buf.wr_in _ ⟨by omega, by omega⟩,
        Option.bind_some]
      dsimp only
      rw [vec_update]
      obtain ⟨J, g1, g2, g3, g4⟩ := forUp_inv (lo := ib j) (hi := ie j)
        (body := column set
          ⟨n, fun k => F (Function.update (vec s.y) j (s.y.cell (j - 1) + delt (s.y.cell (j - 1))))
            (k + 1)⟩ Fy (1 / delt (s.y.cell (j - 1))) j) (s := t.jac)
        (fun m J => J.size = s.jac.size ∧
          (∀ i, ib j ≤ i → i < m → J.cell (idx i j) = quotient delt F (vec s.y) (vec Fy) i j) ∧
          ∀ c, (∀ i, ib j ≤ i → i < m → idx i j ≠ c) → J.cell c = t.jac.cell c) b3
        ⟨t3, fun i h1 h2 => by omega, fun _ _ => rfl⟩
        (by
          rintro m J m1 m2 ⟨q1, q2, q3⟩
          obtain ⟨k1, k2⟩ := hidx m j j1 j2 m1 m2
          unfold column
          rw [Buf.rd_in ⟨by omega, by show m - 1 < n; omega⟩, Option.bind_some,
            Buf.rd_in ⟨by omega, by omega⟩, Option.bind_some, hset,
            Buf.wr_in _ ⟨k1, by rw [q1, hJ]; exact k2⟩]
          refine ⟨_, rfl, q1, fun i i1 i2 => ?_, fun c hc => ?_⟩
          · dsimp only
            by_cases e : i = m
            · subst e
              rw [Function.update_self, show i - 1 + 1 = i by ring]
              rfl
            · rw [Function.update_of_ne (fun h => e
                (hinj i j m j j1 j2 i1 (by omega) j1 j2 m1 m2 h).1)]
              exact q2 i i1 (by omega)
          · dsimp only
            rw [Function.update_of_ne (fun h => hc m m1 (by omega) h.symm)]
            exact q3 c fun i i1 i2 => hc i i1 (by omega))
      rw [g1, Option.bind_some, Buf.wr_in _ ⟨by omega, by show j - 1 < s.y.size; omega⟩]
      refine ⟨_, rfl, ?_, ?_, g2, ?_, ?_⟩
      · dsimp only
        rw [Function.update_idem, Function.update_eq_self]
      · show t.calls + 1 = _
        rw [t2]; omega
      · intro i j' h1 h2 h3 h4
        by_cases e : j' = j
        · subst e; exact g3 i h3 (by omega)
        · show J.cell _ = _
          rw [g4 _ fun i' i1 i2 h => e (hinj i' j i j' j1 j2 i1 (by omega) h1 (by omega) h3 h4 h).2.symm]
          exact t4 i j' h1 (by omega) h3 h4
      · intro c hc
        show J.cell c = _
        rw [g4 c fun i i1 i2 => hc i j j1 j2 i1 (by omega)]
        exact t5 c hc)
  refine ⟨s', h1, h2, by rw [h3]; congr 2; omega, h4, ?_, ?_⟩
  · rintro i j ⟨j1, j2, i1, i2⟩
    exact h5 i j j1 (by omega) i1 i2
  · intro k hk
    exact h6 k fun i j j1 j2 i1 i2 => hk i j ⟨j1, j2, i1, i2⟩

/-- C25, full storage: the vector is restored exactly, there are `n` evaluations, every entry is the
forward difference quotient. -/
theorem numjac_full (n : ℤ) (hn : 0 ≤ n) (delt : α → α) (F : (ℤ → α) → ℤ → α) (Fy : Buf α)
    (s : St α) (hy : s.y.size = n) (hF : Fy.size = n) (hJ : s.jac.size = n * n) :
    ∃ s', jacobianFull n delt F Fy s = some s' ∧ s'.y = s.y ∧ s'.calls = s.calls + n.toNat ∧
      ∀ i j, 1 ≤ i → i ≤ n → 1 ≤ j → j ≤ n →
        faGet n s'.jac i j = some (quotient delt F (vec s.y) (vec Fy) i j) := by
  obtain ⟨s', h1, h2, h3, h4, h5, h6⟩ := jacobian_spec n hn (fun _ => 1) (fun _ => n) (faSet n)
    (faIdx n) (n * n) (fun _ _ _ _ => rfl) (fun _ _ _ => ⟨le_rfl, le_rfl, by omega⟩)
    (fun i j j1 j2 i1 i2 => by
      obtain ⟨a, b, -⟩ := full_in_bounds (fun _ => (0 : ℤ)) i1 i2 j1 j2
      exact ⟨a, b⟩)
    (fun i j i' j' _ _ i1 i2 _ _ k1 k2 h => fa_inj i1 i2 k1 k2 h) delt F Fy s hy hF hJ
  refine ⟨s', h1, h2, h3, fun i j i1 i2 j1 j2 => ?_⟩
  obtain ⟨a, b, -⟩ := full_in_bounds (fun _ => (0 : ℤ)) i1 i2 j1 j2
  unfold faGet
  rw [Buf.rd_in ⟨a, by rw [h4, hJ]; exact b⟩, h5 i j ⟨j1, j2, i1, i2⟩]

/-- C25, banded storage: the same for the entries of the band; the other cells of the array (the
rows reserved for pivoting and the unused corners) keep their contents. -/
theorem numjac_band (n kl ku : ℤ) (hn : 0 ≤ n) (hkl : 0 ≤ kl) (hku : 0 ≤ ku) (delt : α → α)
    (F : (ℤ → α) → ℤ → α) (Fy : Buf α)
    (s : St α) (hy : s.y.size = n) (hF : Fy.size = n) (hJ : s.jac.size = ldab kl ku * n) :
    ∃ s', jacobianBand n kl ku delt F Fy s = some s' ∧ s'.y = s.y ∧
      s'.calls = s.calls + n.toNat ∧
      (∀ i j, InBand n kl ku i j →
        frGet kl ku s'.jac i j = some (quotient delt F (vec s.y) (vec Fy) i j)) ∧
      ∀ k, (∀ i j, InBand n kl ku i j → frIdx kl ku i j ≠ k) → s'.jac.cell k = s.jac.cell k := by
  have band : ∀ i j, 1 ≤ j → j ≤ n → Ibegin ku j ≤ i → i ≤ Iend n kl j → InBand n kl ku i j :=
    fun i j j1 j2 i1 i2 => band_loops_in_matrix j1 j2 i1 i2
  have band' : ∀ i j, InBand n kl ku i j → 1 ≤ j ∧ j ≤ n ∧ Ibegin ku j ≤ i ∧ i ≤ Iend n kl j := by
    intro i j h
    obtain ⟨h1, h2, h3, h4, h5, h6⟩ := h
    refine ⟨h3, h4, ?_, ?_⟩
    · unfold Ibegin; omega
    · unfold Iend; omega
  obtain ⟨s', h1, h2, h3, h4, h5, h6⟩ := jacobian_spec n hn (Ibegin ku) (Iend n kl) (frSet kl ku)
    (frIdx kl ku) (ldab kl ku * n) (fun _ _ _ _ => rfl)
    (fun j j1 j2 => by unfold Ibegin Iend; omega)
    (fun i j j1 j2 i1 i2 => by
      obtain ⟨a, b, -⟩ := band_in_bounds hkl hku (band i j j1 j2 i1 i2) (fun _ => (0 : ℤ))
      exact ⟨a, b⟩)
    (fun i j i' j' j1 j2 i1 i2 k1 k2 m1 m2 h =>
      (band_injective hkl hku (band i j j1 j2 i1 i2) (band i' j' k1 k2 m1 m2)).1 h)
    delt F Fy s hy hF hJ
  refine ⟨s', h1, h2, h3, fun i j hb => ?_, fun k hk => h6 k fun i j h => ?_⟩
  · obtain ⟨a, b, -⟩ := band_in_bounds hkl hku hb (fun _ => (0 : ℤ))
    unfold frGet
    rw [Buf.rd_in ⟨a, by rw [h4, hJ]; exact b⟩, h5 i j (band' i j hb)]
  · obtain ⟨j1, j2, i1, i2⟩ := h
    exact hk i j (band i j j1 j2 i1 i2)

end generic

/-! ### affine systems -/

/-- value of an affine map. -/
noncomputable def affine {K : Type} [Field K] (n : ℤ) (A : ℤ → ℤ → K) (b : ℤ → K) (y : ℤ → K) (i : ℤ) : K :=
  ∑ k ∈ Finset.Icc 1 n, A i k * y k + b i

theorem quotient_affine {K : Type} [Field K] (n : ℤ) (A : ℤ → ℤ → K) (b y : ℤ → K) (delt : K → K)
    {i j : ℤ} (hj : 1 ≤ j) (hj' : j ≤ n) (hd : delt (y j) ≠ 0) :
    quotient delt (affine n A b) y (affine n A b y) i j = A i j := by
  have e : ∑ k ∈ Finset.Icc 1 n, A i k * (Function.update y j (y j + delt (y j))) k =
      ∑ k ∈ Finset.Icc 1 n, A i k * y k + A i j * delt (y j) := by
    have : ∀ k, A i k * (Function.update y j (y j + delt (y j))) k =
        A i k * y k + if k = j then A i j * delt (y j) else 0 := by
      intro k
      by_cases h : k = j
      · subst h; rw [Function.update_self, if_pos rfl]; ring
      · rw [Function.update_of_ne h, if_neg h, add_zero]
    rw [Finset.sum_congr rfl fun k _ => this k, Finset.sum_add_distrib, Finset.sum_ite_eq',
      if_pos (Finset.mem_Icc.2 ⟨hj, hj'⟩)]
  unfold quotient affine
  rw [e]
  field_simp
  ring

/-- the increment with exact arithmetic, Radau5cc.hpp 87, Rodascc.hpp 167. -/
noncomputable def realDelt (uround : ℝ) (a : ℝ) : ℝ := Real.sqrt (uround * max 1.0e-5 |a|)

theorem realDelt_ne {u : ℝ} (hu : 0 < u) (a : ℝ) : realDelt u a ≠ 0 := by
  unfold realDelt
  have : (0 : ℝ) < u * max 1.0e-5 |a| := mul_pos hu (lt_of_lt_of_le (by norm_num) (le_max_left _ _))
  exact (Real.sqrt_pos.2 this).ne'

/-- it is the increment of the models with special values. -/
theorem realDelt_eq {u : ℝ} (hu : 0 < u) (a : ℝ) :
    Radau.delta (.fin u) (.fin a) = .fin (realDelt u a) := by
  unfold Radau.delta realDelt
  rw [X.ABS_fin, show (1.0e-5 : X) = .fin 1.0e-5 from X.ofSci_eq _ _ _, X.MAX_fin, X.fin_mul,
    X.sqrt_fin_nonneg]
  have : (0 : ℝ) < u * max 1.0e-5 |a| := mul_pos hu (lt_of_lt_of_le (by norm_num) (le_max_left _ _))
  exact this.le

/-- C25: for an affine right hand side `A y + b` and exact arithmetic the result is `A`, full
storage. -/
theorem numjac_full_affine (n : ℤ) (hn : 0 ≤ n) {u : ℝ} (hu : 0 < u) (A : ℤ → ℤ → ℝ) (b : ℤ → ℝ)
    (Fy : Buf ℝ) (s : St ℝ) (hy : s.y.size = n) (hF : Fy.size = n) (hJ : s.jac.size = n * n)
    (hFy : ∀ i, 1 ≤ i → i ≤ n → vec Fy i = affine n A b (vec s.y) i) :
    ∃ s', jacobianFull n (realDelt u) (affine n A b) Fy s = some s' ∧ s'.y = s.y ∧
      ∀ i j, 1 ≤ i → i ≤ n → 1 ≤ j → j ≤ n → faGet n s'.jac i j = some (A i j) := by
  obtain ⟨s', h1, h2, -, h3⟩ := numjac_full n hn (realDelt u) (affine n A b) Fy s hy hF hJ
  refine ⟨s', h1, h2, fun i j i1 i2 j1 j2 => ?_⟩
  rw [h3 i j i1 i2 j1 j2, ← quotient_affine n A b (vec s.y) (realDelt u) (i := i) j1 j2
    (realDelt_ne hu _)]
  unfold quotient
  rw [hFy i i1 i2]

open Classical in
/-- C25: the same for banded storage; together with zeros outside of the band the storage represents
the matrix. -/
theorem numjac_band_affine (n kl ku : ℤ) (hn : 0 ≤ n) (hkl : 0 ≤ kl) (hku : 0 ≤ ku) {u : ℝ}
    (hu : 0 < u) (A : ℤ → ℤ → ℝ) (b : ℤ → ℝ) (hA : ∀ i j, ¬ InBand n kl ku i j → A i j = 0)
    (Fy : Buf ℝ) (s : St ℝ) (hy : s.y.size = n) (hF : Fy.size = n)
    (hJ : s.jac.size = ldab kl ku * n)
    (hFy : ∀ i, 1 ≤ i → i ≤ n → vec Fy i = affine n A b (vec s.y) i) :
    ∃ s', jacobianBand n kl ku (realDelt u) (affine n A b) Fy s = some s' ∧ s'.y = s.y ∧
      ∀ i j, A i j = (if InBand n kl ku i j then (frGet kl ku s'.jac i j).getD 0 else 0) := by
  obtain ⟨s', h1, h2, -, h3, -⟩ := numjac_band n kl ku hn hkl hku (realDelt u) (affine n A b) Fy s hy
    hF hJ
  refine ⟨s', h1, h2, fun i j => ?_⟩
  by_cases hb : InBand n kl ku i j
  · rw [if_pos hb, h3 i j hb, Option.getD_some]
    obtain ⟨i1, i2, j1, j2, -, -⟩ := hb
    rw [← quotient_affine n A b (vec s.y) (realDelt u) (i := i) j1 j2 (realDelt_ne hu _)]
    unfold quotient
    rw [hFy i i1 i2]
  · rw [if_neg hb]; exact hA i j hb

example : ∃ s', jacobianFull 2 (realDelt 1) (affine 2 (fun i j => i + 10 * j) fun _ => 7)
    ⟨2, fun k => affine 2 (fun i j => i + 10 * j) (fun _ => 7) (fun _ => 3) (k + 1)⟩
    ⟨⟨2, fun _ => 3⟩, ⟨4, fun _ => 0⟩, 0⟩ = some s' ∧ faGet 2 s'.jac 1 2 = some 21 := by
  obtain ⟨s', h1, -, h3⟩ := numjac_full_affine 2 (by decide) one_pos (fun i j => i + 10 * j)
    (fun _ => 7) ⟨2, fun k => affine 2 (fun i j => i + 10 * j) (fun _ => 7) (fun _ => 3) (k + 1)⟩
    ⟨⟨2, fun _ => 3⟩, ⟨4, fun _ => 0⟩, 0⟩ rfl rfl rfl
    (fun i _ _ => by
      unfold vec
      dsimp only
      rw [show i - 1 + 1 = i by ring])
  refine ⟨s', h1, ?_⟩
  rw [h3 1 2 (by decide) (by decide) (by decide) (by decide)]
  norm_num

/-! ### the Jacobian used by the model of Radau5 -/

/-- the user's function seen by the loop: one-based vectors. -/
noncomputable def userF {n : ℕ} (P : Radau.Prob X n) (t : X) (y : ℤ → X) (i : ℤ) : X :=
  if h : 1 ≤ i ∧ i ≤ n then P.F t (fun k => y (k + 1)) ⟨(i - 1).toNat, by omega⟩ else .nan

/-- the entries computed by the loop are those of `Radau.numJac`. -/
theorem numjac_of_radau {n : ℕ} (P : Radau.Prob X n) (u t : X) (y Fy : ℤ → X) (i j : Fin n)
    (hs : P.stored i j = true) :
    Radau.numJac P u t (fun k => y (k + 1)) (fun k => Fy (k + 1)) i j =
      quotient (Radau.delta u) (userF P t) y Fy (i + 1) (j + 1) := by
  have hi := i.2
  unfold Radau.numJac quotient userF
  rw [if_pos hs, dif_pos ⟨by omega, by omega⟩]
  have e1 : (1.0e+0 : X) = 1 := by rw [X.ofSci_eq, X.one_eq]; norm_num
  have e2 : (fun k : Fin n => Function.update y ((j : ℤ) + 1)
      (y ((j : ℤ) + 1) + Radau.delta u (y ((j : ℤ) + 1))) ((k : ℤ) + 1)) =
      Function.update (fun k : Fin n => y ((k : ℤ) + 1)) j
        (y ((j : ℤ) + 1) + Radau.delta u (y ((j : ℤ) + 1))) := by
    funext k
    by_cases h : k = j
    · subst h; rw [Function.update_self, Function.update_self]
    · rw [Function.update_of_ne h, Function.update_of_ne]
      intro h'
      exact h (Fin.ext (by omega))
  rw [e1, e2]
  congr 4
  ext
  simp

end Odes.NumJac
