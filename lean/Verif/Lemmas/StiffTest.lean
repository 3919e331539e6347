import Verif.Model.StiffTest
import Verif.Lemmas.Mem
import Verif.Spec.Heat

/-! The loops of the stiff test problems. -/

namespace Odes.Stiff

open Odes.Mem Odes.Storage Spec.Heat

theorem heatRhs_of {n : ℤ} (hn : 2 ≤ n) (eh2 : ℝ) {f : ℤ → ℝ → Option ℝ} {g : ℤ → ℝ → ℝ}
    (hf : ∀ i u, 0 ≤ i → i < n → f i u = some (g i u)) {y res : Buf ℝ} (hy : y.size = n)
    (hr : res.size = n) :
    ∃ res', heatRhs n eh2 f y res = some res' ∧ res'.size = n ∧
      ∀ i, 0 ≤ i → i < n → res'.cell i = diffuse (mirror n) eh2 g y.cell i := by
  unfold heatRhs
  rw [Buf.rd_in (b := y) (by omega), Option.bind_some, Buf.rd_in (b := y) (by omega), Option.bind_some,
    hf _ _ (by omega) (by omega), Option.bind_some, Buf.wr_in _ (by omega), Option.bind_some]
  obtain ⟨r1, h1, h2, h3⟩ := forUp_inv
    (body := fun i (res : Buf ℝ) => (y.rd (i - 1)).bind fun a => (y.rd i).bind fun b =>
      (y.rd (i + 1)).bind fun c => (f i b).bind fun r => res.wr i (eh2 * (a - 2 * b + c) + r))
    (fun k (r : Buf ℝ) => r.size = n ∧ ∀ i, 0 ≤ i → i < k → r.cell i = diffuse (mirror n) eh2 g y.cell i)
    (lo := 1) (hi := n - 1 - 1)
    (s := ⟨res.size, Function.update res.cell 0 (2 * eh2 * (y.cell 1 - y.cell 0) + g 0 (y.cell 0))⟩)
    (by omega) ⟨hr, by
      intro i h0 h1
      obtain rfl : i = 0 := by omega
      simp only [Function.update_self, diffuse, mirror]
      rw [if_pos (by omega), if_neg (by omega), if_neg (by omega)]
      norm_num
      ring⟩ (by
      rintro i r hi hi' ⟨e1, e2⟩
      rw [Buf.rd_in (b := y) (by omega), Option.bind_some, Buf.rd_in (b := y) (by omega),
        Option.bind_some, Buf.rd_in (b := y) (by omega), Option.bind_some,
        hf _ _ (by omega) (by omega), Option.bind_some, Buf.wr_in _ (by omega)]
      refine ⟨_, rfl, e1, ?_⟩
      intro k hk hk'
      by_cases hki : k = i
      · subst hki
        simp only [Function.update_self, diffuse, mirror]
        rw [if_neg (by omega), if_neg (by omega), if_neg (by omega), if_neg (by omega)]
      · simp only [Function.update_of_ne hki]
        exact e2 k hk (by omega))
  rw [h1, Option.bind_some, Buf.rd_in (b := y) (by omega), Option.bind_some,
    Buf.rd_in (b := y) (by omega), Option.bind_some, hf _ _ (by omega) (by omega), Option.bind_some,
    Buf.wr_in _ (by omega)]
  refine ⟨_, rfl, h2, ?_⟩
  intro k hk hk'
  by_cases hkn : k = n - 1
  · subst hkn
    simp only [Function.update_self, diffuse, mirror]
    rw [if_neg (by omega), if_neg (by omega), if_neg (by omega), if_pos (by omega),
      show 2 * (n - 1) - (n - 1 + 1) = n - 2 by ring, show n - 1 - 1 = n - 2 by ring]
    ring
  · simp only [Function.update_of_ne hkn]
    exact h3 k hk (by omega)

theorem frIdx_one (i j : ℤ) : frIdx 1 1 i j = 3 * j + i - 2 := by
  unfold frIdx cc ldab; ring

/-- writing an entry of the tridiagonal matrix -/
theorem frSet_one {n : ℤ} {J : Buf ℝ} (hJ : J.size = 4 * n) {i j : ℤ} (hi : 1 ≤ i) (hi' : i ≤ n)
    (hj : 1 ≤ j) (hj' : j ≤ n) (h1 : i ≤ j + 1) (h2 : j ≤ i + 1) (v : ℝ) :
    ∃ J', frSet 1 1 J i j v = some J' ∧ J'.size = 4 * n ∧
      ∀ k l, k ≤ l + 1 → l ≤ k + 1 → J'.cell (frIdx 1 1 k l) =
        if k = i ∧ l = j then v else J.cell (frIdx 1 1 k l) := by
  unfold frSet
  rw [Buf.wr_in v (by rw [frIdx_one]; omega)]
  refine ⟨_, rfl, hJ, ?_⟩
  intro k l hk hl
  simp only
  by_cases h : k = i ∧ l = j
  · rw [if_pos h, h.1, h.2, Function.update_self]
  · rw [if_neg h, Function.update_of_ne (by simp only [frIdx_one]; omega)]

/-- the matrix stored by `Jacobian`, without the last assignment -/
def entry (n : ℤ) (eh2 : ℝ) (d : ℝ → ℝ) (y J : ℤ → ℝ) (i j : ℤ) : ℝ :=
  if i = j then d (y (i - 1))
  else if i = 1 then 2 * eh2
  else if i = n then J (frIdx 1 1 i j)
  else eh2

theorem heatJac_of {n lr lc : ℤ} (hn : 3 ≤ n) (hl : lr = n - 1 ∨ lr = n) (hc : lc = n) (eh2 : ℝ)
    (d : ℝ → ℝ) {y J : Buf ℝ} (hy : y.size = n) (hJ : J.size = 4 * n) :
    ∃ J', heatJac n lr lc eh2 d y J = some J' ∧ J'.size = 4 * n ∧
      ∀ i j, 1 ≤ i → i ≤ n → 1 ≤ j → j ≤ n → i ≤ j + 1 → j ≤ i + 1 →
        J'.cell (frIdx 1 1 i j) =
          if i = lr ∧ j = lc then 2 * eh2 else entry n eh2 d y.cell J.cell i j := by
  unfold heatJac
  rw [Buf.rd_in (b := y) (by omega), Option.bind_some]
  obtain ⟨J1, a1, b1, c1⟩ := frSet_one (i := 1) (j := 1) hJ (by omega) (by omega) (by omega) (by omega)
    (by omega) (by omega) (d (y.cell (1 - 1)))
  rw [a1, Option.bind_some]
  obtain ⟨J2, a2, b2, c2⟩ := frSet_one (i := 1) (j := 2) b1 (by omega) (by omega) (by omega) (by omega)
    (by omega) (by omega) (2 * eh2)
  rw [a2, Option.bind_some]
  obtain ⟨J3, a3, b3, c3⟩ := forUp_inv
    (body := fun i (J : Buf ℝ) => ((y.rd (i - 1)).bind fun u => frSet 1 1 J i i (d u)).bind fun J =>
      (frSet 1 1 J i (i - 1) eh2).bind fun J => frSet 1 1 J i (i + 1) eh2)
    (fun m (J' : Buf ℝ) => J'.size = 4 * n ∧ ∀ i j, 1 ≤ i → i ≤ n → 1 ≤ j → j ≤ n → i ≤ j + 1 → j ≤ i + 1 →
        J'.cell (frIdx 1 1 i j) =
          if i < m then entry n eh2 d y.cell J.cell i j else J.cell (frIdx 1 1 i j))
    (lo := 2) (hi := n - 1) (s := J2) (by omega) ⟨b2, by
      intro i j h1 h2 h3 h4 h5 h6
      rw [c2 i j h5 h6, c1 i j h5 h6]
      by_cases hi : i = 1
      · subst hi
        by_cases hj : j = 1
        · subst hj
          rw [if_neg (by omega), if_pos (by omega), if_pos (by omega), entry, if_pos rfl]
        · obtain rfl : j = 2 := by omega
          rw [if_pos (by omega), if_pos (by omega), entry, if_neg (by omega), if_pos rfl]
      · rw [if_neg (by omega), if_neg (by omega), if_neg (by omega)]⟩ (by
      rintro m J3 hm hm' ⟨b3, c3⟩
      rw [Buf.rd_in (b := y) (by omega), Option.bind_some]
      obtain ⟨J4, a4, b4, c4⟩ := frSet_one (i := m) (j := m) b3 (by omega) (by omega) (by omega)
        (by omega) (by omega) (by omega) (d (y.cell (m - 1)))
      rw [a4, Option.bind_some]
      obtain ⟨J5, a5, b5, c5⟩ := frSet_one (i := m) (j := m - 1) b4 (by omega) (by omega) (by omega)
        (by omega) (by omega) (by omega) eh2
      rw [a5, Option.bind_some]
      obtain ⟨J6, a6, b6, c6⟩ := frSet_one (i := m) (j := m + 1) b5 (by omega) (by omega) (by omega)
        (by omega) (by omega) (by omega) eh2
      refine ⟨J6, a6, b6, ?_⟩
      intro i j h1 h2 h3 h4 h5 h6
      rw [c6 i j h5 h6, c5 i j h5 h6, c4 i j h5 h6, c3 i j h1 h2 h3 h4 h5 h6]
      by_cases him : i = m
      · subst him
        rw [if_pos (show i < i + 1 by omega), if_neg (show ¬ i < i by omega)]
        unfold entry
        by_cases hj : i = j
        · subst hj
          rw [if_neg (by omega), if_neg (by omega), if_pos (by omega), if_pos rfl]
        · rw [if_neg hj, if_neg (by omega : ¬ i = 1), if_neg (by omega : ¬ i = n)]
          by_cases hj2 : j = i + 1
          · rw [if_pos (by omega)]
          · rw [if_neg (by omega), if_pos (by omega)]
      · rw [if_neg (by omega), if_neg (by omega), if_neg (by omega)]
        by_cases hlt : i < m
        · rw [if_pos hlt, if_pos (by omega)]
        · rw [if_neg hlt, if_neg (by omega)])
  rw [a3, Option.bind_some, Buf.rd_in (b := y) (by omega), Option.bind_some]
  obtain ⟨J4, a4, b4, c4⟩ := frSet_one (i := n) (j := n) b3 (by omega) (by omega) (by omega)
    (by omega) (by omega) (by omega) (d (y.cell (n - 1)))
  rw [a4, Option.bind_some]
  obtain ⟨J5, a5, b5, c5⟩ := frSet_one (i := lr) (j := lc) b4 (by omega) (by omega) (by omega)
    (by omega) (by omega) (by omega) (2 * eh2)
  refine ⟨J5, a5, b5, ?_⟩
  intro i j h1 h2 h3 h4 h5 h6
  rw [c5 i j h5 h6, c4 i j h5 h6, c3 i j h1 h2 h3 h4 h5 h6]
  by_cases hlast : i = lr ∧ j = lc
  · rw [if_pos hlast, if_pos hlast]
  · rw [if_neg hlast, if_neg hlast]
    by_cases hin : i = n
    · subst hin
      unfold entry
      by_cases hj : j = i
      · rw [if_pos ⟨rfl, hj⟩, if_pos hj.symm]
      · rw [if_neg (by omega), if_neg (by omega), if_neg (by omega), if_neg (by omega), if_pos rfl]
    · rw [if_neg (by omega), if_pos (by omega)]

end Odes.Stiff
