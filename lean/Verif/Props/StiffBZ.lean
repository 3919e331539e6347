import Verif.Props.StiffOre
import Mathlib.Tactic.IntervalCases

/-!
# Stiff test problems: BZ

C92 (right hand side) and C93 (declared band and Jacobian).
-/

namespace Odes.Stiff

open Odes.Mem Odes.Storage Spec.Heat

/-- one block of the right hand side -/
theorem bzBlock_of {nd off : ℤ} (hn : 2 ≤ nd) (ho : 0 ≤ off) (ho' : off ≤ 2 * nd) (eh2 : ℝ)
    (f : ℝ → ℝ → ℝ → ℝ) {y res : Buf ℝ} (hy : y.size = 3 * nd) (hr : res.size = 3 * nd) :
    ∃ res', bzBlock nd off eh2 f y res = some res' ∧ res'.size = 3 * nd ∧
      (∀ i, 0 ≤ i → i < nd → res'.cell (off + i) = diffuse (mirror nd) eh2
        (fun i _ => f (y.cell i) (y.cell (nd + i)) (y.cell (2 * nd + i))) (fun k => y.cell (off + k)) i) ∧
      ∀ k, k < off ∨ off + nd ≤ k → res'.cell k = res.cell k := by
  have hre : ∀ i, 0 ≤ i → i < nd → ((y.rd i).bind fun u => (y.rd (nd + i)).bind fun v =>
      (y.rd (2 * nd + i)).map fun w => f u v w) =
      some (f (y.cell i) (y.cell (nd + i)) (y.cell (2 * nd + i))) := by
    intro i h0 h1
    rw [Buf.rd_in (by omega), Option.bind_some, Buf.rd_in (by omega), Option.bind_some,
      Buf.rd_in (by omega), Option.map_some]
  unfold bzBlock
  simp only
  rw [Buf.rd_in (b := y) (i := off + 1) (by omega), Option.bind_some,
    Buf.rd_in (b := y) (i := off + 0) (by omega), Option.bind_some,
    hre 0 (by omega) (by omega), Option.bind_some, Buf.wr_in _ (by omega), Option.bind_some]
  obtain ⟨r1, h1, h2, h3, h4⟩ := forUp_inv
    (body := fun i (res : Buf ℝ) => (y.rd (off + (i - 1))).bind fun a => (y.rd (off + i)).bind fun b =>
      (y.rd (off + (i + 1))).bind fun c => ((y.rd i).bind fun u => (y.rd (nd + i)).bind fun v =>
      (y.rd (2 * nd + i)).map fun w => f u v w).bind fun r => res.wr (off + i) (eh2 * (a - 2 * b + c) + r))
    (fun k (r : Buf ℝ) => r.size = 3 * nd ∧ (∀ i, 0 ≤ i → i < k → r.cell (off + i) =
      diffuse (mirror nd) eh2 (fun i _ => f (y.cell i) (y.cell (nd + i)) (y.cell (2 * nd + i)))
        (fun k => y.cell (off + k)) i) ∧ ∀ k, k < off ∨ off + nd ≤ k → r.cell k = res.cell k)
    (lo := 1) (hi := nd - 1 - 1)
    (s := ⟨res.size, Function.update res.cell (off + 0) (2 * eh2 * (y.cell (off + 1) - y.cell (off + 0)) +
      f (y.cell 0) (y.cell (nd + 0)) (y.cell (2 * nd + 0)))⟩)
    (by omega) ⟨hr, by
      intro i h0 h1
      obtain rfl : i = 0 := by omega
      simp only [Function.update_self, diffuse, mirror]
      rw [if_pos (by omega), if_neg (by omega), if_neg (by omega)]
      norm_num
      ring, by
      intro k hk
      simp only
      rw [Function.update_of_ne (by omega)]⟩ (by
      rintro i r hi hi' ⟨e1, e2, e3⟩
      rw [Buf.rd_in (b := y) (i := off + (i - 1)) (by omega), Option.bind_some,
        Buf.rd_in (b := y) (i := off + i) (by omega),
        Option.bind_some, Buf.rd_in (b := y) (i := off + (i + 1)) (by omega), Option.bind_some,
        hre i (by omega) (by omega), Option.bind_some, Buf.wr_in _ (by omega)]
      refine ⟨_, rfl, e1, ?_, ?_⟩
      · intro k hk hk'
        by_cases hki : k = i
        · subst hki
          simp only [Function.update_self, diffuse, mirror]
          rw [if_neg (by omega), if_neg (by omega), if_neg (by omega), if_neg (by omega)]
        · simp only
          rw [Function.update_of_ne (by omega)]
          exact e2 k hk (by omega)
      · intro k hk
        simp only
        rw [Function.update_of_ne (by omega)]
        exact e3 k hk)
  rw [h1, Option.bind_some, Buf.rd_in (b := y) (i := off + (nd - 2)) (by omega), Option.bind_some,
    Buf.rd_in (b := y) (i := off + (nd - 1)) (by omega), Option.bind_some,
    hre (nd - 1) (by omega) (by omega), Option.bind_some, Buf.wr_in _ (by omega)]
  refine ⟨_, rfl, h2, ?_, ?_⟩
  · intro k hk hk'
    by_cases hkn : k = nd - 1
    · subst hkn
      simp only [Function.update_self, diffuse, mirror]
      rw [if_neg (by omega), if_neg (by omega), if_neg (by omega), if_pos (by omega),
        show 2 * (nd - 1) - (nd - 1 + 1) = nd - 2 by ring, show nd - 1 - 1 = nd - 2 by ring]
      ring
    · simp only
      rw [Function.update_of_ne (by omega)]
      exact h3 k hk (by omega)
  · intro k hk
    simp only
    rw [Function.update_of_ne (by omega)]
    exact h4 k hk

/-- the three reactions -/
noncomputable def bzF : Fin 3 → ℝ → ℝ → ℝ → ℝ
  | 0 => bzF1
  | 1 => bzF2
  | 2 => bzF3

/-- C92: for every number of points `nd ≥ 2` the right hand side of BZ stays in the arrays, fills the whole
result, and computes for each of the three species (stored one after the other) the second difference with
mirrored ends plus the reaction of the three concentrations at the point. -/
theorem bz_rhs {nd : ℤ} (hn : 2 ≤ nd) (eps : Fin 3 → ℝ) {y res : Buf ℝ} (hy : y.size = 3 * nd)
    (hr : res.size = 3 * nd) :
    ∃ res', bzRhs nd eps y res = some res' ∧ res'.size = 3 * nd ∧
      ∀ (c : Fin 3) i, 0 ≤ i → i < nd → res'.cell (c * nd + i) = diffuse (mirror nd) (eps c)
        (fun i _ => bzF c (y.cell i) (y.cell (nd + i)) (y.cell (2 * nd + i)))
        (fun k => y.cell (c * nd + k)) i := by
  unfold bzRhs
  obtain ⟨r1, a1, b1, c1, d1⟩ := bzBlock_of hn (le_refl 0) (by omega) (eps 0) bzF1 hy hr
  rw [a1, Option.bind_some]
  obtain ⟨r2, a2, b2, c2, d2⟩ := bzBlock_of hn (by omega : 0 ≤ nd) (by omega) (eps 1) bzF2 hy b1
  rw [a2, Option.bind_some]
  obtain ⟨r3, a3, b3, c3, d3⟩ := bzBlock_of hn (by omega : 0 ≤ 2 * nd) (by omega) (eps 2) bzF3 hy b2
  refine ⟨r3, a3, b3, ?_⟩
  intro c i h0 h1
  fin_cases c
  · have : r3.cell i = r1.cell i := by rw [d3 _ (by omega), d2 _ (by omega)]
    simpa [bzF, this] using c1 i h0 h1
  · have : r3.cell (nd + i) = r2.cell (nd + i) := by rw [d3 _ (by omega)]
    simpa [bzF, this] using c2 i h0 h1
  · simpa [bzF] using c3 i h0 h1

example : ∃ y res res' : Buf ℝ, y.size = 3 * 100 ∧ bzRhs 100 (bzEps 100) y res = some res' := by
  obtain ⟨r, h, -⟩ := bz_rhs (by norm_num : (2 : ℤ) ≤ 100) (bzEps 100) (y := ⟨3 * 100, fun _ => 1⟩)
    (res := ⟨3 * 100, fun _ => 0⟩) rfl rfl
  exact ⟨_, _, r, rfl, h⟩

theorem field_bz {nd : ℤ} (hn : 2 ≤ nd) (eps : Fin 3 → ℝ) (y : ℤ → ℝ) (c : Fin 3) {i : ℤ} (h0 : 0 ≤ i)
    (h1 : i < nd) : field (3 * nd) (bzRhs nd eps) y (c * nd + i) = diffuse (mirror nd) (eps c)
        (fun i _ => bzF c (y i) (y (nd + i)) (y (2 * nd + i))) (fun k => y (c * nd + k)) i := by
  obtain ⟨r, e1, -, e2⟩ := bz_rhs hn eps (y := ⟨3 * nd, y⟩) (res := ⟨3 * nd, fun _ => 0⟩) rfl rfl
  unfold field
  rw [e1, Option.map_some, Option.getD_some, e2 c i h0 h1]

/-- C93 fails: the class declares two sub- and two superdiagonals, but the derivative of the first species
with respect to the second one at the same point, `nd` columns away, is not zero. -/
theorem bz_band_fails {nd : ℤ} (hn : 3 ≤ nd) (eps : Fin 3 → ℝ) (y : ℤ → ℝ) {i : ℤ} (h0 : 0 ≤ i)
    (h1 : i < nd) (hy : y i ≠ 1) :
    2 < (nd + i) - i ∧ ∃ d, d ≠ 0 ∧ IsPartial (field (3 * nd) (bzRhs nd eps)) y i (nd + i) d := by
  refine ⟨by omega, 77.27 * (1 - y i), ?_, ?_⟩
  · have : 1 - y i ≠ 0 := sub_ne_zero.2 (Ne.symm hy)
    positivity
  · unfold IsPartial
    have e : (fun s => field (3 * nd) (bzRhs nd eps) (Function.update y (nd + i) s) i) = fun s =>
        eps 0 * (y (mirror nd (i - 1)) - 2 * y i + y (mirror nd (i + 1))) +
          77.27 * (s + y i * (1 - 8.375e-06 * y i - s)) := by
      funext s
      have h := field_bz (by omega) eps (Function.update y (nd + i) s) 0 h0 h1
      have m1 : mirror nd (i - 1) ≠ nd + i := by unfold mirror; split_ifs <;> omega
      have m2 : mirror nd (i + 1) ≠ nd + i := by unfold mirror; split_ifs <;> omega
      simp only [Fin.isValue, Fin.val_zero, Nat.cast_zero, zero_mul, zero_add, diffuse] at h
      rw [h, Function.update_of_ne m1, Function.update_of_ne m2, Function.update_of_ne (by omega),
        Function.update_self]
      rfl
    rw [e]
    have h := (((hasDerivAt_id' (y (nd + i))).fun_add (((hasDerivAt_id' (y (nd + i))).const_sub
      (1 - 8.375e-06 * y i)).const_mul (y i))).const_mul 77.27).const_add
        (eps 0 * (y (mirror nd (i - 1)) - 2 * y i + y (mirror nd (i + 1))))
    exact h.congr_deriv (by ring)

theorem frIdx_two (i j : ℤ) : frIdx 2 2 i j = 6 * j + i - 3 := by
  unfold frIdx cc ldab; ring

/-- writing any entry, in the band or not -/
theorem frSet_two {n : ℤ} {J : Buf ℝ} (hJ : J.size = 7 * n) {i j : ℤ} (hi : 1 ≤ i) (hi' : i ≤ n)
    (hj : 1 ≤ j) (hj' : j ≤ n) (v : ℝ) :
    frSet 2 2 J i j v = some ⟨J.size, Function.update J.cell (6 * j + i - 3) v⟩ := by
  unfold frSet
  rw [Buf.wr_in v (by rw [frIdx_two]; omega), frIdx_two]

/-- the linear part: no access out of bounds, the diagonal -/
theorem bzLin_of {nd off n : ℤ} (hn : 2 ≤ nd) (ho : 0 ≤ off) (hon : off + nd ≤ n) (eh2 : ℝ) {J : Buf ℝ}
    (hJ : J.size = 7 * n) :
    ∃ J', bzLin nd off eh2 J = some J' ∧ J'.size = 7 * n ∧
      ∀ i, 1 ≤ i → i ≤ nd → J'.cell (6 * (off + i) + (off + i) - 3) = -2 * eh2 := by
  unfold bzLin
  rw [frSet_two hJ (by omega) (by omega) (by omega) (by omega), Option.bind_some,
    frSet_two (n := n) (by exact hJ) (by omega) (by omega) (by omega) (by omega), Option.bind_some]
  obtain ⟨J3, a3, b3, c3⟩ := forUp_inv
    (body := fun i (J : Buf ℝ) => (frSet 2 2 J (off + i) (off + i) (-2 * eh2)).bind fun J =>
      (frSet 2 2 J (off + i) (off + i - 1) eh2).bind fun J => frSet 2 2 J (off + i) (off + i + 1) eh2)
    (fun m (J' : Buf ℝ) => J'.size = 7 * n ∧
      ∀ i, 1 ≤ i → i < m → J'.cell (6 * (off + i) + (off + i) - 3) = -2 * eh2)
    (lo := 2) (hi := nd - 1)
    (s := ⟨J.size, Function.update (Function.update J.cell (6 * (off + 1) + (off + 1) - 3) (-2 * eh2))
      (6 * (off + 2) + (off + 1) - 3) (2 * eh2)⟩) (by omega) ⟨hJ, by
      intro i h1 h2
      obtain rfl : i = 1 := by omega
      simp only
      rw [Function.update_of_ne (by omega), Function.update_self]⟩ (by
      rintro m J3 hm hm' ⟨b3, c3⟩
      rw [frSet_two b3 (by omega) (by omega) (by omega) (by omega), Option.bind_some,
        frSet_two (n := n) (by exact b3) (by omega) (by omega) (by omega) (by omega), Option.bind_some,
        frSet_two (n := n) (by exact b3) (by omega) (by omega) (by omega) (by omega)]
      refine ⟨_, rfl, b3, ?_⟩
      intro i h1 h2
      simp only
      rw [Function.update_of_ne (by omega), Function.update_of_ne (by omega)]
      by_cases him : i = m
      · rw [him, Function.update_self]
      · rw [Function.update_of_ne (by omega)]
        exact c3 i h1 (by omega))
  rw [a3, Option.bind_some, frSet_two b3 (by omega) (by omega) (by omega) (by omega), Option.bind_some,
    frSet_two (n := n) (by exact b3) (by omega) (by omega) (by omega) (by omega)]
  refine ⟨_, rfl, b3, ?_⟩
  intro i h1 h2
  simp only
  rw [Function.update_of_ne (by omega)]
  by_cases hin : i = nd
  · rw [hin, Function.update_self]
  · rw [Function.update_of_ne (by omega)]
    exact c3 i h1 (by omega)

/-- `Jac(i,j)+=a` -/
theorem addAt_of {n : ℤ} {J : Buf ℝ} (hJ : J.size = 7 * n) {i j : ℤ} (hi : 1 ≤ i) (hi' : i ≤ n)
    (hj : 1 ≤ j) (hj' : j ≤ n) (a : ℝ) :
    ∃ J', ((frGet 2 2 J i j).bind fun b => frSet 2 2 J i j (b + a)) = some J' ∧ J'.size = 7 * n ∧
      ∀ k, J'.cell k = J.cell k + if k = 6 * j + i - 3 then a else 0 := by
  rw [show frGet 2 2 J i j = some (J.cell (6 * j + i - 3)) by
    unfold frGet; rw [Buf.rd_in (by rw [frIdx_two]; omega), frIdx_two], Option.bind_some,
    frSet_two hJ hi hi' hj hj']
  refine ⟨_, rfl, hJ, ?_⟩
  intro k
  simp only
  by_cases h : k = 6 * j + i - 3
  · rw [if_pos h, h, Function.update_self]
  · rw [if_neg h, Function.update_of_ne h, add_zero]

theorem forUp_123 {σ : Type} (body : ℤ → σ → Option σ) (s : σ) :
    forUp 1 3 body s = (body 1 s).bind fun s => (body 2 s).bind fun s => body 3 s := by
  show loopUp body 3 1 s = _
  simp only [loopUp]
  congr 1
  funext a
  congr 1
  funext b
  simp

/-- the nonlinear part with 100 points: no access out of bounds, the diagonal of the third block -/
theorem bzReact_of {y J : Buf ℝ} (hy : y.size = 300) (hJ : J.size = 7 * 300) :
    ∃ J', bzReact 100 y J = some J' ∧ J'.size = 7 * 300 ∧
      ∀ i, 1 ≤ i → i ≤ 100 → J'.cell (6 * (200 + i) + (200 + i) - 3) =
        J.cell (6 * (200 + i) + (200 + i) - 3) - 0.161 := by
  unfold bzReact
  obtain ⟨J', h1, h2, h3⟩ := forUp_inv (body := fun i (J : Buf ℝ) => (y.rd (i - 1)).bind fun u =>
      (y.rd (i + 100 - 1)).bind fun v => (y.rd (i + 2 * 100 - 1)).bind fun w =>
      forUp 1 3 (fun j1 J => forUp 1 3 (fun i1 J =>
        (frGet 2 2 J (i + (i1 - 1) * 100) (i + (j1 - 1) * 100)).bind fun a =>
        frSet 2 2 J (i + (i1 - 1) * 100) (i + (j1 - 1) * 100)
          (a + bzDf u v w (Fin.ofNat 3 (i1 - 1).toNat) (Fin.ofNat 3 (j1 - 1).toNat))) J) J)
    (fun m (J' : Buf ℝ) => J'.size = 7 * 300 ∧ ∀ i, 1 ≤ i → i ≤ 100 →
      J'.cell (6 * (200 + i) + (200 + i) - 3) = J.cell (6 * (200 + i) + (200 + i) - 3) +
        if i < m then -0.161 else 0)
    (lo := 1) (hi := 100) (s := J) (by norm_num) ⟨hJ, by
      intro i h1 h2; rw [if_neg (by omega), add_zero]⟩ (by
      rintro m J0 hm hm' ⟨b0, c0⟩
      rw [Buf.rd_in (b := y) (by omega), Option.bind_some, Buf.rd_in (b := y) (by omega), Option.bind_some,
        Buf.rd_in (b := y) (by omega), Option.bind_some]
      have hD : bzDf (y.cell (m - 1)) (y.cell (m + 100 - 1)) (y.cell (m + 2 * 100 - 1))
          (Fin.ofNat 3 ((3 : ℤ) - 1).toNat) (Fin.ofNat 3 ((3 : ℤ) - 1).toNat) = -0.161 := by
        show (-0.16100 : ℝ) = -0.161
        norm_num
      generalize bzDf (y.cell (m - 1)) (y.cell (m + 100 - 1)) (y.cell (m + 2 * 100 - 1)) = D at *
      simp only [forUp_123]
      obtain ⟨J1, a1, b1, c1⟩ := addAt_of (i := m + (1 - 1) * 100) (j := m + (1 - 1) * 100) b0
        (by omega) (by omega) (by omega) (by omega)
        (D (Fin.ofNat 3 ((1 : ℤ) - 1).toNat) (Fin.ofNat 3 ((1 : ℤ) - 1).toNat))
      rw [a1, Option.bind_some]
      obtain ⟨J2, a2, b2, c2⟩ := addAt_of (i := m + (2 - 1) * 100) (j := m + (1 - 1) * 100) b1
        (by omega) (by omega) (by omega) (by omega)
        (D (Fin.ofNat 3 ((2 : ℤ) - 1).toNat) (Fin.ofNat 3 ((1 : ℤ) - 1).toNat))
      rw [a2, Option.bind_some]
      obtain ⟨J3, a3, b3, c3⟩ := addAt_of (i := m + (3 - 1) * 100) (j := m + (1 - 1) * 100) b2
        (by omega) (by omega) (by omega) (by omega)
        (D (Fin.ofNat 3 ((3 : ℤ) - 1).toNat) (Fin.ofNat 3 ((1 : ℤ) - 1).toNat))
      rw [a3, Option.bind_some]
      obtain ⟨J4, a4, b4, c4⟩ := addAt_of (i := m + (1 - 1) * 100) (j := m + (2 - 1) * 100) b3
        (by omega) (by omega) (by omega) (by omega)
        (D (Fin.ofNat 3 ((1 : ℤ) - 1).toNat) (Fin.ofNat 3 ((2 : ℤ) - 1).toNat))
      rw [a4, Option.bind_some]
      obtain ⟨J5, a5, b5, c5⟩ := addAt_of (i := m + (2 - 1) * 100) (j := m + (2 - 1) * 100) b4
        (by omega) (by omega) (by omega) (by omega)
        (D (Fin.ofNat 3 ((2 : ℤ) - 1).toNat) (Fin.ofNat 3 ((2 : ℤ) - 1).toNat))
      rw [a5, Option.bind_some]
      obtain ⟨J6, a6, b6, c6⟩ := addAt_of (i := m + (3 - 1) * 100) (j := m + (2 - 1) * 100) b5
        (by omega) (by omega) (by omega) (by omega)
        (D (Fin.ofNat 3 ((3 : ℤ) - 1).toNat) (Fin.ofNat 3 ((2 : ℤ) - 1).toNat))
      rw [a6, Option.bind_some]
      obtain ⟨J7, a7, b7, c7⟩ := addAt_of (i := m + (1 - 1) * 100) (j := m + (3 - 1) * 100) b6
        (by omega) (by omega) (by omega) (by omega)
        (D (Fin.ofNat 3 ((1 : ℤ) - 1).toNat) (Fin.ofNat 3 ((3 : ℤ) - 1).toNat))
      rw [a7, Option.bind_some]
      obtain ⟨J8, a8, b8, c8⟩ := addAt_of (i := m + (2 - 1) * 100) (j := m + (3 - 1) * 100) b7
        (by omega) (by omega) (by omega) (by omega)
        (D (Fin.ofNat 3 ((2 : ℤ) - 1).toNat) (Fin.ofNat 3 ((3 : ℤ) - 1).toNat))
      rw [a8, Option.bind_some]
      obtain ⟨J9, a9, b9, c9⟩ := addAt_of (i := m + (3 - 1) * 100) (j := m + (3 - 1) * 100) b8
        (by omega) (by omega) (by omega) (by omega)
        (D (Fin.ofNat 3 ((3 : ℤ) - 1).toNat) (Fin.ofNat 3 ((3 : ℤ) - 1).toNat))
      rw [a9]
      refine ⟨J9, rfl, b9, ?_⟩
      intro i h1 h2
      rw [c9, c8, c7, c6, c5, c4, c3, c2, c1, c0 i h1 h2, hD]
      have n1 : ¬ 6 * (200 + i) + (200 + i) - 3 = 6 * (m + (1 - 1) * 100) + (m + (1 - 1) * 100) - 3 := by omega
      have n2 : ¬ 6 * (200 + i) + (200 + i) - 3 = 6 * (m + (1 - 1) * 100) + (m + (2 - 1) * 100) - 3 := by omega
      have n3 : ¬ 6 * (200 + i) + (200 + i) - 3 = 6 * (m + (1 - 1) * 100) + (m + (3 - 1) * 100) - 3 := by omega
      have n4 : ¬ 6 * (200 + i) + (200 + i) - 3 = 6 * (m + (2 - 1) * 100) + (m + (1 - 1) * 100) - 3 := by omega
      have n5 : ¬ 6 * (200 + i) + (200 + i) - 3 = 6 * (m + (2 - 1) * 100) + (m + (2 - 1) * 100) - 3 := by omega
      have n6 : ¬ 6 * (200 + i) + (200 + i) - 3 = 6 * (m + (2 - 1) * 100) + (m + (3 - 1) * 100) - 3 := by omega
      have n7 : ¬ 6 * (200 + i) + (200 + i) - 3 = 6 * (m + (3 - 1) * 100) + (m + (1 - 1) * 100) - 3 := by omega
      have n8 : ¬ 6 * (200 + i) + (200 + i) - 3 = 6 * (m + (3 - 1) * 100) + (m + (2 - 1) * 100) - 3 := by omega
      rw [if_neg n1, if_neg n2, if_neg n3, if_neg n4, if_neg n5, if_neg n6, if_neg n7, if_neg n8]
      by_cases him : i = m
      · have p1 : ¬ i < m := by omega
        have p2 : 6 * (200 + i) + (200 + i) - 3 = 6 * (m + (3 - 1) * 100) + (m + (3 - 1) * 100) - 3 := by omega
        have p3 : i < m + 1 := by omega
        rw [if_neg p1, if_pos p2, if_pos p3]; ring
      · have p2 : ¬ 6 * (200 + i) + (200 + i) - 3 = 6 * (m + (3 - 1) * 100) + (m + (3 - 1) * 100) - 3 := by
          omega
        rw [if_neg p2]
        by_cases hlt : i < m
        · rw [if_pos hlt, if_pos (by omega)]; ring
        · rw [if_neg hlt, if_neg (by omega)]; ring)
  refine ⟨J', h1, h2, ?_⟩
  intro i hi hi'
  rw [h3 i hi hi', if_pos (by omega)]
  ring

/-- C93 fails: in every state and whatever the former contents of the matrix, the shipped BZ class (100
points) assembles the diagonal of the third species with the diffusion coefficient of the second one; no
access is out of bounds. -/
theorem bz_jac_fails {y J : Buf ℝ} (hy : y.size = 3 * 100) (hJ : J.size = ldab 2 2 * 300) {i : ℤ}
    (h1 : 1 ≤ i) (h2 : i ≤ 100) :
    ∃ J' v, bzJac 100 (bzEps 100) y J = some J' ∧ frGet 2 2 J' (200 + i) (200 + i) = some v ∧
      v = -2 * bzEps 100 1 - 0.161 ∧
      IsPartial (field (3 * 100) (bzRhs 100 (bzEps 100))) y.cell (200 + i - 1) (200 + i - 1)
        (-2 * bzEps 100 2 - 0.161) ∧ v ≠ -2 * bzEps 100 2 - 0.161 := by
  have h7 : J.size = 7 * 300 := by rw [hJ]; unfold ldab; norm_num
  unfold bzJac
  obtain ⟨J1, a1, b1, -⟩ := bzLin_of (by norm_num : (2 : ℤ) ≤ 100) (le_refl 0) (by norm_num) (bzEps 100 0) h7
  rw [a1, Option.bind_some]
  obtain ⟨J2, a2, b2, -⟩ := bzLin_of (by norm_num : (2 : ℤ) ≤ 100) (by norm_num : (0 : ℤ) ≤ 100)
    (by norm_num) (bzEps 100 1) b1
  rw [a2, Option.bind_some]
  obtain ⟨J3, a3, b3, c3⟩ := bzLin_of (by norm_num : (2 : ℤ) ≤ 100) (by norm_num : (0 : ℤ) ≤ 2 * 100)
    (by norm_num) (bzEps 100 1) b2
  rw [a3, Option.bind_some]
  obtain ⟨J4, a4, b4, c4⟩ := bzReact_of (y := y) (by omega) b3
  refine ⟨J4, -2 * bzEps 100 1 - 0.161, a4, ?_, rfl, ?_, ?_⟩
  · unfold frGet
    rw [Buf.rd_in (by rw [frIdx_two]; omega), frIdx_two, c4 i h1 h2]
    have := c3 i h1 h2
    norm_num at this ⊢
    rw [this]
  · unfold IsPartial
    have e : (fun s => field (3 * 100) (bzRhs 100 (bzEps 100))
        (Function.update y.cell (200 + i - 1) s) (200 + i - 1)) = fun s =>
        bzEps 100 2 * (y.cell (200 + mirror 100 (i - 1 - 1)) - 2 * s + y.cell (200 + mirror 100 (i - 1 + 1)))
          + 0.161 * (y.cell (i - 1) - s) := by
      funext s
      have h := field_bz (nd := 100) (by norm_num) (bzEps 100) (Function.update y.cell (200 + i - 1) s) 2
        (i := i - 1) (by omega) (by omega)
      have m1 : 200 + mirror 100 (i - 1 - 1) ≠ 200 + i - 1 := by unfold mirror; split_ifs <;> omega
      have m2 : 200 + mirror 100 (i - 1 + 1) ≠ 200 + i - 1 := by unfold mirror; split_ifs <;> omega
      have e2 : ((2 : Fin 3) : ℕ) * (100 : ℤ) = 200 := by norm_num
      rw [e2] at h
      simp only [diffuse] at h
      rw [show 200 + (i - 1) = 200 + i - 1 by ring, Function.update_of_ne m1, Function.update_of_ne m2,
        Function.update_self, Function.update_of_ne (by omega : i - 1 ≠ 200 + i - 1),
        Function.update_of_ne (by omega : 100 + (i - 1) ≠ 200 + i - 1),
        show 2 * 100 + (i - 1) = 200 + i - 1 by ring, Function.update_self] at h
      exact h
    rw [e]
    have hid := hasDerivAt_id' (y.cell (200 + i - 1))
    exact (((((hid.const_mul 2).const_sub (y.cell (200 + mirror 100 (i - 1 - 1)))).add_const
      (y.cell (200 + mirror 100 (i - 1 + 1)))).const_mul (bzEps 100 2)).fun_add
      ((hid.const_sub (y.cell (i - 1))).const_mul 0.161)).congr_deriv (by ring)
  · have : bzEps 100 1 ≠ bzEps 100 2 := by
      simp only [bzEps, Matrix.cons_val]
      norm_num
    intro h
    apply this
    linarith

/-- C93 fails: entries outside the declared band are stored on top of entries inside it: `Jac(1,101)` and
`Jac(85,87)` are the same number in memory. -/
theorem bz_alias (J : Buf ℝ) (v : ℝ) : frSet 2 2 J 1 101 v = frSet 2 2 J 85 87 v := by
  unfold frSet
  rw [frIdx_two, frIdx_two]
  norm_num

example : ∃ y : Buf ℝ, y.size = 3 * 100 ∧ y.cell 0 ≠ 1 := ⟨⟨300, fun _ => 0⟩, by norm_num, by norm_num⟩

end Odes.Stiff
