import Verif.Model.SympTest
import Verif.Lemmas.Mem
import Verif.Lemmas.Symplectic
import Verif.Lemmas.NBody
import Mathlib.Algebra.BigOperators.Intervals
import Mathlib.Tactic.IntervalCases

/-! The loops of the right hand sides of SymplecticRK/test. -/

namespace Odes.Symp.Test

open Odes.Mem Spec.NBody

theorem forUp_three {σ : Type} (body : ℤ → σ → Option σ) (s : σ) :
    forUp 0 2 body s = (body 0 s).bind fun s => (body 1 s).bind fun s => body 2 s := by
  show loopUp body 3 0 s = _
  simp only [loopUp]
  congr 1
  funext a
  congr 1
  funext b
  simp

/-- sizes of the arrays -/
structure Ok (P : Planets) (X : Buf ℝ) : Prop where
  one : 1 ≤ P.nb
  masses : P.masses.size = P.nb
  X : X.size = 6 * P.nb

/-- masses, positions, momenta -/
def mass (P : Planets) (i : Fin P.nb) : ℝ := P.masses.cell i
def pos (nb : ℕ) (X : Buf ℝ) (i : Fin nb) (s : Fin 3) : ℝ := X.cell (3 * i + s)
def mom (nb : ℕ) (X : Buf ℝ) (i : Fin nb) (s : Fin 3) : ℝ := X.cell (3 * nb + (3 * i + s))

/-- square of a distance -/
def d2 (X : Buf ℝ) (k l : ℤ) : ℝ :=
  (X.cell (3 * k) - X.cell (3 * l)) ^ 2 + (X.cell (3 * k + 1) - X.cell (3 * l + 1)) ^ 2 +
    (X.cell (3 * k + 2) - X.cell (3 * l + 2)) ^ 2

theorem d2_comm (X : Buf ℝ) (k l : ℤ) : d2 X k l = d2 X l k := by unfold d2; ring

theorem d2_eq (nb : ℕ) (X : Buf ℝ) (i j : Fin nb) : d2 X i j = dist2 (pos nb X i) (pos nb X j) := by
  simp [d2, dist2, pos, Fin.sum_univ_three]

theorem diff2_of {X : Buf ℝ} {nb : ℕ} (hX : X.size = 6 * nb) {k l : ℤ} (hk : 0 ≤ k ∧ k < nb)
    (hl : 0 ≤ l ∧ l < nb) : diff2 X k l = some (d2 X k l) := by
  unfold diff2
  rw [forUp_three, Buf.rd_in (by omega), Buf.rd_in (by omega), Option.bind_some, Option.map_some,
    Option.bind_some, Buf.rd_in (by omega), Buf.rd_in (by omega), Option.bind_some, Option.map_some,
    Option.bind_some, Buf.rd_in (by omega), Buf.rd_in (by omega), Option.bind_some, Option.map_some]
  simp [d2]

theorem dot_of {X : Buf ℝ} {nb : ℕ} (hX : X.size = 6 * nb) (i : Fin nb) :
    dot X (3 * nb) i = some (∑ s, mom nb X i s ^ 2) := by
  unfold dot
  have := i.2
  rw [forUp_three, Buf.rd_in (by omega), Option.map_some, Option.bind_some, Buf.rd_in (by omega),
    Option.map_some, Option.bind_some, Buf.rd_in (by omega), Option.map_some]
  simp [mom, Fin.sum_univ_three]
  ring

/-- one row of `dp` -/
theorem addRow_of {X Y : Buf ℝ} {nb : ℕ} (hX : X.size = 6 * nb) {dp l a b : ℤ} {c : ℝ}
    (ha : 0 ≤ a ∧ a < nb) (hb : 0 ≤ b ∧ b < nb) (h0 : 0 ≤ dp + 3 * l) (h1 : dp + 3 * l + 3 ≤ Y.size) :
    ∃ Y', addRow X dp l a b c Y = some Y' ∧ Y'.size = Y.size ∧
      (∀ s, 0 ≤ s → s < 3 → Y'.cell (dp + (3 * l + s)) =
        Y.cell (dp + (3 * l + s)) + c * (X.cell (3 * a + s) - X.cell (3 * b + s))) ∧
      ∀ k, k < dp + 3 * l ∨ dp + 3 * l + 3 ≤ k → Y'.cell k = Y.cell k := by
  unfold addRow
  rw [forUp_three]
  simp only [Buf.rd_in (b := X) (i := 3 * a + 0) (by omega), Buf.rd_in (b := X) (i := 3 * b + 0) (by omega),
    Buf.rd_in (b := X) (i := 3 * a + 1) (by omega), Buf.rd_in (b := X) (i := 3 * b + 1) (by omega),
    Buf.rd_in (b := X) (i := 3 * a + 2) (by omega), Buf.rd_in (b := X) (i := 3 * b + 2) (by omega),
    Option.bind_some]
  rw [Buf.rd_in (by omega), Option.bind_some, Buf.wr_in _ (by omega), Option.bind_some,
    Buf.rd_in (by simp only; omega), Option.bind_some, Buf.wr_in _ (by simp only; omega), Option.bind_some,
    Buf.rd_in (by simp only; omega), Option.bind_some, Buf.wr_in _ (by simp only; omega)]
  refine ⟨_, rfl, rfl, ?_, ?_⟩
  · intro s hs hs'
    interval_cases s <;> simp
  · intro k hk
    simp only
    rw [Function.update_of_ne (by omega), Function.update_of_ne (by omega), Function.update_of_ne (by omega)]

/-- `G m_l m_j / r³` -/
noncomputable def wgt (P : Planets) (X : Buf ℝ) (l j : ℤ) : ℝ :=
  P.G * P.masses.cell l * P.masses.cell j / √(d2 X l j) ^ 3

/-- one contribution to `dp` -/
noncomputable def con (P : Planets) (X : Buf ℝ) (l s : ℤ) (j : ℕ) : ℝ :=
  wgt P X l j * (X.cell (3 * l + s) - X.cell (3 * j + s))

/-- what a loop on the rows of `dp` does -/
structure Rows (nb : ℕ) (dp : ℤ) (T : ℕ → ℤ → ℝ) (Y Y' : Buf ℝ) : Prop where
  size : Y'.size = Y.size
  row : ∀ l s, l < nb → 0 ≤ s → s < 3 →
    Y'.cell (dp + (3 * (l : ℤ) + s)) = Y.cell (dp + (3 * (l : ℤ) + s)) + T l s
  out : ∀ k, k < dp ∨ dp + 3 * nb ≤ k → Y'.cell k = Y.cell k

variable {P : Planets} {X Y : Buf ℝ} {dp : ℤ}

theorem lower_of (h : Ok P X) (h0 : 0 ≤ dp) (h1 : dp + 3 * P.nb ≤ Y.size) :
    ∃ Y', lower P X dp Y = some Y' ∧
      Rows P.nb dp (fun l s => ∑ j ∈ Finset.range l, con P X l s j) Y Y' := by
  obtain ⟨Y', h2, h3⟩ := forUp_inv (lo := 1) (hi := (P.nb : ℤ) - 1) (s := Y)
    (body := fun l Y => forUp 0 (l - 1) (fun j Y =>
      (P.masses.rd l).bind fun ml => (P.masses.rd j).bind fun mj => (diff2 X l j).bind fun d =>
        addRow X dp l l j (P.G * ml * mj / √d ^ 3) Y) Y)
    (fun l Y' => Rows P.nb dp (fun l' s => if (l' : ℤ) < l then
      ∑ j ∈ Finset.range l', con P X l' s j else 0) Y Y')
    (by have := h.one; omega)
    ⟨rfl, fun l s hl hs hs' => by
      rcases Nat.eq_zero_or_pos l with rfl | hl'
      · simp
      · rw [if_neg (by omega), add_zero], fun k _ => rfl⟩ (by
      intro l Y1 hl hl' hP
      obtain ⟨L, rfl⟩ : ∃ L : ℕ, l = L := ⟨l.toNat, by omega⟩
      obtain ⟨Y2, a1, a2⟩ := forUp_nat (s := L) (st := Y1)
        (body := fun j Y =>
          (P.masses.rd L).bind fun ml => (P.masses.rd j).bind fun mj => (diff2 X L j).bind fun d =>
            addRow X dp L L j (P.G * ml * mj / √d ^ 3) Y)
        (fun J Y' => Rows P.nb dp (fun l' s => if l' = L then
          ∑ j ∈ Finset.range J, con P X l' s j else 0) Y1 Y')
        ⟨rfl, fun l s _ _ _ => by simp, fun k _ => rfl⟩ (by
          intro j Y2 hj hP2
          rw [Buf.rd_in (by rw [h.masses]; omega), Option.bind_some,
            Buf.rd_in (by rw [h.masses]; omega), Option.bind_some,
            diff2_of h.X (by omega) (by omega), Option.bind_some]
          obtain ⟨Y3, b1, b2, b3, b4⟩ := addRow_of (Y := Y2) (dp := dp) (l := L) (a := L) (b := j)
            (c := P.G * P.masses.cell L * P.masses.cell j / √(d2 X L j) ^ 3) h.X (by omega)
            (by omega) (by omega) (by rw [hP2.size, hP.size]; omega)
          refine ⟨Y3, b1, b2.trans hP2.size, fun l s hln hs hs' => ?_, fun k hk => ?_⟩
          · by_cases e : l = L
            · subst e
              rw [b3 s hs hs', hP2.row l s hln hs hs', if_pos rfl, if_pos rfl, Finset.sum_range_succ,
                add_assoc]
              rfl
            · rw [b4 _ (by omega), hP2.row l s hln hs hs', if_neg e, if_neg e]
          · rw [b4 _ (by omega), hP2.out k hk])
      refine ⟨Y2, a1, a2.size.trans hP.size, fun l s hl hs hs' => ?_, fun k hk => ?_⟩
      · rw [a2.row l s hl hs hs', hP.row l s hl hs hs', add_assoc]
        congr 1
        by_cases e : l = L
        · subst e; rw [if_neg (by omega), if_pos rfl, if_pos (by omega), zero_add]
        · rw [if_neg e, add_zero]
          by_cases e' : l < L
          · rw [if_pos (by omega), if_pos (by omega)]
          · rw [if_neg (by omega), if_neg (by omega)]
      · rw [a2.out k hk, hP.out k hk])
  refine ⟨Y', h2, h3.size, fun l s hl hs hs' => ?_, h3.out⟩
  rw [h3.row l s hl hs hs', if_pos (by omega)]

theorem upper_of (h : Ok P X) (h0 : 0 ≤ dp) (h1 : dp + 3 * P.nb ≤ Y.size) :
    ∃ Y', upper P X dp Y = some Y' ∧
      Rows P.nb dp (fun l s => ∑ j ∈ Finset.Ico (l + 1) P.nb, con P X l s j) Y Y' := by
  have hnb := h.one
  obtain ⟨Y', h2, h3⟩ := forUp_inv (lo := 0) (hi := (P.nb : ℤ) - 1 - 1) (s := Y)
    (body := fun l Y => forUp (l + 1) (P.nb - 1) (fun j Y =>
      (P.masses.rd j).bind fun mj => (P.masses.rd l).bind fun ml => (diff2 X j l).bind fun d =>
        addRow X dp l j l (-P.G * mj * ml / √d ^ 3) Y) Y)
    (fun l Y' => Rows P.nb dp (fun l' s => if (l' : ℤ) < l then
      ∑ j ∈ Finset.Ico (l' + 1) P.nb, con P X l' s j else 0) Y Y')
    (by omega)
    ⟨rfl, fun l s hl hs hs' => by rw [if_neg (by omega), add_zero], fun k _ => rfl⟩ (by
      intro l Y1 hl hl' hP
      obtain ⟨L, rfl⟩ : ∃ L : ℕ, l = L := ⟨l.toNat, by omega⟩
      obtain ⟨Y2, a1, a2⟩ := forUp_inv (lo := (L : ℤ) + 1) (hi := (P.nb : ℤ) - 1) (s := Y1)
        (body := fun j Y =>
          (P.masses.rd j).bind fun mj => (P.masses.rd L).bind fun ml => (diff2 X j L).bind fun d =>
            addRow X dp L j L (-P.G * mj * ml / √d ^ 3) Y)
        (fun J Y' => Rows P.nb dp (fun l' s => if l' = L then
          ∑ j ∈ Finset.Ico (L + 1) J.toNat, con P X l' s j else 0) Y1 Y')
        (by omega)
        ⟨rfl, fun l s _ _ _ => by
          rw [show ((L : ℤ) + 1).toNat = L + 1 by omega]; simp, fun k _ => rfl⟩ (by
          intro j Y2 hj hj' hP2
          obtain ⟨J, rfl⟩ : ∃ J : ℕ, j = J := ⟨j.toNat, by omega⟩
          rw [Buf.rd_in (by rw [h.masses]; omega), Option.bind_some,
            Buf.rd_in (by rw [h.masses]; omega), Option.bind_some,
            diff2_of h.X (by omega) (by omega), Option.bind_some]
          obtain ⟨Y3, b1, b2, b3, b4⟩ := addRow_of (Y := Y2) (dp := dp) (l := L) (a := J) (b := L)
            (c := -P.G * P.masses.cell J * P.masses.cell L / √(d2 X J L) ^ 3) h.X (by omega)
            (by omega) (by omega) (by rw [hP2.size, hP.size]; omega)
          refine ⟨Y3, b1, b2.trans hP2.size, fun l s hln hs hs' => ?_, fun k hk => ?_⟩
          · by_cases e : l = L
            · subst e
              rw [b3 s hs hs', hP2.row l s hln hs hs', if_pos rfl, if_pos rfl,
                show ((J : ℤ) + 1).toNat = J + 1 by omega, show (J : ℤ).toNat = J by omega,
                Finset.sum_Ico_succ_top (by omega), add_assoc]
              congr 2
              rw [con, wgt, d2_comm]
              ring
            · rw [b4 _ (by omega), hP2.row l s hln hs hs', if_neg e, if_neg e]
          · rw [b4 _ (by omega), hP2.out k hk])
      refine ⟨Y2, a1, a2.size.trans hP.size, fun l s hl hs hs' => ?_, fun k hk => ?_⟩
      · rw [a2.row l s hl hs hs', hP.row l s hl hs hs', add_assoc]
        congr 1
        by_cases e : l = L
        · subst e
          rw [if_neg (by omega), if_pos rfl, if_pos (by omega), zero_add,
            show ((P.nb : ℤ) - 1 + 1).toNat = P.nb by omega]
        · rw [if_neg e, add_zero]
          by_cases e' : l < L
          · rw [if_pos (by omega), if_pos (by omega)]
          · rw [if_neg (by omega), if_neg (by omega)]
      · rw [a2.out k hk, hP.out k hk])
  refine ⟨Y', h2, h3.size, fun l s hl hs hs' => ?_, h3.out⟩
  rw [h3.row l s hl hs hs']
  by_cases e : (l : ℤ) < (P.nb : ℤ) - 1 - 1 + 1
  · rw [if_pos e]
  · rw [if_neg e, Finset.Ico_eq_empty (by omega), Finset.sum_empty]

/-- the cells set to zero -/
theorem zero_of (h0 : 0 ≤ dp) (h1 : dp + 18 * P.nb ≤ Y.size) :
    ∃ Y', zero P dp Y = some Y' ∧ Y'.size = Y.size ∧
      (∀ k, dp ≤ k → k < dp + 18 * P.nb → Y'.cell k = 0) ∧
      ∀ k, k < dp ∨ dp + 18 * P.nb ≤ k → Y'.cell k = Y.cell k := by
  obtain ⟨Y', h2, h3⟩ := forUp_inv (lo := 0) (hi := 3 * (6 * (P.nb : ℤ)) - 1) (s := Y)
    (body := fun i Y => Y.wr (dp + i) 0)
    (fun i Y' => Y'.size = Y.size ∧ (∀ k, dp ≤ k → k < dp + i → Y'.cell k = 0) ∧
      ∀ k, k < dp ∨ dp + i ≤ k → Y'.cell k = Y.cell k)
    (by omega) ⟨rfl, fun k _ _ => by omega, fun _ _ => rfl⟩ (by
      intro i Y1 hi hi' ⟨p1, p2, p3⟩
      refine ⟨_, Buf.wr_in _ (by omega), p1, fun k hk hk' => ?_, fun k hk => ?_⟩
      · by_cases e : k = dp + i
        · subst e; simp
        · simp only
          rw [Function.update_of_ne e]
          exact p2 k hk (by omega)
      · simp only
        rw [Function.update_of_ne (by omega)]
        exact p3 k (by omega))
  refine ⟨Y', h2, h3.1, fun k hk hk' => h3.2.1 k hk (by omega), fun k hk => h3.2.2 k (by omega)⟩

/-- out of bounds -/
theorem zero_none (h0 : 0 ≤ dp) (h1 : Y.size < dp + 18 * P.nb) (h2 : dp ≤ Y.size) : zero P dp Y = none := by
  have := forUp_none (body := fun i (Z : Buf ℝ) => Z.wr (dp + i) 0) (fun Z => Z.size = Y.size)
    (18 * P.nb) (Y.size - dp).toNat (st := Y) (by omega) rfl
    (fun j Z Z' _ hZ hw => (Buf.wr_some hw).2.2.1.trans hZ)
    (fun Z hZ => by
      simp only [Buf.wr]
      rw [if_neg (by omega)])
  unfold zero
  rw [show 3 * (6 * (P.nb : ℤ)) - 1 = ((18 * P.nb : ℕ) : ℤ) - 1 by push_cast; ring]
  exact this

/-- the positions -/
theorem dqdt_of (h : Ok P X) {off : ℤ} (h0 : 0 ≤ off) (h1 : off + 3 * P.nb ≤ Y.size) :
    ∃ Y', dqdt P X off Y = some Y' ∧ Y'.size = Y.size ∧
      (∀ (l : ℕ) s, l < P.nb → 0 ≤ s → s < 3 → Y'.cell (off + (3 * (l : ℤ) + s)) =
        -X.cell (3 * P.nb + (3 * (l : ℤ) + s)) / P.masses.cell l) ∧
      ∀ k, k < off ∨ off + 3 * P.nb ≤ k → Y'.cell k = Y.cell k := by
  obtain ⟨Y', h2, h3⟩ := forUp_nat (s := P.nb) (st := Y)
    (body := fun i Y => (P.masses.rd i).bind fun mi =>
      forUp 0 2 (fun j Y => (X.rd (3 * P.nb + (3 * i + j))).bind fun p =>
        Y.wr (off + (3 * i + j)) (-p / mi)) Y)
    (fun i Y' => Y'.size = Y.size ∧
      (∀ (l : ℕ) s, l < i → 0 ≤ s → s < 3 → Y'.cell (off + (3 * (l : ℤ) + s)) =
        -X.cell (3 * P.nb + (3 * (l : ℤ) + s)) / P.masses.cell l) ∧
      ∀ k, k < off ∨ off + 3 * P.nb ≤ k → Y'.cell k = Y.cell k)
    ⟨rfl, fun l s hl => by omega, fun _ _ => rfl⟩ (by
      intro i Y1 hi ⟨p1, p2, p3⟩
      rw [Buf.rd_in (by rw [h.masses]; omega), Option.bind_some, forUp_three]
      have hX := h.X
      rw [Buf.rd_in (by omega), Option.bind_some, Buf.wr_in _ (by omega), Option.bind_some,
        Buf.rd_in (by omega), Option.bind_some, Buf.wr_in _ (by simp only; omega), Option.bind_some,
        Buf.rd_in (by omega), Option.bind_some, Buf.wr_in _ (by simp only; omega)]
      refine ⟨_, rfl, p1, fun l s hl hs hs' => ?_, fun k hk => ?_⟩
      · by_cases e : l = i
        · subst e
          interval_cases s <;> simp
        · simp only
          rw [Function.update_of_ne (by omega), Function.update_of_ne (by omega),
            Function.update_of_ne (by omega)]
          exact p2 l s (by omega) hs hs'
      · simp only
        rw [Function.update_of_ne (by omega), Function.update_of_ne (by omega),
          Function.update_of_ne (by omega)]
        exact p3 k hk)
  exact ⟨Y', h2, h3⟩

/-- the right hand side, in bounds -/
theorem rhs_of (h : Ok P X) {off : ℤ} (h0 : 0 ≤ off) (h1 : off + 21 * P.nb ≤ Y.size) :
    ∃ Y', rhs P X off Y = some Y' ∧ Y'.size = Y.size ∧
      (∀ (l : ℕ) s, l < P.nb → 0 ≤ s → s < 3 → Y'.cell (off + (3 * (l : ℤ) + s)) =
        -X.cell (3 * P.nb + (3 * (l : ℤ) + s)) / P.masses.cell l) ∧
      (∀ (l : ℕ) s, l < P.nb → 0 ≤ s → s < 3 → Y'.cell (off + 3 * P.nb + (3 * (l : ℤ) + s)) =
        ∑ j ∈ Finset.range P.nb, con P X l s j) ∧
      (∀ k, off + 6 * P.nb ≤ k → k < off + 21 * P.nb → Y'.cell k = 0) ∧
      ∀ k, k < off ∨ off + 21 * P.nb ≤ k → Y'.cell k = Y.cell k := by
  obtain ⟨Y1, a1, a2, a3, a4⟩ := dqdt_of (Y := Y) h h0 (by omega)
  obtain ⟨Y2, b1, b2, b3, b4⟩ := zero_of (P := P) (Y := Y1) (dp := off + 3 * P.nb) (by omega) (by omega)
  obtain ⟨Y3, c1, c2⟩ := lower_of (Y := Y2) (dp := off + 3 * P.nb) h (by omega) (by omega)
  obtain ⟨Y4, d1, d2⟩ := upper_of (Y := Y3) (dp := off + 3 * P.nb) h (by omega)
    (by rw [c2.size]; omega)
  refine ⟨Y4, ?_, by rw [d2.size, c2.size, b2, a2], ?_, ?_, ?_, ?_⟩
  · rw [rhs, a1, Option.bind_some, dpdt, b1, Option.bind_some, c1, Option.bind_some, d1]
  · intro l s hl hs hs'
    rw [d2.out _ (by omega), c2.out _ (by omega), b4 _ (by omega), a3 l s hl hs hs']
  · intro l s hl hs hs'
    rw [d2.row l s hl hs hs', c2.row l s hl hs hs', b3 _ (by omega) (by omega), zero_add,
      ← Finset.sum_range_add_sum_Ico _ (show l ≤ P.nb by omega), Finset.sum_eq_sum_Ico_succ_bot hl]
    have : con P X l s l = 0 := by simp [con]
    rw [this, zero_add]
  · intro k hk hk'
    rw [d2.out _ (by omega), c2.out _ (by omega), b3 _ (by omega) (by omega)]
  · intro k hk
    rw [d2.out _ (by omega), c2.out _ (by omega), b4 _ (by omega), a4 _ (by omega)]

/-- the right hand side, out of bounds -/
theorem rhs_none (h : Ok P X) {off : ℤ} (h0 : 0 ≤ off) (h1 : off + 6 * P.nb ≤ Y.size)
    (h2 : Y.size < off + 21 * P.nb) : rhs P X off Y = none := by
  obtain ⟨Y1, a1, a2, a3, a4⟩ := dqdt_of (Y := Y) h h0 (by omega)
  rw [rhs, a1, Option.bind_some, dpdt, zero_none (by omega) (by omega) (by omega)]
  rfl

end Odes.Symp.Test
