import Verif.Lemmas.SympTest
import Verif.Props.SympReal

/-!
# Problems shipped with the symplectic methods (C89, C90, C91)
-/

namespace Odes.Symp.Test

open Odes.Mem Spec Spec.NBody

/-- a vector as an array -/
def bufOf {n : ℕ} (y : Fin n → ℝ) : Buf ℝ :=
  ⟨n, fun k => if h : 0 ≤ k ∧ k < n then y ⟨k.toNat, by omega⟩ else 0⟩

theorem bufOf_cell {n : ℕ} (y : Fin n → ℝ) (k : Fin n) : (bufOf y).cell k = y k := by
  have := k.2
  simp only [bufOf]
  rw [dif_pos ⟨by omega, by omega⟩]
  congr 1

theorem bufOf_ok {P : Planets} (h1 : 1 ≤ P.nb) (hm : P.masses.size = P.nb) (y : Fin (6 * P.nb) → ℝ) :
    Ok P (bufOf y) := ⟨h1, hm, by simp [bufOf]⟩

theorem pos_bufOf {nb : ℕ} (y : Fin (6 * nb) → ℝ) : pos nb (bufOf y) = posOf y := by
  funext i s
  have hi := i.2
  have hs := s.2
  exact bufOf_cell y ⟨3 * i + s, by omega⟩

theorem mom_bufOf {nb : ℕ} (y : Fin (6 * nb) → ℝ) : mom nb (bufOf y) = momOf y := by
  funext i s
  have hi := i.2
  have hs := s.2
  exact bufOf_cell y ⟨3 * nb + (3 * i + s), by omega⟩

/-- the sum of the contributions is minus the force -/
theorem con_sum {P : Planets} (X : Buf ℝ) (i : Fin P.nb) (s : Fin 3) :
    ∑ j ∈ Finset.range P.nb, con P X i s j = -force P.G (mass P) (pos P.nb X) i s := by
  rw [force, neg_neg, ← Fin.sum_univ_eq_sum_range]
  refine Finset.sum_congr rfl fun j _ => ?_
  rw [con, wgt, d2_eq]
  rfl

/-- C89, C90, the part which holds: given an array which extends `21 nb` elements beyond the place where the
result is to be written, `operator()` writes minus the right hand side of Newton's equations there, and sets the
next `15 nb` elements to zero; nothing else is changed. -/
theorem outer_rhs_partial {P : Planets} {X Y : Buf ℝ} (h : Ok P X) {off : ℤ} (h0 : 0 ≤ off)
    (h1 : off + 21 * P.nb ≤ Y.size) :
    ∃ Y', rhs P X off Y = some Y' ∧ Y'.size = Y.size ∧
      (∀ k : Fin (6 * P.nb), Y'.cell (off + (k : ℕ)) =
        -newton P.G (mass P) (fun k : Fin (6 * P.nb) => X.cell k) k) ∧
      (∀ k, off + 6 * P.nb ≤ k → k < off + 21 * P.nb → Y'.cell k = 0) ∧
      ∀ k, k < off ∨ off + 21 * P.nb ≤ k → Y'.cell k = Y.cell k := by
  obtain ⟨Y', a1, a2, a3, a4, a5, a6⟩ := rhs_of (Y := Y) h h0 h1
  refine ⟨Y', a1, a2, fun k => ?_, a5, a6⟩
  rcases coord k with ⟨i, s, e⟩ | ⟨i, s, e⟩
  · have hk : k = ⟨3 * i + s, by have := i.2; have := s.2; omega⟩ := Fin.ext e
    have h2 := a3 i s i.2 (by omega) (by have := s.2; omega)
    rw [show off + (k : ℕ) = off + (3 * (i : ℕ) + (s : ℕ) : ℤ) by omega, h2, hk]
    have h3 := posOf_newton P.G (mass P) (fun k : Fin (6 * P.nb) => X.cell k) i s
    rw [posOf] at h3
    rw [h3, neg_div, momOf, mass]
    congr 2
  · have hk : k = ⟨3 * P.nb + (3 * i + s), by have := i.2; have := s.2; omega⟩ := Fin.ext e
    have h2 := a4 i s i.2 (by omega) (by have := s.2; omega)
    rw [show off + (k : ℕ) = off + 3 * P.nb + (3 * (i : ℕ) + (s : ℕ) : ℤ) by omega, h2, hk]
    have h3 := momOf_newton P.G (mass P) (fun k : Fin (6 * P.nb) => X.cell k) i s
    rw [momOf] at h3
    rw [h3, con_sum]
    rfl

/-- C90 is violated: in the solver with `s` stages, the evaluation for stage `i` writes out of the bounds of
`Y1` exactly for the last three stages. -/
theorem outer_rhs_ub {P : Planets} {X Y1 : Buf ℝ} (h : Ok P X) {s i : ℕ} (hY : Y1.size = 6 * P.nb * s)
    (hi : i < s) : rhs P X (i * (6 * P.nb)) Y1 = none ↔ s ≤ i + 3 := by
  have h1 := h.one
  have e1 : ∃ z : ℤ, z = (P.nb : ℤ) * i := ⟨_, rfl⟩
  have e2 : ∃ z : ℤ, z = (P.nb : ℤ) * s := ⟨_, rfl⟩
  obtain ⟨a, ha⟩ := e1
  obtain ⟨b, hb⟩ := e2
  have f1 : (i : ℤ) * (6 * P.nb) = 6 * a := by rw [ha]; ring
  have f2 : Y1.size = 6 * b := by rw [hY, hb]; ring
  have f3 : a + P.nb ≤ b := by
    rw [ha, hb, ← mul_add_one]
    exact mul_le_mul_of_nonneg_left (by omega) (by omega)
  have f4 : 0 ≤ a := by rw [ha]; positivity
  constructor
  · intro hn
    by_contra hs
    have f5 : a + 4 * P.nb ≤ b := by
      rw [ha, hb, show (P.nb : ℤ) * i + 4 * P.nb = P.nb * (i + 4) by ring]
      exact mul_le_mul_of_nonneg_left (by omega) (by omega)
    obtain ⟨Y', h2, -⟩ := rhs_of (Y := Y1) h (off := i * (6 * P.nb)) (by omega) (by omega)
    rw [h2] at hn
    cases hn
  · intro hs
    have f5 : b ≤ a + 3 * P.nb := by
      rw [ha, hb, show (P.nb : ℤ) * i + 3 * P.nb = P.nb * (i + 3) by ring]
      exact mul_le_mul_of_nonneg_left (by omega) (by omega)
    exact rhs_none h (by omega) (by omega) (by omega)

/-- so every iteration of every step has undefined behaviour, whatever the number of stages. -/
theorem outer_evals_ub {P : Planets} (h1 : 1 ≤ P.nb) (hm : P.masses.size = P.nb) {s : ℕ} (hs : 1 ≤ s)
    {Y Y1 : Buf ℝ} (hY : Y1.size = 6 * P.nb * s) : evals P s Y Y1 = none := by
  unfold evals
  refine forUp_none (fun Z : Buf ℝ => Z.size = 6 * P.nb * s) s (s - 1) (by omega) hY ?_ ?_
  · intro j Z Z' hj hZ hr
    have hok : Ok P ⟨6 * P.nb, fun k => Y.cell (j * (6 * P.nb) + k)⟩ := ⟨h1, hm, rfl⟩
    by_cases hj' : s ≤ j + 3
    · rw [(outer_rhs_ub hok hZ hj).2 hj'] at hr
      cases hr
    · have f5 : (P.nb : ℤ) * (j + 4) ≤ P.nb * s := mul_le_mul_of_nonneg_left (by omega) (by omega)
      have f6 : 0 ≤ (j : ℤ) * (6 * P.nb) := by positivity
      obtain ⟨Z2, h2, h3, -⟩ := rhs_of (Y := Z) hok (off := j * (6 * P.nb)) f6 (by rw [hZ]; linarith)
      rw [h2] at hr
      cases hr
      exact h3.trans hZ
  · intro Z hZ
    have hok : Ok P ⟨6 * P.nb, fun k => Y.cell (((s - 1 : ℕ) : ℤ) * (6 * P.nb) + k)⟩ := ⟨h1, hm, rfl⟩
    exact (outer_rhs_ub hok hZ (by omega)).2 (by omega)

/-- the program of test/main.cc: six bodies, eight stages. -/
example (Y : Buf ℝ) (c : ℤ → ℝ) : evals outer 8 Y ⟨6 * 6 * 8, c⟩ = none :=
  outer_evals_ub (P := outer) (by decide) rfl (by decide) rfl

/-! ### what happens when the members lie one after the other -/

/-- C90, consequence for the usual memory layout: the values of the function at all stages are right, but after
each iteration the compensation term `e` (and `delta`) is zero: the compensated summation has no memory. -/
theorem outer_flat {P : Planets} (h1 : 1 ≤ P.nb) (hm : P.masses.size = P.nb) {s : ℕ} (hs : 1 ≤ s)
    {mem : Buf ℝ} (hsize : mem.size = 6 * P.nb * (2 * s + 4)) :
    ∃ mem', evalsFlat P s mem = some mem' ∧ mem'.size = mem.size ∧
      -- `Y` is unchanged
      (∀ k : ℤ, 6 * P.nb ≤ k → k < 6 * P.nb * (s + 1) → mem'.cell k = mem.cell k) ∧
      -- `Y1`
      (∀ i, i < s → ∀ k : Fin (6 * P.nb), mem'.cell (6 * P.nb * (s + 1 + i) + (k : ℕ)) =
        -newton P.G (mass P) (fun k => mem.cell (6 * P.nb * (i + 1) + (k : ℕ))) k) ∧
      -- `delta`, `e`
      ∀ k : ℤ, 6 * P.nb * (2 * s + 1) ≤ k → k < 6 * P.nb * (2 * s + 3) → mem'.cell k = 0 := by
  have hnb : (1 : ℤ) ≤ P.nb := by exact_mod_cast h1
  obtain ⟨B, hB⟩ : ∃ B : ℤ, B = 6 * P.nb := ⟨_, rfl⟩
  have hB1 : 6 ≤ B := by omega
  obtain ⟨mem', a1, a2, a3, a4, a5⟩ := forUp_nat (s := s) (st := mem)
    (body := fun i mem =>
      (forUp 0 (6 * P.nb - 1) (fun j mem => (mem.rd (6 * P.nb + (i * (6 * P.nb) + j))).bind fun y =>
        mem.wr j y) mem).bind fun mem =>
      rhs P ⟨6 * P.nb, mem.cell⟩ (6 * P.nb + s * (6 * P.nb) + i * (6 * P.nb)) mem)
    (fun i mem' => mem'.size = mem.size ∧
      (∀ k, B ≤ k → k < B * (s + 1) → mem'.cell k = mem.cell k) ∧
      (∀ j, j < i → ∀ k : Fin (6 * P.nb), mem'.cell (B * (s + 1 + j) + (k : ℕ)) =
        -newton P.G (mass P) (fun k => mem.cell (B * (j + 1) + (k : ℕ))) k) ∧
      (1 ≤ i → ∀ k, B * (s + 1 + i) ≤ k → k < B * (s + 1 + i) + 15 * P.nb → mem'.cell k = 0))
    ⟨rfl, fun _ _ _ => rfl, fun j hj => by omega, fun hi => by omega⟩ (by
      intro i m1 hi ⟨p1, p2, p3, p4⟩
      have q1 : B * (i + 1) ≤ B * s := mul_le_mul_of_nonneg_left (by omega) (by omega)
      have q2 : 0 ≤ B * (i : ℤ) := by positivity
      have q3 : m1.size = 2 * (B * s) + 4 * B := by rw [p1, hsize, hB]; ring
      -- the copy
      obtain ⟨m2, b1, b2, b3, b4⟩ := forUp_nat (s := 6 * P.nb) (st := m1)
        (body := fun j mem => (mem.rd (6 * P.nb + ((i : ℤ) * (6 * P.nb) + j))).bind fun y => mem.wr j y)
        (fun j m2 => m2.size = m1.size ∧
          (∀ k : ℤ, 0 ≤ k → k < j → m2.cell k = m1.cell (B * (i + 1) + k)) ∧
          ∀ k : ℤ, (k < 0 ∨ (j : ℤ) ≤ k) → m2.cell k = m1.cell k)
        ⟨rfl, fun k _ _ => by omega, fun _ _ => rfl⟩ (by
          intro j m2 hj ⟨r1, r2, r3⟩
          have e : 6 * (P.nb : ℤ) + ((i : ℤ) * (6 * P.nb) + j) = B * i + B + j := by rw [hB]; ring
          rw [mul_add_one] at q1
          rw [e, Buf.rd_in (by omega), Option.bind_some, Buf.wr_in _ (by omega)]
          refine ⟨_, rfl, r1, fun k hk hk' => ?_, fun k hk => ?_⟩
          · simp only
            by_cases e' : k = j
            · subst e'
              rw [Function.update_self, r3 _ (by omega), mul_add_one]
            · rw [Function.update_of_ne e']
              exact r2 k hk (by omega)
          · simp only
            rw [Function.update_of_ne (by omega)]
            exact r3 k (by omega))
      push_cast at b1
      rw [b1, Option.bind_some]
      have hok : Ok P ⟨6 * P.nb, m2.cell⟩ := ⟨h1, hm, rfl⟩
      have eo : 6 * (P.nb : ℤ) + s * (6 * P.nb) + i * (6 * P.nb) = B * (s + 1 + i) := by rw [hB]; ring
      rw [eo]
      have q4 : B * (s + 1 + i) = B * s + B + B * i := by ring
      rw [mul_add_one] at q1
      obtain ⟨m3, c1, c2, c3, c4, c5⟩ := outer_rhs_partial (Y := m2) hok (off := B * (s + 1 + i))
        (by positivity) (by omega)
      refine ⟨m3, c1, by omega, fun k hk hk' => ?_, fun j hj k => ?_, fun _ k hk hk' => ?_⟩
      · rw [mul_add_one] at hk'
        rw [c5 k (Or.inl (by omega)), b4 k (Or.inr (by push_cast; omega)), p2 k hk (by rw [mul_add_one]; omega)]
      · by_cases e' : j = i
        · subst e'
          rw [c3 k]
          congr 2
          funext k'
          have := k'.2
          rw [b3 _ (by omega) (by omega), p2 _ (by rw [mul_add_one]; omega)
            (by rw [mul_add_one, mul_add_one]; omega)]
        · have q5 : B * (j + 1) ≤ B * i := mul_le_mul_of_nonneg_left (by omega) (by omega)
          have q6 : 0 ≤ B * (j : ℤ) := by positivity
          have q7 : 0 ≤ B * (s : ℤ) := by positivity
          have q8 : B * (s + 1 + j) = B * s + B + B * (j : ℤ) := by ring
          have := k.2
          rw [mul_add_one] at q5
          rw [c5 _ (Or.inl (by omega)), b4 _ (Or.inr (by push_cast; omega)), p3 j (by omega) k]
      · have q8 : B * (s + 1 + ((i + 1 : ℕ) : ℤ)) = B * (s + 1 + i) + B := by push_cast; ring
        exact c4 k (by omega) (by omega))
  refine ⟨mem', a1, a2, fun k hk hk' => a3 k (by omega) (by rw [hB]; exact hk'), fun i hi k => ?_,
    fun k hk hk' => a5 hs k ?_ ?_⟩
  · rw [← hB]
    exact a4 i hi k
  · have : B * (s + 1 + s) = 6 * P.nb * (2 * s + 1) := by rw [hB]; ring
    omega
  · have e1 : B * (s + 1 + s) = 6 * P.nb * (2 * s + 1) := by rw [hB]; ring
    have e2 : 6 * (P.nb : ℤ) * (2 * s + 3) = 6 * P.nb * (2 * s + 1) + 12 * P.nb := by ring
    omega

/-! ### conserved quantities -/

/-- the right hand side as a function of vectors: what `operator()` writes. -/
noncomputable def field (P : Planets) (y : Fin (6 * P.nb) → ℝ) : Fin (6 * P.nb) → ℝ :=
  -newton P.G (mass P) y

theorem posOf_field (P : Planets) (y : Fin (6 * P.nb) → ℝ) (i : Fin P.nb) (s : Fin 3) :
    posOf (field P y) i s = -1 * (momOf y i s / mass P i) := by
  rw [← posOf_newton P.G, neg_one_mul]; rfl

theorem momOf_field (P : Planets) (y : Fin (6 * P.nb) → ℝ) (i : Fin P.nb) (s : Fin 3) :
    momOf (field P y) i s = -1 * force P.G (mass P) (posOf y) i s := by
  rw [← momOf_newton P.G, neg_one_mul]; rfl

/-- total linear momentum -/
def totalMom (nb : ℕ) (s : Fin 3) : (Fin (6 * nb) → ℝ) →ₗ[ℝ] ℝ where
  toFun y := ∑ i, momOf y i s
  map_add' x y := Finset.sum_add_distrib
  map_smul' c x := (Finset.mul_sum _ _ _).symm

/-- C91: every step, with every table and number of stages, after any history, whether or not the
iteration converged, preserves the total linear momentum (exact arithmetic). -/
theorem outer_momentum (P : Planets) {c : Cfg ℝ (6 * P.nb)} (hf : c.f = field P) (hT : Tab c) (hS : Scal c)
    (hnar : ∀ x, c.narrow x = x) {st st' : St ℝ (6 * P.nb)} (hist : Hist c st) {h : ℝ}
    {u u' : Fin (6 * P.nb) → ℝ} {first r : Bool} (hs : step c h u first st = some (r, u', st'))
    (s : Fin 3) : ∑ i, momOf u' i s = ∑ i, momOf u i s := by
  refine symp_linear hT hS hnar hist hs (L := totalMom P.nb s) fun y => ?_
  rw [hf]
  show ∑ i, momOf (field P y) i s = 0
  simp only [momOf_field]
  rw [← Finset.mul_sum, force_sum, mul_zero]

/-- symmetric bilinear form of the angular momentum -/
noncomputable def angForm (nb : ℕ) (a b : Fin 3) :
    (Fin (6 * nb) → ℝ) →ₗ[ℝ] (Fin (6 * nb) → ℝ) →ₗ[ℝ] ℝ :=
  LinearMap.mk₂ ℝ (fun x y => ∑ i, (posOf x i a * momOf y i b + posOf y i a * momOf x i b -
      (posOf x i b * momOf y i a + posOf y i b * momOf x i a)) / 2)
    (fun x x' y => by
      rw [← Finset.sum_add_distrib]
      refine Finset.sum_congr rfl fun i _ => ?_
      simp only [posOf, momOf, Pi.add_apply]; ring)
    (fun c x y => by
      rw [smul_eq_mul, Finset.mul_sum]
      refine Finset.sum_congr rfl fun i _ => ?_
      simp only [posOf, momOf, Pi.smul_apply, smul_eq_mul]; ring)
    (fun x y y' => by
      rw [← Finset.sum_add_distrib]
      refine Finset.sum_congr rfl fun i _ => ?_
      simp only [posOf, momOf, Pi.add_apply]; ring)
    (fun c x y => by
      rw [smul_eq_mul, Finset.mul_sum]
      refine Finset.sum_congr rfl fun i _ => ?_
      simp only [posOf, momOf, Pi.smul_apply, smul_eq_mul]; ring)

theorem angForm_apply (nb : ℕ) (a b : Fin 3) (x y : Fin (6 * nb) → ℝ) : angForm nb a b x y =
    ∑ i, (posOf x i a * momOf y i b + posOf y i a * momOf x i b -
      (posOf x i b * momOf y i a + posOf y i b * momOf x i a)) / 2 := rfl

theorem angForm_self (nb : ℕ) (a b : Fin 3) (y : Fin (6 * nb) → ℝ) :
    angForm nb a b y y = angular a b (posOf y) (momOf y) := by
  rw [angForm_apply]
  exact Finset.sum_congr rfl fun i _ => by ring

theorem angForm_quad (P : Planets) (a b : Fin 3) : Quad (angForm P.nb a b) (field P) where
  symm x y := by
    rw [angForm_apply, angForm_apply]
    exact Finset.sum_congr rfl fun i _ => by ring
  zero y := by
    rw [angForm_apply]
    have h := torque P.G (mass P) (posOf y) a b
    have : ∀ i, (posOf y i a * momOf (field P y) i b + posOf (field P y) i a * momOf y i b -
        (posOf y i b * momOf (field P y) i a + posOf (field P y) i b * momOf y i a)) / 2 =
        -(1 / 2) * (posOf y i a * force P.G (mass P) (posOf y) i b -
          posOf y i b * force P.G (mass P) (posOf y) i a) := by
      intro i
      simp only [posOf_field, momOf_field]
      ring
    simp only [this]
    rw [← Finset.mul_sum, h, mul_zero]

/-- C91: angular momentum, for an exact tableau and exact stages. -/
theorem outer_angular (P : Planets) {c : Cfg ℝ (6 * P.nb)} (hf : c.f = field P) (hT : Tab c) (hS : Scal c)
    (hnar : ∀ x, c.narrow x = x) (hsym : ∀ i j, defect (tabA c) (tabB c) i j = 0)
    {st st' : St ℝ (6 * P.nb)} (hist : Hist c st) {h : ℝ} {u u' : Fin (6 * P.nb) → ℝ} {first : Bool}
    (hs : step c h u first st = some (true, u', st')) (hz : st'.tv = 0) (a b : Fin 3) :
    angular a b (posOf u') (momOf u') = angular a b (posOf u) (momOf u) := by
  have := symp_preserves hT hS hnar hsym hist hs hz (hf ▸ angForm_quad P a b)
  rwa [angForm_self, angForm_self] at this

/-- C89: the energy is a first integral of the right hand side, away from collisions. -/
theorem outer_energy (P : Planets) {y : ℝ → Fin (6 * P.nb) → ℝ} {t : ℝ}
    (hy : HasDerivAt y (field P (y t)) t) (h : Apart (posOf (y t))) :
    HasDerivAt (fun t => energy P.G (mass P) (posOf (y t)) (momOf (y t))) 0 t := by
  have hc := hasDerivAt_pi.1 hy
  refine energy_const P.G (σ := -1) (fun i s => ?_) (fun i s => ?_) h
  · exact (hc _).congr_deriv (posOf_field P (y t) i s)
  · exact (hc _).congr_deriv (momOf_field P (y t) i s)

end Odes.Symp.Test
