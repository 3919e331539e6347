import Verif.Spec.PolyField
import Verif.Lemmas.Rock4Tab
import Verif.Lemmas.Order4Poly
import Verif.Lemmas.GenHom
import Verif.Lemmas.Rock4Progress
import Verif.Lemmas.Rock4LLoop
import Verif.Props.Rock4
import Mathlib.RingTheory.Ideal.Quotient.Operations
import Mathlib.Algebra.Polynomial.AlgebraMap
import Mathlib.Algebra.Polynomial.Eval.Coeff

/-!
# C58, C81: the coefficient tables of the ROCK4 family
-/

namespace Odes

open Rock4Check
open Rock4 (Sel MS)
open Spec

noncomputable section

/-! ### the tables -/

/-- C58: the list of degrees is strictly increasing, the blocks of the recurrence table tile it
(the block of formula `k` has `2 m_k - 1` entries and starts where the previous one ends, the last
one ends at the end of the array), and the arrays have the sizes declared in the source, in both
copies. -/
theorem rock4_tables_tile :
    MS.length = 50 ∧ MS.Pairwise (· < ·) ∧
    (∀ k : Fin 50, (Tables.Rock4.recf.getD k []).length = 2 * (MS.getD k 0).toNat - 1 ∧
      (Tables.Rock4L.recf.getD k []).length = 2 * (MS.getD k 0).toNat - 1) ∧
    (Tables.Rock4.recf.flatten.length : ℤ) + 1 = blockStart MS 50 ∧
    (Tables.Rock4L.recf.flatten.length : ℤ) + 1 = blockStart MS 50 ∧
    Tables.Rock4.recf.flatten.length = 4382 ∧
    Tables.Rock4.fpa.flatten.length = 300 ∧ Tables.Rock4L.fpa.flatten.length = 300 ∧
    Tables.Rock4.fpb.flatten.length = 200 ∧ Tables.Rock4L.fpb.flatten.length = 200 ∧
    Tables.Rock4.fpbe.flatten.length = 250 ∧ Tables.Rock4L.fpbe.flatten.length = 250 := by
  decide +kernel

/-- two literals agree up to a unit of the sixteenth significant digit. -/
def closeLit (a b : ℤ) : Bool := (a - b).natAbs * 1000000000000000 ≤ b.natAbs

/-- two lists agree entry by entry. -/
def closeList : List ℤ → List ℤ → Bool
  | [], [] => true
  | a :: l, b :: m => closeLit a b && closeList l m
  | _, _ => false


theorem closeLit_sound {a b : ℤ} (h : closeLit a b = true) :
    |lit a - lit b| ≤ 1e-15 * |lit b| := by
  have h' : (a - b).natAbs * 1000000000000000 ≤ b.natAbs := by simpa [closeLit] using h
  have h2 : |(a - b : ℤ)| * 1000000000000000 ≤ |b| := by
    rw [Int.abs_eq_natAbs, Int.abs_eq_natAbs]; exact_mod_cast h'
  have h3 : |(a : ℝ) - b| * 1000000000000000 ≤ |(b : ℝ)| := by exact_mod_cast h2
  unfold lit
  rw [← sub_div, abs_div, abs_div, mul_div_assoc']
  apply div_le_div_of_nonneg_right _ (abs_nonneg _)
  linarith

theorem closeList_sound : ∀ (l m : List ℤ), closeList l m = true →
    ∀ i, closeLit (l.getD i 0) (m.getD i 0) = true
  | [], [], _, i => by simp [closeLit]
  | a :: l, b :: m, h, 0 => by
    simp only [closeList, Bool.and_eq_true] at h
    simpa using h.1
  | a :: l, b :: m, h, i + 1 => by
    simp only [closeList, Bool.and_eq_true] at h
    simpa using closeList_sound l m h.2 i
  | [], _ :: _, h, _ => by simp [closeList] at h
  | _ :: _, [], h, _ => by simp [closeList] at h

theorem close_recf :
    closeList Tables.Rock4.recf.flatten Tables.Rock4L.recf.flatten = true := by
  decide +kernel

theorem close_fp :
    (∀ k : Fin 50, ∀ j : Fin 6, closeLit (flatAt Tables.Rock4.fpa (j * 50 + k))
      (flatAt Tables.Rock4L.fpa (k * 6 + j)) = true) ∧
    (∀ k : Fin 50, ∀ j : Fin 4, closeLit (flatAt Tables.Rock4.fpb (j * 50 + k))
      (flatAt Tables.Rock4L.fpb (k * 4 + j)) = true) ∧
    (∀ k : Fin 50, ∀ j : Fin 5, closeLit (flatAt Tables.Rock4.fpbe (j * 50 + k))
      (flatAt Tables.Rock4L.fpbe (k * 5 + j)) = true) := by
  decide +kernel

/-- C58 (first part, up to rounding): through their different index computations the two copies
of the tables give the same numbers, up to one unit in the sixteenth digit.  Missing: equality,
which is false (`not_rock4_tables_equal`). -/
theorem rock4_tables_agree_partial :
    (∀ i, |Rock4.realTab.recf i - Rock4L.shipped.recf i| ≤ 1e-15 * |Rock4L.shipped.recf i|) ∧
    (∀ i j, 1 ≤ i → i ≤ 50 → 1 ≤ j → j ≤ 6 → |Rock4.realTab.fpa i j - Rock4L.shipped.fpa i j|
      ≤ 1e-15 * |Rock4L.shipped.fpa i j|) ∧
    (∀ i j, 1 ≤ i → i ≤ 50 → 1 ≤ j → j ≤ 4 → |Rock4.realTab.fpb i j - Rock4L.shipped.fpb i j|
      ≤ 1e-15 * |Rock4L.shipped.fpb i j|) ∧
    (∀ i j, 1 ≤ i → i ≤ 50 → 1 ≤ j → j ≤ 5 → |Rock4.realFpbe i j - Rock4L.shippedFpbe i j|
      ≤ 1e-15 * |Rock4L.shippedFpbe i j|) := by
  obtain ⟨c1, c2, c3⟩ := close_fp
  refine ⟨fun i => closeLit_sound (closeList_sound _ _ close_recf (i - 1)), ?_, ?_, ?_⟩
  · intro i j h1 h2 h3 h4
    exact closeLit_sound (c1 ⟨i - 1, by omega⟩ ⟨j - 1, by omega⟩)
  · intro i j h1 h2 h3 h4
    exact closeLit_sound (c2 ⟨i - 1, by omega⟩ ⟨j - 1, by omega⟩)
  · intro i j h1 h2 h3 h4
    exact closeLit_sound (c3 ⟨i - 1, by omega⟩ ⟨j - 1, by omega⟩)

/-- the two copies do not contain the same numbers: entry 5 of the recurrence tables. -/
theorem not_rock4_tables_equal : Rock4.realTab.recf 6 ≠ Rock4L.shipped.recf 6 := by
  intro h
  have h' : lit (flatAt Tables.Rock4.recf 5) = lit (flatAt Tables.Rock4L.recf 5) := h
  have hne : flatAt Tables.Rock4.recf 5 ≠ flatAt Tables.Rock4L.recf 5 := by decide +kernel
  unfold lit at h'
  rw [div_left_inj' (by norm_num)] at h'
  exact hne (by exact_mod_cast h')

/-! ### order -/

/-- the largest defect of the weights of the trees with at most three nodes. -/
def Small3 (δ : W8 ℝ) : Prop := |δ.t1| ≤ 1e-14 ∧ |δ.t2| ≤ 1e-14 ∧ |δ.t3| ≤ 1e-14 ∧ |δ.t4| ≤ 1e-14

/-- the largest defect of the weights of the trees with at most four nodes. -/
def Small4 (δ : W8 ℝ) : Prop := Small3 δ ∧ |δ.t5| ≤ 1e-14 ∧ |δ.t6| ≤ 1e-14 ∧ |δ.t7| ≤ 1e-14 ∧
  |δ.t8| ≤ 1e-14

theorem small3 {w : W8 ℝ} (h : Near3 w) : Small3 (w.add (Taylor.exact8.smul (-1))) := by
  obtain ⟨h1, h2, h3, h4⟩ := h
  refine ⟨?_, ?_, ?_, ?_⟩ <;> simp only [W8.add, W8.smul, Taylor.exact8]
  · convert h1 using 2; ring
  · convert h2 using 2; ring
  · convert h3 using 2; ring
  · convert h4 using 2; ring

theorem small4 {w : W8 ℝ} (h : Near4 w) : Small4 (w.add (Taylor.exact8.smul (-1))) := by
  obtain ⟨h0, h1, h2, h3, h4⟩ := h
  refine ⟨small3 h0, ?_, ?_, ?_, ?_⟩ <;> simp only [W8.add, W8.smul, Taylor.exact8]
  · convert h1 using 2; ring
  · convert h2 using 2; ring
  · convert h3 using 2; ring
  · convert h4 using 2; ring

variable {n : ℕ} {J : Type} [CommRing J] [Algebra ℝ J]

/-- C81: **every formula of the adaptive solver's table has order four** (defects of the weights
at most 1e-14): for every commutative real algebra with a step length `ε`, `ε^5 = 0`, and
every field with a Taylor expansion at `y`, one step started at `y` is the exact solution plus
the combination of elementary differentials with defects `δ`. -/
theorem rock4_shipped_order {d mz mr : ℤ} (hs : Sel d mz mr) {ε : J} (hε : ε ^ 5 = 0)
    {F : (Fin n → J) → Fin n → J} {y : Fin n → J} (D : Taylor ε F y) :
    ∃ δ : W8 ℝ, Small4 δ ∧
      Gen.step ((Rock4L.formulaOf Rock4.realTab d mz mr).map cst) F ε y
        = D.flow + ε • D.ser (δ.map cst) := by
  refine ⟨_, small4 (Rock4.order_tab hs).1, ?_⟩
  rw [D.step_ser hε, ← D.defect]
  congr 3
  exact wStep_map (algebraMap ℝ J) _

/-- C81: **and its embedded formula has order three.** -/
theorem rock4_shipped_embedded_order {d mz mr : ℤ} (hs : Sel d mz mr) {ε : J} (hε : ε ^ 5 = 0)
    {F : (Fin n → J) → Fin n → J} {y : Fin n → J} (D : Taylor ε F y) :
    ∃ δ : W8 ℝ, Small3 δ ∧
      Gen.embedded ((Rock4L.formulaOf Rock4.realTab d mz mr).map cst)
        (fun j => cst (Rock4.realFpbe mz.toNat (j + 1))) F ε y
        = D.flow + ε • D.ser (δ.map cst) := by
  refine ⟨_, small3 (Rock4.order_tab hs).2, ?_⟩
  rw [D.embedded_ser hε, ← D.defect]
  congr 3
  exact wEmb_map (algebraMap ℝ J) _ _

/-- C81: every formula of the linear solver's table has order four. -/
theorem rock4l_shipped_order {d mz mr : ℤ} (hs : Sel d mz mr) {ε : J} (hε : ε ^ 5 = 0)
    {F : (Fin n → J) → Fin n → J} {y : Fin n → J} (D : Taylor ε F y) :
    ∃ δ : W8 ℝ, Small4 δ ∧
      Gen.step ((Rock4L.formulaOf Rock4L.shipped d mz mr).map cst) F ε y
        = D.flow + ε • D.ser (δ.map cst) := by
  refine ⟨_, small4 (Rock4L.order_tab hs).1, ?_⟩
  rw [D.step_ser hε, ← D.defect]
  congr 3
  exact wStep_map (algebraMap ℝ J) _

/-- C81: and the (unused) embedded weights of that copy have order three. -/
theorem rock4l_shipped_embedded_order {d mz mr : ℤ} (hs : Sel d mz mr) {ε : J} (hε : ε ^ 5 = 0)
    {F : (Fin n → J) → Fin n → J} {y : Fin n → J} (D : Taylor ε F y) :
    ∃ δ : W8 ℝ, Small3 δ ∧
      Gen.embedded ((Rock4L.formulaOf Rock4L.shipped d mz mr).map cst)
        (fun j => cst (Rock4L.shippedFpbe mz.toNat (j + 1))) F ε y
        = D.flow + ε • D.ser (δ.map cst) := by
  refine ⟨_, small3 (Rock4L.order_tab hs).2, ?_⟩
  rw [D.embedded_ser hε, ← D.defect]
  congr 3
  exact wEmb_map (algebraMap ℝ J) _ _

/-! ### the same over the reals -/

/-- real polynomials modulo `h^5`. -/
abbrev Trunc : Type := Polynomial ℝ ⧸ Ideal.span {(Polynomial.X : Polynomial ℝ) ^ 5}

/-- the class of `h`. -/
def hbar : Trunc := Ideal.Quotient.mk _ Polynomial.X

theorem hbar_pow : hbar ^ 5 = 0 := by
  rw [hbar, ← map_pow, Ideal.Quotient.eq_zero_iff_mem]
  exact Ideal.subset_span rfl

/-- `hbar` is not a trivial step: `hbar^4 ≠ 0`. -/
theorem hbar_ne : hbar ^ 4 ≠ 0 := by
  rw [hbar, ← map_pow, Ne, Ideal.Quotient.eq_zero_iff_mem, Ideal.mem_span_singleton]
  intro h
  obtain ⟨q, hq⟩ := h
  have := congrArg (fun p => Polynomial.coeff p 4) hq
  simp [Polynomial.coeff_X_pow_mul'] at this

/-- the step for a polynomial field is a polynomial in the step length; its terms of degree at
most four are determined by the step with `h^5 = 0`. -/
theorem step_poly (R : Gen.Formula ℝ) (P : Fin n → MvPolynomial (Fin n) ℝ) (y : Fin n → ℝ) :
    ∃ S : Fin n → Polynomial ℝ,
      (∀ h i, Gen.step R (polyField P) h y i = (S i).eval h) ∧
      ∀ i, (Ideal.Quotient.mk _ (S i) : Trunc)
        = Gen.step (R.map cst) (polyField P) hbar (fun i => cst (y i)) i := by
  refine ⟨Gen.step (R.map Polynomial.C) (polyField P) Polynomial.X (fun i => Polynomial.C (y i)),
    ?_, ?_⟩
  · intro h i
    have e := Gen.step_hom (φ := Polynomial.eval h) (F := polyField P) (G := polyField P)
      (fun a b => Polynomial.eval_add) (fun a b => Polynomial.eval_mul)
      (fun a b => Polynomial.eval_sub a b h) Polynomial.eval_one
      (fun v i => by
        have := (Polynomial.aeval (R := ℝ) h).comp_apply (MvPolynomial.aeval v) (P i)
        simp only [polyField]
        rw [← Polynomial.coe_aeval_eq_eval]
        rw [← AlgHom.comp_apply, MvPolynomial.comp_aeval])
      (R.map Polynomial.C) Polynomial.X (fun i => Polynomial.C (y i)) i
    rw [← e]
    simp [Gen.Formula.map]
  · intro i
    have e := Gen.step_hom (φ := (Ideal.Quotient.mk (Ideal.span {(Polynomial.X : Polynomial ℝ) ^ 5})))
      (F := polyField P) (G := polyField P)
      (fun a b => map_add _ a b) (fun a b => map_mul _ a b)
      (fun a b => map_sub _ a b) (map_one _)
      (fun v i => by
        simp only [polyField]
        rw [← Ideal.Quotient.mkₐ_eq_mk ℝ, ← AlgHom.comp_apply, MvPolynomial.comp_aeval])
      (R.map Polynomial.C) Polynomial.X (fun i => Polynomial.C (y i)) i
    rw [← e]
    rfl

/-- C81, over the reals: for a polynomial field the result of one step of any formula of the table
is a polynomial in `h`; modulo `h^5` it is the exact solution, up to defects of 1e-14. -/
theorem rock4_shipped_order_real {d mz mr : ℤ} (hs : Sel d mz mr)
    (P : Fin n → MvPolynomial (Fin n) ℝ) (y : Fin n → ℝ) :
    ∃ (S : Fin n → Polynomial ℝ) (D : Taylor hbar (polyField P) (fun i => cst (y i)))
      (δ : W8 ℝ), Small4 δ ∧
      (∀ h i, Gen.step (Rock4L.formulaOf Rock4.realTab d mz mr) (polyField P) h y i
        = (S i).eval h) ∧
      ∀ i, (Ideal.Quotient.mk _ (S i) : Trunc) = (D.flow + hbar • D.ser (δ.map cst)) i := by
  obtain ⟨S, h1, h2⟩ := step_poly (Rock4L.formulaOf Rock4.realTab d mz mr) P y
  obtain ⟨D⟩ : Nonempty (Taylor hbar (polyField P) (fun i => (cst (y i) : Trunc))) :=
    taylor_poly hbar (fun i => (cst (y i) : Trunc)) P
  obtain ⟨δ, h3, h4⟩ := rock4_shipped_order hs hbar_pow D
  exact ⟨S, D, δ, h3, h1, fun i => by rw [h2, ← h4]⟩

/-- C81 for the code: with the shipped tables and a real right hand side, one kernel call
computes one step of the real formula, whose order the previous theorems give. -/
theorem rock4_kernel_shipped (P : Rock4.Problem n) (F : (Fin n → ℝ) → Fin n → ℝ)
    (hP : ∀ v, P.F (Rock4L.up v) = Rock4L.up (F v)) (s : Rock4.St n) (dt : ℝ) (y : Fin n → ℝ)
    (hd : Rock4.Distinct s) (hsel : Sel s.mdeg s.mp1 s.mp2)
    (hfn : s.heap s.fn = P.F (s.heap s.y)) (hy : s.heap s.y = Rock4L.up y) :
    ∃ s' err, Rock4.kernel P Rock4.shipped s (X.fin dt) = some (s', err) ∧
      s'.heap s'.temp
        = Rock4L.up (Gen.step (Rock4L.formulaOf Rock4.realTab s.mdeg s.mp1 s.mp2) F dt y) := by
  obtain ⟨s', h1, h2, -⟩ := Rock4.rock4_kernel_formula P Rock4.shipped s (X.fin dt) hd hsel hfn
  refine ⟨s', _, h1, ?_⟩
  rw [h2, hy, ← Gen.step_X]
  funext i
  have e := Gen.step_hom (φ := X.fin) (F := F) (G := P.F) (fun a b => (X.fin_add a b).symm)
    (fun a b => (X.fin_mul a b).symm) (fun a b => (X.fin_sub a b).symm) X.one_eq.symm
    (fun v i => by rw [show (fun j => X.fin (v j)) = Rock4L.up v from rfl, hP]; rfl)
    (Rock4L.formulaOf Rock4.realTab s.mdeg s.mp1 s.mp2) dt y i
  rw [show Rock4L.up (Gen.step (Rock4L.formulaOf Rock4.realTab s.mdeg s.mp1 s.mp2) F dt y) i
    = X.fin (Gen.step (Rock4L.formulaOf Rock4.realTab s.mdeg s.mp1 s.mp2) F dt y i) from rfl, ← e]
  congr 2
  simp only [Rock4.formulaOf, Rock4L.formulaOf]
  funext j
  unfold Rock4.muOf Rock4L.muOf
  split_ifs <;> rfl

/-- the shipped tables meet the hypotheses of the theorems on the adaptive solver. -/
theorem rock4_shipped_finite : Rock4.shipped.Finite :=
  ⟨fun _ => ⟨_, rfl⟩, fun _ _ => ⟨_, rfl⟩, fun _ _ => ⟨_, rfl⟩, fun _ _ => ⟨_, rfl⟩⟩

/-- a selection exists, so the theorems are not empty: first and last formulas. -/
example : Sel 1 1 1 ∧ Sel 148 50 4088 := by
  refine ⟨⟨0, by norm_num, ?_, ?_, ?_⟩, ⟨49, by norm_num, ?_, ?_, ?_⟩⟩ <;> decide +kernel

/-- the field `y' = y^2` in one dimension. -/
example : Nonempty (Taylor hbar (polyField (fun _ => MvPolynomial.X (0 : Fin 1) ^ 2))
    (fun _ => (cst 1 : Trunc))) :=
  taylor_poly hbar (fun _ : Fin 1 => (cst 1 : Trunc)) (fun _ => MvPolynomial.X (0 : Fin 1) ^ 2)

end

end Odes
