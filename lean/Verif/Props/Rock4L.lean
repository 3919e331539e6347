import Verif.Lemmas.Rock4LLin
import Verif.Lemmas.Rock4Control

/-!
# Rock4-L: one step (C59, C60, C62, C63)
-/

namespace Odes.Rock4L

open Matrix

variable {n : ℕ} {K : Type} [CommRing K]

/-- Contracts 5 and 7 of the user's operator, Rock4L.hpp 31-33 and 37-39:
`out = A*a*in + b*s` and `out = A*a*in + b*in + c*s`. -/
structure LinearOp (A : Matrix (Fin n) (Fin n) K) (O : Oper K n) : Prop where
  op5 : ∀ v s a b, O.op5 v s a b = a • (A *ᵥ v) + b • s
  op7 : ∀ v s a b c, O.op7 v s a b c = a • (A *ᵥ v) + b • v + c • s

/-- Contracts 5, 6 and 8 as documented, Rock4L.hpp 31-36 and 40-43:
`out = A*a*in + b*s + g` and `out = A*a*in + b*in + c*s + g`. -/
structure DocAffineOp (A : Matrix (Fin n) (Fin n) K) (O : Oper K n) : Prop where
  op5 : ∀ v s a b, O.op5 v s a b = a • (A *ᵥ v) + b • s
  op6 : ∀ v s a b g, O.op6 v s a b g = a • (A *ᵥ v) + b • s + g
  op8 : ∀ v s a b c g, O.op8 v s a b c g = a • (A *ᵥ v) + b • v + c • s + g

/-- The contracts which the shipped example implements (Rock4-L/test/F.hpp 52-67, 90-106):
`out = a*(A*in+g) + b*s` and `out = a*(A*in+g) + b*in + c*s`. -/
structure AffineOp (A : Matrix (Fin n) (Fin n) K) (O : Oper K n) : Prop where
  op5 : ∀ v s a b, O.op5 v s a b = a • (A *ᵥ v) + b • s
  op6 : ∀ v s a b g, O.op6 v s a b g = a • (A *ᵥ v + g) + b • s
  op8 : ∀ v s a b c g, O.op8 v s a b c g = a • (A *ᵥ v + g) + b • v + c • s

theorem val1_eq (A : Matrix (Fin n) (Fin n) K) (O : Oper K n) (hO : LinearOp A O) (T : Tab K)
    (mdeg mz mr : ℤ) (dt : K) (y : Fin n → K) :
    val1 O T mdeg mz mr dt y
      = Spec.Gen.step (formulaOf T mdeg mz mr) (fun v => A *ᵥ v) dt y := by
  have hg := gSeq_eq (fun v => A *ᵥ v) (O.op5 y y (dt * muOf T mr 1) 1) O.op7 (muOf T mr)
    (kapOf T mr) dt y (by rw [hO.op5, one_smul, add_comm]) hO.op7 mdeg.toNat
  have hf := finishing_affine (formulaOf T mdeg mz mr) A 0 dt
    (Spec.Gen.gRec (fun v => A *ᵥ v) (muOf T mr) (kapOf T mr) dt y mdeg.toNat)
  simp only [add_zero] at hf
  rw [val1, hg, Spec.Gen.step]
  refine Eq.trans ?_ hf.symm
  simp only [fin1, hO.op5, mulVec_add, mulVec_smul, hc4, hc3, hc2, hc1, coefOf, Coef.scale,
    formulaOf]
  norm_num
  module

theorem val2_eq (A : Matrix (Fin n) (Fin n) K) (O : Oper K n) (hO : AffineOp A O) (T : Tab K)
    (mdeg mz mr : ℤ) (dt : K) (b y : Fin n → K) :
    val2 O T mdeg mz mr dt b y
      = Spec.Gen.step (formulaOf T mdeg mz mr) (fun v => A *ᵥ v + b) dt y := by
  have hg := gSeq_eq (fun v => A *ᵥ v + b) (O.op6 y y (dt * muOf T mr 1) 1 b)
    (fun v s a1 a2 a3 => O.op8 v s a1 a2 a3 b) (muOf T mr)
    (kapOf T mr) dt y (by rw [hO.op6, one_smul, add_comm]) (fun v s a1 a2 a3 => hO.op8 v s a1 a2 a3 b)
    mdeg.toNat
  rw [val2, hg, Spec.Gen.step]
  refine Eq.trans ?_ (finishing_affine (formulaOf T mdeg mz mr) A b dt _).symm
  have e : ∀ u v : Fin n → K, (fun i => u i + v i) = u + v := fun _ _ => rfl
  simp only [fin2, e, hO.op5, mulVec_add, mulVec_smul, hc4, hc3, hc2, hc1, coefOf, formulaOf]
  norm_num
  module

/-- **C59** A step of the linear solver is a step of the general formula for `y' = A y`:
for every matrix, state, step, table and formula selected. -/
theorem rock4l_linear (A : Matrix (Fin n) (Fin n) K) (O : Oper K n) (hO : LinearOp A O)
    (T : Tab K) (mdeg mz mr : ℤ) (hs : Rock4.Sel mdeg mz mr) (heap : ℕ → Fin n → K) (y : ℕ)
    (hy : 4 ≤ y) (dt : K) :
    ∃ hp c, kernel1 O T mdeg mz mr heap y dt = some (hp, c) ∧
      hp y = Spec.Gen.step (formulaOf T mdeg mz mr) (fun v => A *ᵥ v) dt (heap y) ∧
      ∀ q, 4 ≤ q → q ≠ y → hp q = heap q := by
  obtain ⟨h1, h2, h3, h4, h5, h6⟩ := hs.bounds
  obtain ⟨hp, e1, e2, e3⟩ := kernel1_spec O T heap (y := y) dt hy h1 h3 h4 h5 (by omega)
  exact ⟨hp, _, e1, by rw [e2, val1_eq A O hO], e3⟩

/-- **C60** (the part that holds) With an operator which multiplies the constant part by `a`
too, as the shipped example does, a step of the affine solver is a step of the general
formula for `y' = A y + b`; `b` itself is not modified. -/
theorem rock4l_affine_partial (A : Matrix (Fin n) (Fin n) K) (O : Oper K n) (hO : AffineOp A O)
    (T : Tab K) (mdeg mz mr : ℤ) (hs : Rock4.Sel mdeg mz mr) (heap : ℕ → Fin n → K) (y b : ℕ)
    (hy : 4 ≤ y) (hb : 4 ≤ b) (dt : K) :
    ∃ hp c, kernel2 O T mdeg mz mr heap y b dt = some (hp, c) ∧
      hp y = Spec.Gen.step (formulaOf T mdeg mz mr) (fun v => A *ᵥ v + heap b) dt (heap y) ∧
      ∀ q, 4 ≤ q → q ≠ y → hp q = heap q := by
  obtain ⟨h1, h2, h3, h4, h5, h6⟩ := hs.bounds
  obtain ⟨hp, e1, e2, e3⟩ := kernel2_spec O T heap (y := y) (b := b) dt hy hb h1 h3 h4 h5
    (by omega)
  exact ⟨hp, _, e1, by rw [e2, val2_eq A O hO], e3⟩

/-- The operator of the documentation. -/
def docOp (A : Matrix (Fin n) (Fin n) K) : Oper K n where
  op5 v s a b := a • (A *ᵥ v) + b • s
  op6 v s a b g := a • (A *ᵥ v) + b • s + g
  op7 v s a b c := a • (A *ᵥ v) + b • v + c • s
  op8 v s a b c g := a • (A *ᵥ v) + b • v + c • s + g

/-- **C60** (negation) With the operator documented, the affine solver does not integrate
`y' = A y + b`: for `y' = 1` (`A = 0`, `b = 1`) and the formula of degree 1, whatever the
tables, the value computed differs from a step of the formula unless `dt * recf(1) = 1`. -/
theorem rock4l_affine_doc_wrong (T : Tab K) (dt : K) (hne : dt * T.recf 1 ≠ 1)
    (heap : ℕ → Fin 1 → K) (hb : heap 5 = fun _ => 1) :
    DocAffineOp (0 : Matrix (Fin 1) (Fin 1) K) (docOp 0) ∧
    ∃ hp c, kernel2 (docOp (0 : Matrix (Fin 1) (Fin 1) K)) T 1 1 1 heap 4 5 dt = some (hp, c) ∧
      hp 4 ≠ Spec.Gen.step (formulaOf T 1 1 1)
        (fun v => (0 : Matrix (Fin 1) (Fin 1) K) *ᵥ v + heap 5) dt (heap 4) := by
  refine ⟨⟨fun _ _ _ _ => rfl, fun _ _ _ _ _ => rfl, fun _ _ _ _ _ _ => rfl⟩, ?_⟩
  obtain ⟨hp, e1, e2, -⟩ := kernel2_spec (docOp (0 : Matrix (Fin 1) (Fin 1) K)) T (mdeg := 1)
    (mz := 1) (mr := 1) heap (y := 4) (b := 5) dt le_rfl (by omega) le_rfl le_rfl (by omega) le_rfl
    (by omega)
  refine ⟨hp, _, e1, ?_⟩
  rw [e2]
  intro h
  have h0 := congrFun h 0
  rw [Spec.Gen.step] at h0
  have hf := congrFun (finishing_affine (formulaOf T 1 1 1) 0 (heap 5) dt
    (Spec.Gen.gRec (fun v => (0 : Matrix (Fin 1) (Fin 1) K) *ᵥ v + heap 5)
      (formulaOf T 1 1 1).mu (formulaOf T 1 1 1).kap dt (heap 4) (formulaOf T 1 1 1).deg)) 0
  rw [hf] at h0
  simp [val2, fin2, docOp, coefOf, formulaOf, gSeq, Spec.Gen.gRec, muOf, hb, hc1, hc2, hc3,
    hc4] at h0
  apply hne
  linear_combination -h0

/-- hypotheses of `rock4l_affine_doc_wrong` and `rock4l_linear` are met, e.g. by a table whose
first entry is `1/2` and a unit step. -/
example : (1 : ℚ) * (⟨fun _ => 1 / 2, fun _ _ => 0, fun _ _ => 0⟩ : Tab ℚ).recf 1 ≠ 1 := by
  norm_num

example : Rock4.Sel 2 2 2 := ⟨1, by decide, by decide, by decide, by decide⟩

example (A : Matrix (Fin n) (Fin n) K) : LinearOp A (docOp A) :=
  ⟨fun _ _ _ _ => rfl, fun _ _ _ _ _ => rfl⟩

/-- **C62** (the part that holds) A step applies the user's operator `mdeg + 4` times, in both
modes, for every formula. -/
theorem rock4l_applications (O : Oper K n) (T : Tab K) (mdeg mz mr : ℤ)
    (hs : Rock4.Sel mdeg mz mr) (heap : ℕ → Fin n → K) (y b : ℕ) (hy : 4 ≤ y) (hb : 4 ≤ b)
    (dt : K) :
    (∃ hp, kernel1 O T mdeg mz mr heap y dt = some (hp, mdeg.toNat + 4)) ∧
    (∃ hp, kernel2 O T mdeg mz mr heap y b dt = some (hp, mdeg.toNat + 4)) := by
  obtain ⟨h1, h2, h3, h4, h5, h6⟩ := hs.bounds
  obtain ⟨hp, e1, -⟩ := kernel1_spec O T heap (y := y) dt hy h1 h3 h4 h5 (by omega)
  obtain ⟨hp', e1', -⟩ := kernel2_spec O T heap (y := y) (b := b) dt hy hb h1 h3 h4 h5 (by omega)
  exact ⟨⟨hp, e1⟩, ⟨hp', e1'⟩⟩

/-- **C63** (Rock4L) Calling the entry point of the other mode throws, and object and memory
are left as they were. -/
theorem rock4l_mode (Affine aff : Bool) (o : St n) (rho : X) (y b : ℕ) (t0 h0 : X)
    (h : Affine ≠ aff) : enter Affine aff o rho y b t0 h0 = (o, some .badMode) := by
  unfold enter
  rw [if_neg h]

/-- **C63** Calling the right entry point does not throw `badMode`, and `y` is intact when the
loop starts. -/
theorem rock4l_mode_ok (aff : Bool) (o : St n) (rho : X) (y b : ℕ) (t0 h0 : X) :
    (enter aff aff o rho y b t0 h0).2 = none ∧
    (enter aff aff o rho y b t0 h0).1.heap = o.heap := by
  unfold enter
  rw [if_pos rfl]
  exact ⟨rfl, rfl⟩

end Odes.Rock4L
