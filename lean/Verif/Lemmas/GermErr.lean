import Verif.Lemmas.GermFlow

/-!
# Error of one step along a solution, and what the errors add up to
-/

namespace Odes

noncomputable section

open Spec Germ

variable {n : ℕ} {t0 te : ℝ}

/-- all defects at most `η`. -/
def Below (η : ℝ) (δ : W8 ℝ) : Prop :=
  |δ.t1| ≤ η ∧ |δ.t2| ≤ η ∧ |δ.t3| ≤ η ∧ |δ.t4| ≤ η ∧ |δ.t5| ≤ η ∧ |δ.t6| ≤ η ∧ |δ.t7| ≤ η ∧ |δ.t8| ≤ η

theorem bound_common {Θ : Type} (e : Fin n → bdd Θ) : ∃ M, 0 ≤ M ∧ ∀ i θ, |(e i).1 θ| ≤ M := by
  choose M hM using fun i => (e i).2
  refine ⟨∑ j, |M j|, Finset.sum_nonneg fun j _ => abs_nonneg _, fun i θ => ?_⟩
  exact ((hM i θ).trans (le_abs_self _)).trans
    (Finset.single_le_sum (f := fun j => |M j|) (fun j _ => abs_nonneg _) (Finset.mem_univ i))

theorem const_common {p : Fin n → ℝ → Prop} (mono : ∀ i C D, C ≤ D → p i C → p i D)
    (h : ∀ i, ∃ C, p i C) : ∃ C, 0 ≤ C ∧ ∀ i, p i C := by
  choose C hC using h
  refine ⟨∑ j, |C j|, Finset.sum_nonneg fun j _ => abs_nonneg _, fun i => mono i (C i) _ ?_ (hC i)⟩
  exact (le_abs_self _).trans
    (Finset.single_le_sum (f := fun j => |C j|) (fun j _ => abs_nonneg _) (Finset.mem_univ i))

/-- a term of the sum of the defects. -/
theorem term_le {s c d e η M : ℝ} (hs : |s| ≤ 1) (hc : |c| ≤ 1) (hd : |d| ≤ η) (he : |e| ≤ M) :
    |s * (c * d * e)| ≤ η * M := by
  have h0 : 0 ≤ η := (abs_nonneg _).trans hd
  rw [abs_mul, abs_mul, abs_mul]
  have h1 : |c| * |d| * |e| ≤ 1 * η * M :=
    mul_le_mul (mul_le_mul hc hd (abs_nonneg _) zero_le_one) he (abs_nonneg _) (by linarith)
  have h2 : 0 ≤ |c| * |d| * |e| := by positivity
  calc |s| * (|c| * |d| * |e|) ≤ 1 * (1 * η * M) := mul_le_mul hs h1 h2 zero_le_one
    _ = η * M := by ring

/-- the sum of the defects. -/
theorem defect_le {η h M : ℝ} {δ : W8 ℝ} (hδ : Below η δ) (hh : 0 ≤ h) (hle : h ≤ 1)
    {e : Fin 8 → ℝ} (b : ∀ k, |e k| ≤ M) :
    |δ.t1 * e 0 + h * δ.t2 * e 1 + h ^ 2 * (δ.t3 * (1 / 2) * e 2 + δ.t4 * e 3)
        + h ^ 3 * (δ.t5 * (1 / 6) * e 4 + δ.t6 * e 5 + δ.t7 * (1 / 2) * e 6 + δ.t8 * e 7)|
      ≤ 8 * η * M := by
  obtain ⟨d1, d2, d3, d4, d5, d6, d7, d8⟩ := hδ
  have s1 : |h| ≤ 1 := by rw [abs_of_nonneg hh]; exact hle
  have s2 : |h ^ 2| ≤ 1 := by rw [abs_pow]; exact pow_le_one₀ (abs_nonneg _) s1
  have s3 : |h ^ 3| ≤ 1 := by rw [abs_pow]; exact pow_le_one₀ (abs_nonneg _) s1
  have o1 : |(1 : ℝ)| ≤ 1 := by norm_num
  have o2 : |(1 / 2 : ℝ)| ≤ 1 := by rw [abs_of_pos] <;> norm_num
  have o6 : |(1 / 6 : ℝ)| ≤ 1 := by rw [abs_of_pos] <;> norm_num
  have r1 := abs_le.1 (term_le o1 o1 d1 (b 0))
  have r2 := abs_le.1 (term_le s1 o1 d2 (b 1))
  have r3 := abs_le.1 (term_le s2 o2 d3 (b 2))
  have r4 := abs_le.1 (term_le s2 o1 d4 (b 3))
  have r5 := abs_le.1 (term_le s3 o6 d5 (b 4))
  have r6 := abs_le.1 (term_le s3 o1 d6 (b 5))
  have r7 := abs_le.1 (term_le s3 o2 d7 (b 6))
  have r8 := abs_le.1 (term_le s3 o1 d8 (b 7))
  rw [abs_le]
  constructor <;> linarith [r1.1, r1.2, r2.1, r2.2, r3.1, r3.2, r4.1, r4.2, r5.1, r5.2, r6.1, r6.2,
      r7.1, r7.2, r8.1, r8.2]

/-- the three parts of the error. -/
theorem parts_le {f p z h T C0 Cp M η : ℝ} (hh : 0 ≤ h)
    (q0 : |f - (p + h * T)| ≤ C0 * |h| ^ 5) (q1 : |p - z| ≤ Cp * h ^ 5)
    (hT : |T| ≤ 8 * η * M) : |f - z| ≤ (C0 + Cp) * h ^ 5 + 8 * η * M * h := by
  rw [abs_of_nonneg hh] at q0
  have e : f - z = (f - (p + h * T)) + (p - z) + h * T := by ring
  rw [e]
  refine (abs_add_three _ _ _).trans ?_
  have hT2 : |h * T| ≤ 8 * η * M * h := by
    rw [abs_mul, abs_of_nonneg hh]
    have := mul_le_mul_of_nonneg_left hT hh
    linarith
  linarith

section elementary

variable {A B : Type} [CommRing A] [Algebra ℝ A] [CommRing B] [Algebra ℝ B]

theorem D1_hom (φ : A →ₐ[ℝ] B) (y : Fin n → A) (p : MvPolynomial (Fin n) ℝ)
    (u : Fin n → MvPolynomial (Fin n) ℝ) :
    Taylor1.D1 (fun i => φ (y i)) p (fun i => φ (MvPolynomial.aeval y (u i)))
      = φ (MvPolynomial.aeval y (der1 p u)) := by
  simp only [Taylor1.D1, der1, map_sum, map_mul]
  exact Finset.sum_congr rfl fun j _ => by rw [aeval_hom]

theorem D2_hom (φ : A →ₐ[ℝ] B) (y : Fin n → A) (p : MvPolynomial (Fin n) ℝ)
    (u v : Fin n → MvPolynomial (Fin n) ℝ) :
    Taylor1.D2 (fun i => φ (y i)) p (fun i => φ (MvPolynomial.aeval y (u i)))
      (fun i => φ (MvPolynomial.aeval y (v i))) = φ (MvPolynomial.aeval y (der2 p u v)) := by
  simp only [Taylor1.D2, der2, map_sum, map_mul]
  exact Finset.sum_congr rfl fun j _ => by rw [D1_hom]

theorem D3_hom (φ : A →ₐ[ℝ] B) (y : Fin n → A) (p : MvPolynomial (Fin n) ℝ)
    (u v w : Fin n → MvPolynomial (Fin n) ℝ) :
    Taylor1.D3 (fun i => φ (y i)) p (fun i => φ (MvPolynomial.aeval y (u i)))
      (fun i => φ (MvPolynomial.aeval y (v i))) (fun i => φ (MvPolynomial.aeval y (w i)))
      = φ (MvPolynomial.aeval y (der3 p u v w)) := by
  simp only [Taylor1.D3, der3, map_sum, map_mul]
  exact Finset.sum_congr rfl fun j _ => by rw [D2_hom]

end elementary

/-- **the error of one step that starts on the solution**, for a step that is the exact solution up to
`ε^5` and up to the defects `δ` of its weights; `D0` bounds the elementary differentials. -/
theorem local_error {P : Fin n → MvPolynomial (Fin n) ℝ} {y : ℝ → Fin n → ℝ}
    (hy : SolOn (polyField P) y t0 te) {R : ℝ} (hR : ∀ t ∈ Set.Icc t0 te, ‖y t‖ ≤ R) {η D0 : ℝ}
    (hD0 : 0 ≤ D0) (hel : ElemLe P y t0 te D0)
    (φ : Fin n → bdd (Steps t0 te)) (δ : W8 ℝ) (hδ : Below η δ)
    (hφ : ∀ D : Taylor (cls (hB t0 te) (hB t0 te)) (polyField P) (fun i => cls (hB t0 te) (yB hR i)),
      (∀ u i, D.f1 u i = ∑ j, cls (hB t0 te) (MvPolynomial.aeval (yB hR) (MvPolynomial.pderiv j (P i)))
        * u j) →
      (fun i => cls (hB t0 te) (φ i)) = D.flow + cls (hB t0 te) (hB t0 te) • D.ser (δ.map cst)) :
    ∃ C, 0 ≤ C ∧ ∀ θ : Steps t0 te,
      ‖(fun i => (φ i).1 θ) - y (θ.t + θ.h)‖ ≤ C * θ.h ^ 5 + 8 * η * D0 * θ.h := by
  obtain ⟨D, hD, hf1, hf2, hf3, hf⟩ := taylor_poly_inside (cls (hB t0 te) (hB t0 te))
    (fun i => cls (hB t0 te) (yB hR i)) (timeOnly t0 te) (yB_timeOnly hR) P
  obtain ⟨p, hp, Cp, cp0, hCp⟩ := flow_near hy hR D hD hf
  have hφ' := hφ D (fun u i => by
    rw [hf1]
    exact Finset.sum_congr rfl fun j _ => by rw [aeval_hom])
  let e : Fin 8 → Fin n → bdd (Steps t0 te) := fun k i => MvPolynomial.aeval (yB hR) (elem P k i)
  have eb : ∀ k i (θ : Steps t0 te), |(e k i).1 θ| ≤ D0 := by
    intro k i θ
    have h1 : (e k i).1 θ = MvPolynomial.aeval (y θ.t) (elem P k i) :=
      (aeval_hom (ev θ) (elem P k i) (yB hR)).symm
    rw [h1]
    exact hel θ.t ⟨θ.ge, by linarith [θ.pos, θ.fits]⟩ k i
  have a1 : D.f = fun i => cls (hB t0 te) (e 0 i) := by
    rw [hf]
    exact funext fun i => aeval_hom _ _ _
  have a2 : D.f1 D.f = fun i => cls (hB t0 te) (e 1 i) := by
    funext i; rw [hf1, a1]; exact D1_hom _ _ _ _
  have a3 : D.f2 D.f D.f = fun i => cls (hB t0 te) (e 2 i) := by
    funext i; rw [hf2, a1]; exact D2_hom _ _ _ _ _
  have a4 : D.f1 (D.f1 D.f) = fun i => cls (hB t0 te) (e 3 i) := by
    funext i; rw [hf1, a2]; exact D1_hom _ _ _ _
  have a5 : D.f3 D.f D.f D.f = fun i => cls (hB t0 te) (e 4 i) := by
    funext i; rw [hf3, a1]; exact D3_hom _ _ _ _ _ _
  have a6 : D.f2 D.f (D.f1 D.f) = fun i => cls (hB t0 te) (e 5 i) := by
    funext i; rw [hf2, a2, a1]; exact D2_hom _ _ _ _ _
  have a7 : D.f1 (D.f2 D.f D.f) = fun i => cls (hB t0 te) (e 6 i) := by
    funext i; rw [hf1, a3]; exact D1_hom _ _ _ _
  have a8 : D.f1 (D.f1 (D.f1 D.f)) = fun i => cls (hB t0 te) (e 7 i) := by
    funext i; rw [hf1, a4]; exact D1_hom _ _ _ _
  let c : ℝ → bdd (Steps t0 te) := fun r => algebraMap ℝ _ r
  have hc : ∀ r, cls (hB t0 te) (c r) = cst r := fun r => AlgHom.commutes _ r
  have key : ∀ i, cls (hB t0 te) (φ i) = cls (hB t0 te) (p i + hB t0 te * (c δ.t1 * e 0 i
      + hB t0 te * c δ.t2 * e 1 i
      + hB t0 te ^ 2 * (c δ.t3 * c (1 / 2) * e 2 i + c δ.t4 * e 3 i)
      + hB t0 te ^ 3 * (c δ.t5 * c (1 / 6) * e 4 i + c δ.t6 * e 5 i + c δ.t7 * c (1 / 2) * e 6 i
        + c δ.t8 * e 7 i))) := by
    intro i
    rw [congrFun hφ' i]
    have b1 := (congrFun a1 i).symm
    have b2 := (congrFun a2 i).symm
    have b3 := (congrFun a3 i).symm
    have b4 := (congrFun a4 i).symm
    have b5 := (congrFun a5 i).symm
    have b6 := (congrFun a6 i).symm
    have b7 := (congrFun a7 i).symm
    have b8 := (congrFun a8 i).symm
    simp only [map_add, map_mul, map_pow, hc, hp, b1, b2, b3, b4, b5, b6, b7, b8, Taylor.ser, W8.map,
      Pi.add_apply, Pi.smul_apply, smul_eq_mul]
  obtain ⟨C0, c00, hC0⟩ := const_common (p := fun i C => ∀ θ : Steps t0 te,
      |(φ i).1 θ - ((p i).1 θ + θ.h * (δ.t1 * (e 0 i).1 θ + θ.h * δ.t2 * (e 1 i).1 θ
        + θ.h ^ 2 * (δ.t3 * (1 / 2) * (e 2 i).1 θ + δ.t4 * (e 3 i).1 θ)
        + θ.h ^ 3 * (δ.t5 * (1 / 6) * (e 4 i).1 θ + δ.t6 * (e 5 i).1 θ + δ.t7 * (1 / 2) * (e 6 i).1 θ
          + δ.t8 * (e 7 i).1 θ)))| ≤ C * |θ.h| ^ 5)
    (fun i C D' hCD h θ => (h θ).trans (mul_le_mul_of_nonneg_right hCD (by positivity)))
    (fun i => cls_eq.1 (key i))
  refine ⟨C0 + Cp, by positivity, fun θ => ?_⟩
  have hη : 0 ≤ η := (abs_nonneg _).trans hδ.1
  have hh := θ.pos
  rw [pi_norm_le_iff_of_nonneg (by positivity)]
  intro i
  exact parts_le hh (hC0 i θ) (hCp θ i) (defect_le hδ hh θ.le (e := fun k => (e k i).1 θ) fun k => eb k i θ)

/-! ### the step of a formula of ROCK4 -/

/-- the step over the bounded functions, along a solution. -/
def stepB (P : Fin n → MvPolynomial (Fin n) ℝ) (F : Gen.Formula ℝ) {y : ℝ → Fin n → ℝ} {R : ℝ}
    (hR : ∀ t ∈ Set.Icc t0 te, ‖y t‖ ≤ R) (i : Fin n) : bdd (Steps t0 te) :=
  Gen.step (F.map cst) (polyField P) (hB t0 te) (yB hR) i

theorem stepB_apply (P : Fin n → MvPolynomial (Fin n) ℝ) (F : Gen.Formula ℝ) {y : ℝ → Fin n → ℝ} {R : ℝ}
    (hR : ∀ t ∈ Set.Icc t0 te, ‖y t‖ ≤ R) (i : Fin n) (θ : Steps t0 te) :
    (stepB P F hR i).1 θ = Gen.step F (polyField P) θ.h (y θ.t) i :=
  (step_algHom (ev θ) P F (hB t0 te) (yB hR) i).symm

theorem rock_local {P : Fin n → MvPolynomial (Fin n) ℝ} {y : ℝ → Fin n → ℝ}
    (hy : SolOn (polyField P) y t0 te) {R : ℝ} (hR : ∀ t ∈ Set.Icc t0 te, ‖y t‖ ≤ R) {η D0 : ℝ}
    (hD0 : 0 ≤ D0) (hel : ElemLe P y t0 te D0)
    (F : Gen.Formula ℝ) (hF : Below η ((wStep F).add (Taylor.exact8.smul (-1)))) :
    ∃ C, 0 ≤ C ∧ ∀ t h, t0 ≤ t → 0 ≤ h → h ≤ 1 → t + h ≤ te →
      ‖Gen.step F (polyField P) h (y t) - y (t + h)‖ ≤ C * h ^ 5 + 8 * η * D0 * h := by
  obtain ⟨C, c0, hC⟩ := local_error hy hR hD0 hel (stepB P F hR) _ hF (fun D _ => by
    have e : (fun i => cls (hB t0 te) (stepB P F hR i))
        = Gen.step (F.map cst) (polyField P) (cls (hB t0 te) (hB t0 te))
          (fun i => cls (hB t0 te) (yB hR i)) :=
      funext fun i => (step_algHom (cls (hB t0 te)) P F (hB t0 te) (yB hR) i).symm
    rw [e, D.step_ser (eps_pow _), ← D.defect]
    congr 3
    exact wStep_map (algebraMap ℝ _) _)
  refine ⟨C, c0, fun t h h1 h2 h3 h4 => ?_⟩
  have := hC ⟨t, h, h1, h2, h3, h4⟩
  simp only [stepB_apply] at this
  exact this

/-- a polynomial field at `y + h w`. -/
theorem polyField_near {A : Type} [CommRing A] [Algebra ℝ A] (P : Fin n → MvPolynomial (Fin n) ℝ) (h : A)
    (y w : Fin n → A) : ∃ r, polyField P (y + h • w) = polyField P y + h • r := by
  have : ∀ p : MvPolynomial (Fin n) ℝ, ∃ r, MvPolynomial.aeval (y + h • w) p
      = MvPolynomial.aeval y p + h * r := by
    intro p
    induction p using MvPolynomial.induction_on with
    | C a => exact ⟨0, by simp⟩
    | add p q hp hq =>
      obtain ⟨r, hr⟩ := hp
      obtain ⟨r', hr'⟩ := hq
      exact ⟨r + r', by rw [map_add, map_add, hr, hr']; ring⟩
    | mul_X p i hp =>
      obtain ⟨r, hr⟩ := hp
      refine ⟨MvPolynomial.aeval y p * w i + r * (y i + h * w i), ?_⟩
      rw [map_mul, map_mul, hr, MvPolynomial.aeval_X, MvPolynomial.aeval_X, Pi.add_apply, Pi.smul_apply,
        smul_eq_mul]
      ring
  choose r hr using fun i => this (P i)
  exact ⟨r, funext fun i => hr i⟩

/-- over a commutative ring the step is `y + h (w F(y)) + h² Ψ`, `w` the first of the weights. -/
theorem gRec_incr {A : Type} [CommRing A] [Algebra ℝ A] (P : Fin n → MvPolynomial (Fin n) ℝ)
    (mu kap : ℕ → A) (h : A) (y : Fin n → A) : ∀ j, ∃ w, Gen.gRec (polyField P) mu kap h y j
      = y + h • ((wRec mu kap j).t1 • polyField P y + h • w)
  | 0 => ⟨0, by simp [Gen.gRec, wRec, W8.zero]⟩
  | 1 => ⟨0, by
    funext i
    simp [Gen.gRec, wRec, W8.smul, W8.app, mul_assoc]⟩
  | (j + 2) => by
    obtain ⟨w, hw⟩ := gRec_incr P mu kap h y (j + 1)
    obtain ⟨v, hv⟩ := gRec_incr P mu kap h y j
    obtain ⟨r, hr⟩ := polyField_near P h y ((wRec mu kap (j + 1)).t1 • polyField P y + h • w)
    refine ⟨mu (j + 2) • r + (1 + kap (j + 2)) • w - kap (j + 2) • v, ?_⟩
    funext i
    simp only [Gen.gRec, hw, hv, hr, wRec, W8.add, W8.smul, W8.app, Pi.add_apply, Pi.sub_apply, Pi.smul_apply,
      smul_eq_mul]
    ring

theorem step_incr {A : Type} [CommRing A] [Algebra ℝ A] (P : Fin n → MvPolynomial (Fin n) ℝ)
    (R : Gen.Formula A) (h : A) (y : Fin n → A) : ∃ w, Gen.step R (polyField P) h y
      = y + h • ((wStep R).t1 • polyField P y + h • w) := by
  obtain ⟨w, hw⟩ := gRec_incr P R.mu R.kap h y R.deg
  unfold Gen.step Gen.finishing
  rw [hw]
  have near : ∀ z : Fin n → A, (∃ w, z = y + h • w) →
      ∃ r, polyField P z = polyField P y + h • r := by
    rintro z ⟨w, rfl⟩
    exact polyField_near P h y w
  extract_lets k1 k2 k3 k4
  obtain ⟨r1, h1⟩ : ∃ r, k1 = polyField P y + h • r := near _ ⟨_, rfl⟩
  obtain ⟨r2, h2⟩ : ∃ r, k2 = polyField P y + h • r := near _ ⟨(wRec R.mu R.kap R.deg).t1 • polyField P y
    + h • w + R.a21 • k1, by
      funext i; simp only [Pi.add_apply, Pi.smul_apply, smul_eq_mul]; ring⟩
  obtain ⟨r3, h3⟩ : ∃ r, k3 = polyField P y + h • r := near _ ⟨(wRec R.mu R.kap R.deg).t1 • polyField P y
    + h • w + R.a31 • k1 + R.a32 • k2, by
      funext i; simp only [Pi.add_apply, Pi.smul_apply, smul_eq_mul]; ring⟩
  obtain ⟨r4, h4⟩ : ∃ r, k4 = polyField P y + h • r := near _ ⟨(wRec R.mu R.kap R.deg).t1 • polyField P y
    + h • w + R.a41 • k1 + R.a42 • k2 + R.a43 • k3, by
      funext i; simp only [Pi.add_apply, Pi.smul_apply, smul_eq_mul]; ring⟩
  refine ⟨w + R.b 0 • r1 + R.b 1 • r2 + R.b 2 • r3 + R.b 3 • r4, ?_⟩
  funext i
  simp only [h1, h2, h3, h4, wStep, wArg, W8.add, W8.smul, W8.app, Pi.add_apply, Pi.smul_apply, smul_eq_mul]
  ring

/-- **stability**: on a ball where the field has the Lipschitz constant `Λ` the step is Lipschitz with a
constant `1 + w Λ h + L h²`. -/
theorem rock_stable (P : Fin n → MvPolynomial (Fin n) ℝ) (F : Gen.Formula ℝ) {R Λ : ℝ}
    (hΛ : ∀ u v : Fin n → ℝ, ‖u‖ ≤ R → ‖v‖ ≤ R → ‖polyField P u - polyField P v‖ ≤ Λ * ‖u - v‖) :
    ∃ L, 0 ≤ L ∧ ∀ h u v, 0 ≤ h → h ≤ 1 → ‖u‖ ≤ R → ‖v‖ ≤ R →
      ‖Gen.step F (polyField P) h u - Gen.step F (polyField P) h v‖
        ≤ (1 + |(wStep F).t1| * Λ * h + L * h ^ 2) * ‖u - v‖ := by
  obtain ⟨w, hw⟩ := step_incr P (F.map cst) (locH (n := n)) locY
  obtain ⟨L, l0, hL⟩ := loc_const w R
  have e : ∀ h (u : Fin n → ℝ), Gen.step F (polyField P) h u
      = u + h • ((wStep F).t1 • polyField P u + h • fun i => (w i).1 (h, u)) := by
    intro h u
    funext i
    have e1 := step_algHom (locEv (n := n) (h, u)) P F locH locY i
    have e0 : (wStep (F.map (cst (J := loc n)))).t1 = cst (wStep F).t1 :=
      congrArg W8.t1 (wStep_map (algebraMap ℝ (loc n)) F)
    rw [hw, e0] at e1
    have e2 := polyField_hom (locEv (n := n) (h, u)) P locY i
    have e3 : (polyField P (locY (n := n)) i).1 (h, u) = polyField P u i := e2.symm
    have e4 : Gen.step F (polyField P) h u i
        = u i + h * ((wStep F).t1 * (polyField P (locY (n := n)) i).1 (h, u) + h * (w i).1 (h, u)) := e1
    rw [e4, e3]
    rfl
  refine ⟨L, l0, fun h u v h0 h1 hu hv => ?_⟩
  rw [e h u, e h v]
  have e2 : (u + h • ((wStep F).t1 • polyField P u + h • fun i => (w i).1 (h, u)))
      - (v + h • ((wStep F).t1 • polyField P v + h • fun i => (w i).1 (h, v)))
      = (u - v) + (h * (wStep F).t1) • (polyField P u - polyField P v)
        + (h * h) • ((fun i => (w i).1 (h, u)) - fun i => (w i).1 (h, v)) := by module
  rw [e2]
  refine (norm_add₃_le).trans ?_
  rw [norm_smul, norm_smul, Real.norm_eq_abs, Real.norm_eq_abs, abs_mul, abs_of_nonneg h0,
    abs_of_nonneg (mul_nonneg h0 h0)]
  have p1 := mul_le_mul_of_nonneg_left (hL h u v h0 h1 hu hv).2 (mul_nonneg h0 h0)
  have p2 := mul_le_mul_of_nonneg_left (hΛ u v hu hv) (mul_nonneg h0 (abs_nonneg (wStep F).t1))
  nlinarith [p1, p2]

/-! ### accumulation -/

/-- a bound for what steps of lengths `l` can do: `Σ (c (h) h)`. -/
def contrib (c : ℝ → ℝ) (l : List ℝ) : ℝ := (l.map fun h => c h * h).sum

theorem contrib_cons (c : ℝ → ℝ) (h : ℝ) (l : List ℝ) : contrib c (h :: l) = c h * h + contrib c l := by
  simp [contrib]

theorem contrib_nonneg {c : ℝ → ℝ} (hc : ∀ h, 0 < h → 0 ≤ c h) {l : List ℝ} (hl : ∀ h ∈ l, 0 < h) :
    0 ≤ contrib c l := by
  refine List.sum_nonneg fun x hx => ?_
  obtain ⟨h, hm, rfl⟩ := List.mem_map.1 hx
  have := hl h hm
  exact mul_nonneg (hc h this) this.le

/-- no step longer than `H`. -/
theorem contrib_le {c : ℝ → ℝ} {H : ℝ} (hc : ∀ h, 0 < h → h ≤ H → c h ≤ c H) {l : List ℝ}
    (hl : ∀ h ∈ l, 0 < h) (hH : ∀ h ∈ l, h ≤ H) : contrib c l ≤ c H * l.sum := by
  induction l with
  | nil => simp [contrib]
  | cons h l ih =>
    rw [contrib_cons, List.sum_cons]
    have h1 := ih (fun x hx => hl x (by simp [hx])) (fun x hx => hH x (by simp [hx]))
    have h2 := hl h (by simp)
    have h3 := mul_le_mul_of_nonneg_right (hc h h2 (hH h (by simp))) h2.le
    linarith

/-- one more step. -/
theorem accumulate {L h s e e' c A : ℝ} (hL : 0 ≤ L) (hh : 0 ≤ h) (hs : 0 ≤ s) (hA : 0 ≤ A)
    (hc : 0 ≤ c) (he : e ≤ Real.exp (L * s) * A) (he' : e' ≤ (1 + L * h) * e + c) :
    e' ≤ Real.exp (L * (h + s)) * (c + A) := by
  have h1 : 1 + L * h ≤ Real.exp (L * h) := by linarith [Real.add_one_le_exp (L * h)]
  have h2 : 0 ≤ Real.exp (L * s) * A := by positivity
  have h3 : (1 + L * h) * e ≤ Real.exp (L * h) * (Real.exp (L * s) * A) := by
    have p : 0 ≤ 1 + L * h := by positivity
    exact (mul_le_mul_of_nonneg_left he p).trans (mul_le_mul_of_nonneg_right h1 h2)
  have h4 : (1 : ℝ) ≤ Real.exp (L * (h + s)) := Real.one_le_exp (by positivity)
  have h5 : c ≤ Real.exp (L * (h + s)) * c := by
    have := mul_le_mul_of_nonneg_right h4 hc
    linarith
  have e1 : Real.exp (L * (h + s)) = Real.exp (L * h) * Real.exp (L * s) := by
    rw [← Real.exp_add]; ring_nf
  have e2 : Real.exp (L * h) * (Real.exp (L * s) * A) = Real.exp (L * (h + s)) * A := by
    rw [e1]; ring
  linarith

/-- a solution stays bounded. -/
theorem SolOn.bounded {F : (Fin n → ℝ) → Fin n → ℝ} {y : ℝ → Fin n → ℝ} (hy : SolOn F y t0 te) :
    ∃ R, ∀ t ∈ Set.Icc t0 te, ‖y t‖ ≤ R :=
  isCompact_Icc.exists_bound_of_continuousOn fun t ht => (hy t ht).continuousWithinAt

end

end Odes
