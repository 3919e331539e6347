import Verif.Lemmas.SmoothFlow

/-!
# Increments of explicit methods on smooth problems
-/

namespace Odes

noncomputable section

open Spec Germ Colloc

variable {n : ℕ} {t0 te : ℝ}

/-- the increment of an explicit method: combinations of values of the field. -/
inductive Inc
  | zero
  | add (a b : Inc)
  | smul (c : ℝ) (a : Inc)
  | ev (a : Inc)

namespace Inc

/-- its value. -/
def val (F : (Fin n → ℝ) → Fin n → ℝ) (h : ℝ) (y : Fin n → ℝ) : Inc → Fin n → ℝ
  | zero => 0
  | add a b => val F h y a + val F h y b
  | smul c a => c • val F h y a
  | ev a => F (y + h • val F h y a)

/-- its weights. -/
def wt : Inc → W8 ℝ
  | zero => W8.zero
  | add a b => (wt a).add (wt b)
  | smul c a => (wt a).smul c
  | ev a => (wt a).app

/-- the increments of the recurrence. -/
def ofRec (mu kap : ℕ → ℝ) : ℕ → Inc
  | 0 => zero
  | 1 => smul (mu 1) (ev zero)
  | (j + 2) => add (add (smul (mu (j + 2)) (ev (ofRec mu kap (j + 1)))) (smul (1 + kap (j + 2)) (ofRec mu kap (j + 1))))
      (smul (-kap (j + 2)) (ofRec mu kap j))

theorem wt_ofRec (mu kap : ℕ → ℝ) : ∀ j, (ofRec mu kap j).wt = wRec mu kap j
  | 0 => rfl
  | 1 => rfl
  | (j + 2) => by simp only [ofRec, wt, wRec, wt_ofRec mu kap (j + 1), wt_ofRec mu kap j]

theorem val_ofRec (F : (Fin n → ℝ) → Fin n → ℝ) (mu kap : ℕ → ℝ) (h : ℝ) (y : Fin n → ℝ) : ∀ j,
    Gen.gRec F mu kap h y j = y + h • (ofRec mu kap j).val F h y
  | 0 => by simp [Gen.gRec, ofRec, val]
  | 1 => by
    funext i
    simp [Gen.gRec, ofRec, val, mul_assoc]
  | (j + 2) => by
    funext i
    simp only [Gen.gRec, ofRec, val, val_ofRec F mu kap h y (j + 1), val_ofRec F mu kap h y j, Pi.add_apply, Pi.smul_apply,
      smul_eq_mul]
    ring

/-- the increment of a step. -/
def ofStep (R : Gen.Formula ℝ) : Inc :=
  let g := ofRec R.mu R.kap R.deg
  let g2 := add g (smul R.a21 (ev g))
  let g3 := add (add g (smul R.a31 (ev g))) (smul R.a32 (ev g2))
  let g4 := add (add (add g (smul R.a41 (ev g))) (smul R.a42 (ev g2))) (smul R.a43 (ev g3))
  add (add (add (add g (smul (R.b 0) (ev g))) (smul (R.b 1) (ev g2))) (smul (R.b 2) (ev g3))) (smul (R.b 3) (ev g4))

theorem wt_ofStep (R : Gen.Formula ℝ) : (ofStep R).wt = wStep R := by
  simp only [ofStep, wt, wStep, wArg, wt_ofRec]

theorem val_ofStep (R : Gen.Formula ℝ) (F : (Fin n → ℝ) → Fin n → ℝ) (h : ℝ) (y : Fin n → ℝ) :
    Gen.step R F h y = y + h • (ofStep R).val F h y := by
  have hg := val_ofRec F R.mu R.kap h y R.deg
  generalize Gen.gRec F R.mu R.kap h y R.deg = G at hg
  simp only [Gen.step, Gen.finishing, val_ofRec, ofStep, val]
  generalize (ofRec R.mu R.kap R.deg).val F h y = g
  have e : ∀ (a b : ℝ) (u v : Fin n → ℝ), (fun i => (y + h • u) i + h * a * v i) = y + h • (u + a • v) := by
    intro a b u v
    funext i
    simp only [Pi.add_apply, Pi.smul_apply, smul_eq_mul]
    ring
  have e2 : ∀ (a : ℝ) (u v : Fin n → ℝ), (fun i => (y + h • u) i + h * a * v i) = y + h • (u + a • v) := fun a u v => e a 0 u v
  have e3 : ∀ (a b : ℝ) (u v w : Fin n → ℝ), (fun i => (y + h • u) i + h * a * v i + h * b * w i)
      = y + h • (u + a • v + b • w) := by
    intro a b u v w
    funext i
    simp only [Pi.add_apply, Pi.smul_apply, smul_eq_mul]
    ring
  have e4 : ∀ (a b c : ℝ) (u v w x : Fin n → ℝ), (fun i => (y + h • u) i + h * a * v i + h * b * w i + h * c * x i)
      = y + h • (u + a • v + b • w + c • x) := by
    intro a b c u v w x
    funext i
    simp only [Pi.add_apply, Pi.smul_apply, smul_eq_mul]
    ring
  rw [e2, e3, e4]
  funext i
  simp only [Pi.add_apply, Pi.smul_apply, smul_eq_mul]
  ring

end Inc

section

variable {f : (Fin n → ℝ) → Fin n → ℝ} {y : ℝ → Fin n → ℝ} {ρ : ℝ} (S : Smooth4 f y t0 te ρ)

include S

/-- an increment along the solution has the expansion of its weights. -/
theorem Smooth4.inc {R : ℝ} (hR : ∀ t ∈ Set.Icc t0 te, ‖y t‖ ≤ R) (e : Inc) : ∃ w : Fin n → bdd (Steps t0 te),
    (∀ θ i, (w i).1 θ = e.val (cut (tube y t0 te ρ) f) θ.h (y θ.t) i) ∧
    (cls (hB t0 te) (hB t0 te) • fun i => cls (hB t0 te) (w i)) = cls (hB t0 te) (hB t0 te) • (S.D hR).ser (e.wt.map cst) := by
  induction e with
  | zero =>
    refine ⟨0, fun θ i => rfl, ?_⟩
    have h0 : (W8.zero : W8 ℝ).map (cst (J := Q (hB t0 te))) = W8.zero := by
      simp only [W8.zero, W8.map]
      rw [show cst (J := Q (hB t0 te)) 0 = 0 from map_zero (algebraMap ℝ _)]
    rw [Inc.wt, h0, (S.D hR).ser_zero]
    funext i
    simp
  | add a b ha hb =>
    obtain ⟨u, hu1, hu2⟩ := ha
    obtain ⟨v, hv1, hv2⟩ := hb
    refine ⟨u + v, fun θ i => ?_, ?_⟩
    · show (u i).1 θ + (v i).1 θ = _
      rw [hu1, hv1]; rfl
    · rw [Inc.wt, show (a.wt.add b.wt).map (cst (J := Q (hB t0 te))) = (a.wt.map cst).add (b.wt.map cst) from
        (W8.map_add (algebraMap ℝ (Q (hB t0 te))) a.wt b.wt).symm, (S.D hR).ser_add, smul_add, ← hu2, ← hv2, ← smul_add]
      congr 1
  | smul c a ha =>
    obtain ⟨u, hu1, hu2⟩ := ha
    refine ⟨fun i => algebraMap ℝ _ c * u i, fun θ i => ?_, ?_⟩
    · show c * (u i).1 θ = _
      rw [hu1]; rfl
    · rw [Inc.wt, show (a.wt.smul c).map (cst (J := Q (hB t0 te))) = (a.wt.map cst).smul (cst c) from
        (W8.map_smul (algebraMap ℝ (Q (hB t0 te))) c a.wt).symm, (S.D hR).ser_smul, smul_comm, ← hu2, smul_comm]
      congr 1
  | ev a ha =>
    obtain ⟨u, hu1, hu2⟩ := ha
    obtain ⟨b, hb1, hb2⟩ := S.lift hR u
    refine ⟨b, fun θ i => ?_, ?_⟩
    · rw [hb1, Inc.val]
      congr 2
      funext j
      rw [hu1]; rfl
    · rw [Inc.wt, show a.wt.app.map (cst (J := Q (hB t0 te))) = (a.wt.map cst).app from
        (W8.map_app (algebraMap ℝ (Q (hB t0 te))) a.wt).symm, ← (S.D hR).app_ser (eps_pow _), ← hu2]
      funext i
      exact hb2 i

/-- the derivative is Lipschitz near each point of the solution. -/
theorem Smooth4.deriv_lip : ∃ K : ℝ, 0 ≤ K ∧ ∀ t ∈ Set.Icc t0 te, ∀ u v, ‖u - y t‖ ≤ ρ → ‖v - y t‖ ≤ ρ →
    ‖fderiv ℝ f u‖ ≤ K ∧ ‖fderiv ℝ f u - fderiv ℝ f v‖ ≤ K * ‖u - v‖ := by
  have hd : ∀ x ∈ tube y t0 te ρ, ContDiffAt ℝ 1 (fderiv ℝ f) x := fun x hx =>
    (S.diff x hx).fderiv_right (m := 1) (by norm_num)
  obtain ⟨C1, h1⟩ := (tube_compact S.sol ρ).exists_bound_of_continuousOn (f := fderiv ℝ f) fun x hx =>
    (hd x hx).continuousAt.continuousWithinAt
  obtain ⟨C2, h2⟩ := (tube_compact S.sol ρ).exists_bound_of_continuousOn (f := fderiv ℝ (fderiv ℝ f)) fun x hx =>
    ((hd x hx).fderiv_right (m := 0) (by norm_num)).continuousAt.continuousWithinAt
  refine ⟨|C1| + |C2|, by positivity, fun t ht u v hu hv => ⟨?_, ?_⟩⟩
  · refine (h1 u (S.mem ht hu)).trans ?_
    linarith [le_abs_self C1, abs_nonneg C2]
  · have hin : ∀ x ∈ Metric.closedBall (y t) ρ, x ∈ tube y t0 te ρ := fun x hx =>
      ⟨t, ht, by rwa [mem_closedBall_iff_norm] at hx⟩
    refine ((convex_closedBall (y t) ρ).norm_image_sub_le_of_norm_fderiv_le (C := |C2|)
      (fun x hx => (hd x (hin x hx)).differentiableAt (by norm_num))
      (fun x hx => (h2 x (hin x hx)).trans (le_abs_self C2)) (by rwa [mem_closedBall_iff_norm])
      (by rwa [mem_closedBall_iff_norm])).trans ?_
    have := mul_nonneg (abs_nonneg C1) (norm_nonneg (u - v))
    linarith

/-- four points. -/
theorem Smooth4.four : ∃ K : ℝ, 0 ≤ K ∧ ∀ t ∈ Set.Icc t0 te, ∀ (v w a b : Fin n → ℝ) (h : ℝ), 0 ≤ h → ‖v - y t‖ + h * ‖a‖ ≤ ρ →
    ‖w - y t‖ + h * ‖b‖ ≤ ρ →
    ‖f (v + h • a) - f (w + h • b) - (f v - f w)‖ ≤ K * h * (‖a - b‖ + (‖v - w‖ + h * ‖a - b‖) * ‖b‖) := by
  obtain ⟨K, k0, hK⟩ := S.deriv_lip
  refine ⟨K, k0, fun t ht v w a b h h0 hv hw => ?_⟩
  have near : ∀ (v a : Fin n → ℝ), ‖v - y t‖ + h * ‖a‖ ≤ ρ → ∀ s ∈ Set.Icc (0 : ℝ) 1, ‖v + s • h • a - y t‖ ≤ ρ := by
    intro v a hv s hs
    have e : v + s • h • a - y t = (v - y t) + s • h • a := by abel
    rw [e]
    refine (norm_add_le _ _).trans (le_trans ?_ hv)
    rw [norm_smul, norm_smul, Real.norm_eq_abs, Real.norm_eq_abs, abs_of_nonneg hs.1, abs_of_nonneg h0]
    have := mul_le_mul_of_nonneg_right hs.2 (mul_nonneg h0 (norm_nonneg a))
    linarith
  have der : ∀ (v a : Fin n → ℝ), ‖v - y t‖ + h * ‖a‖ ≤ ρ → ∀ s ∈ Set.Icc (0 : ℝ) 1,
      HasDerivAt (fun s : ℝ => f (v + s • h • a)) (fderiv ℝ f (v + s • h • a) (h • a)) s := by
    intro v a hv s hs
    have h1 := ((S.diff _ (S.mem ht (near v a hv s hs))).differentiableAt (by norm_num)).hasFDerivAt
    have h2 : HasDerivAt (fun s : ℝ => v + s • h • a) (h • a) s := by
      have := ((hasDerivAt_id s).smul_const (h • a)).const_add v
      rwa [one_smul] at this
    exact h1.comp_hasDerivAt s h2
  have key := norm_image_sub_le_of_norm_deriv_le_segment_01' (f := fun s : ℝ => f (v + s • h • a) - f (w + s • h • b))
    (C := K * h * (‖a - b‖ + (‖v - w‖ + h * ‖a - b‖) * ‖b‖))
    (fun s hs => ((der v a hv s hs).sub (der w b hw s hs)).hasDerivWithinAt) (fun s hs => by
      have hs' : s ∈ Set.Icc (0 : ℝ) 1 := ⟨hs.1, hs.2.le⟩
      obtain ⟨d1, d2⟩ := hK t ht _ _ (near v a hv s hs') (near w b hw s hs')
      have e : fderiv ℝ f (v + s • h • a) (h • a) - fderiv ℝ f (w + s • h • b) (h • b)
          = h • (fderiv ℝ f (v + s • h • a) (a - b)
            + (fderiv ℝ f (v + s • h • a) - fderiv ℝ f (w + s • h • b)) b) := by
        simp only [map_smul, map_sub, sub_apply]
        module
      rw [e, norm_smul, Real.norm_eq_abs, abs_of_nonneg h0]
      have q1 : ‖fderiv ℝ f (v + s • h • a) (a - b)‖ ≤ K * ‖a - b‖ :=
        (ContinuousLinearMap.le_opNorm _ _).trans (mul_le_mul_of_nonneg_right d1 (norm_nonneg _))
      have q2 : ‖v + s • h • a - (w + s • h • b)‖ ≤ ‖v - w‖ + h * ‖a - b‖ := by
        have e2 : v + s • h • a - (w + s • h • b) = (v - w) + s • h • (a - b) := by module
        rw [e2]
        refine (norm_add_le _ _).trans ?_
        rw [norm_smul, norm_smul, Real.norm_eq_abs, Real.norm_eq_abs, abs_of_nonneg hs.1, abs_of_nonneg h0]
        have := mul_le_mul_of_nonneg_right hs'.2 (mul_nonneg h0 (norm_nonneg (a - b)))
        linarith
      have q3 : ‖(fderiv ℝ f (v + s • h • a) - fderiv ℝ f (w + s • h • b)) b‖ ≤ K * (‖v - w‖ + h * ‖a - b‖) * ‖b‖ :=
        (ContinuousLinearMap.le_opNorm _ _).trans (mul_le_mul_of_nonneg_right
          (d2.trans (mul_le_mul_of_nonneg_left q2 k0)) (norm_nonneg _))
      calc h * _ ≤ h * (K * ‖a - b‖ + K * (‖v - w‖ + h * ‖a - b‖) * ‖b‖) :=
            mul_le_mul_of_nonneg_left ((norm_add_le _ _).trans (add_le_add q1 q3)) h0
        _ = _ := by ring)
  simp only [one_smul, zero_smul, add_zero] at key
  exact key

/-- an increment as a function of the point where the step starts. -/
theorem Smooth4.inc_lip (e : Inc) : ∃ h0 N C : ℝ, 0 < h0 ∧ h0 ≤ 1 ∧ 0 ≤ N ∧ 0 ≤ C ∧ ∀ h, 0 ≤ h → h ≤ h0 →
    ∀ t ∈ Set.Icc t0 te, ∀ v, ‖v - y t‖ ≤ ρ / 2 →
      e.val (cut (tube y t0 te ρ) f) h v = e.val f h v ∧ ‖e.val f h v‖ ≤ N ∧
      ‖e.val f h v - e.val f h (y t) - e.wt.t1 • (f v - f (y t))‖ ≤ C * h * ‖v - y t‖ := by
  obtain ⟨B, B0, hB1⟩ := S.f_bound
  obtain ⟨Λ, l0, hΛ⟩ := tube_lip S.sol fun x hx => (S.diff x hx).of_le (by norm_num)
  obtain ⟨K, k0, hK⟩ := S.four
  have hρ := S.pos
  induction e with
  | zero => exact ⟨1, 0, 0, one_pos, le_rfl, le_rfl, le_rfl, fun h _ _ t _ v _ => ⟨rfl, by simp [Inc.val], by
      simp [Inc.val, Inc.wt, W8.zero]⟩⟩
  | add a b ha hb =>
    obtain ⟨h1, N1, C1, p1, q1, n1, c1, H1⟩ := ha
    obtain ⟨h2, N2, C2, p2, q2, n2, c2, H2⟩ := hb
    refine ⟨min h1 h2, N1 + N2, C1 + C2, lt_min p1 p2, (min_le_left _ _).trans q1, by positivity, by positivity, ?_⟩
    intro h hh hle t ht v hv
    obtain ⟨x1, x2, x3⟩ := H1 h hh (hle.trans (min_le_left _ _)) t ht v hv
    obtain ⟨y1, y2, y3⟩ := H2 h hh (hle.trans (min_le_right _ _)) t ht v hv
    refine ⟨by simp only [Inc.val, x1, y1], (norm_add_le _ _).trans (add_le_add x2 y2), ?_⟩
    have e : (a.add b).val f h v - (a.add b).val f h (y t) - (a.add b).wt.t1 • (f v - f (y t))
        = (a.val f h v - a.val f h (y t) - a.wt.t1 • (f v - f (y t)))
          + (b.val f h v - b.val f h (y t) - b.wt.t1 • (f v - f (y t))) := by
      simp only [Inc.val, Inc.wt, W8.add]
      module
    rw [e]
    refine (norm_add_le _ _).trans ((add_le_add x3 y3).trans (le_of_eq ?_))
    ring
  | smul c a ha =>
    obtain ⟨h1, N1, C1, p1, q1, n1, c1, H1⟩ := ha
    refine ⟨h1, |c| * N1, |c| * C1, p1, q1, by positivity, by positivity, ?_⟩
    intro h hh hle t ht v hv
    obtain ⟨x1, x2, x3⟩ := H1 h hh hle t ht v hv
    have hc := abs_nonneg c
    refine ⟨by simp only [Inc.val, x1], ?_, ?_⟩
    · rw [Inc.val, norm_smul, Real.norm_eq_abs]
      exact mul_le_mul_of_nonneg_left x2 hc
    · have e : (a.smul c).val f h v - (a.smul c).val f h (y t) - (a.smul c).wt.t1 • (f v - f (y t))
          = c • (a.val f h v - a.val f h (y t) - a.wt.t1 • (f v - f (y t))) := by
        simp only [Inc.val, Inc.wt, W8.smul]
        module
      rw [e, norm_smul, Real.norm_eq_abs]
      refine (mul_le_mul_of_nonneg_left x3 hc).trans (le_of_eq ?_)
      ring
  | ev a ha =>
    obtain ⟨h1, N1, C1, p1, q1, n1, c1, H1⟩ := ha
    obtain ⟨T, hT⟩ : ∃ T : ℝ, T = |a.wt.t1| * Λ + C1 := ⟨_, rfl⟩
    have T0 : 0 ≤ T := by rw [hT]; positivity
    refine ⟨min h1 (ρ / (2 * (N1 + 1))), B, K * (T + (1 + T) * N1), lt_min p1 (by positivity), (min_le_left _ _).trans q1, B0,
      by positivity, ?_⟩
    intro h hh hle t ht v hv
    have hle1 := hle.trans (min_le_left _ _)
    have h1' : h ≤ 1 := hle1.trans q1
    obtain ⟨x1, x2, x3⟩ := H1 h hh hle1 t ht v hv
    have hy0 : ‖y t - y t‖ ≤ ρ / 2 := by rw [sub_self, norm_zero]; positivity
    obtain ⟨-, y2, -⟩ := H1 h hh hle1 t ht (y t) hy0
    have hN : h * N1 ≤ ρ / 2 := by
      have h3 := hle.trans (min_le_right _ _)
      rw [le_div_iff₀ (by positivity)] at h3
      nlinarith
    have z1 : ‖v - y t‖ + h * ‖a.val f h v‖ ≤ ρ := by
      have := mul_le_mul_of_nonneg_left x2 hh
      linarith
    have z2 : ‖y t - y t‖ + h * ‖a.val f h (y t)‖ ≤ ρ := by
      have := mul_le_mul_of_nonneg_left y2 hh
      linarith
    have z3 : ‖v + h • a.val f h v - y t‖ ≤ ρ := by
      have e : v + h • a.val f h v - y t = (v - y t) + h • a.val f h v := by abel
      rw [e]
      refine (norm_add_le _ _).trans ?_
      rwa [norm_smul, Real.norm_eq_abs, abs_of_nonneg hh]
    have hd : ‖a.val f h v - a.val f h (y t)‖ ≤ T * ‖v - y t‖ := by
      have e : a.val f h v - a.val f h (y t) = (a.val f h v - a.val f h (y t) - a.wt.t1 • (f v - f (y t)))
          + a.wt.t1 • (f v - f (y t)) := by abel
      rw [e]
      refine (norm_add_le _ _).trans ?_
      rw [norm_smul, Real.norm_eq_abs, hT]
      have w1 := mul_le_mul_of_nonneg_left (hΛ t ht v (y t) (by linarith) (by linarith)) (abs_nonneg a.wt.t1)
      have w2 : C1 * h * ‖v - y t‖ ≤ C1 * ‖v - y t‖ := by
        refine mul_le_mul_of_nonneg_right ?_ (norm_nonneg _)
        exact mul_le_of_le_one_right c1 h1'
      linarith
    refine ⟨?_, ?_, ?_⟩
    · rw [Inc.val, Inc.val, x1, S.cut_eq ht z3]
    · exact hB1 _ (S.mem ht z3)
    · have e : (Inc.ev a).wt.t1 = 1 := rfl
      rw [e, one_smul, Inc.val, Inc.val]
      refine (hK t ht v (y t) _ _ h hh z1 z2).trans ?_
      have hx := norm_nonneg (v - y t)
      have r1 : h * ‖a.val f h v - a.val f h (y t)‖ ≤ T * ‖v - y t‖ :=
        (mul_le_mul_of_nonneg_left hd hh).trans (mul_le_of_le_one_left (by positivity) h1')
      have r2 : (‖v - y t‖ + h * ‖a.val f h v - a.val f h (y t)‖) * ‖a.val f h (y t)‖ ≤ (1 + T) * ‖v - y t‖ * N1 := by
        refine mul_le_mul ?_ y2 (norm_nonneg _) (by positivity)
        linarith
      calc K * h * _ ≤ K * h * (T * ‖v - y t‖ + (1 + T) * ‖v - y t‖ * N1) :=
            mul_le_mul_of_nonneg_left (add_le_add hd r2) (by positivity)
        _ = _ := by ring

/-- **one step of a formula that starts on the solution.** -/
theorem Smooth4.rock_local {η D0 : ℝ} (hD0 : 0 ≤ D0) (hel : ∀ t ∈ Set.Icc t0 te, ∀ k i, |elemF f (y t) k i| ≤ D0)
    (F : Gen.Formula ℝ) (hF : Below η ((wStep F).add (Taylor.exact8.smul (-1)))) :
    ∃ h0 C : ℝ, 0 < h0 ∧ 0 ≤ C ∧ ∀ t h, t0 ≤ t → 0 ≤ h → h ≤ h0 → t + h ≤ te →
      ‖Gen.step F f h (y t) - y (t + h)‖ ≤ C * h ^ 5 + 8 * η * D0 * h := by
  obtain ⟨R, hR⟩ := S.sol.bounded
  obtain ⟨w, hw1, hw2⟩ := S.inc hR (Inc.ofStep F)
  obtain ⟨h0, N, C', p0, p1, -, -, H⟩ := S.inc_lip (Inc.ofStep F)
  obtain ⟨C, c0, hC⟩ := S.local_error hR hD0 hel (fun i => yB hR i + hB t0 te * w i) _ hF (by
    rw [← (S.D hR).defect, ← Inc.wt_ofStep, ← hw2]
    funext i
    simp only [map_add, map_mul, Pi.add_apply, Pi.smul_apply, smul_eq_mul])
  refine ⟨h0, C, p0, c0, fun t h ht hh hle hte => ?_⟩
  have h1 := hC ⟨t, h, ht, hh, hle.trans p1, hte⟩
  have htm : t ∈ Set.Icc t0 te := ⟨ht, by linarith⟩
  obtain ⟨e1, -, -⟩ := H h hh hle t htm (y t) (by rw [sub_self, norm_zero]; have := S.pos; positivity)
  have e2 : Gen.step F f h (y t) = fun i => (yB hR i + hB t0 te * w i).1 ⟨t, h, ht, hh, hle.trans p1, hte⟩ := by
    rw [Inc.val_ofStep, ← e1]
    funext i
    show y t i + h * _ = y t i + h * (w i).1 _
    rw [hw1]
  rw [e2]
  exact h1

/-- **two steps of a formula, one of them from the solution.** -/
theorem Smooth4.rock_stable {Λ : ℝ} (hΛ : ∀ t ∈ Set.Icc t0 te, ∀ v, ‖v - y t‖ ≤ ρ / 2 → ‖f v - f (y t)‖ ≤ Λ * ‖v - y t‖)
    (F : Gen.Formula ℝ) : ∃ h0 L : ℝ, 0 < h0 ∧ 0 ≤ L ∧ ∀ h, 0 ≤ h → h ≤ h0 → ∀ t ∈ Set.Icc t0 te, ∀ v, ‖v - y t‖ ≤ ρ / 2 →
      ‖Gen.step F f h v - Gen.step F f h (y t)‖ ≤ (1 + |(wStep F).t1| * Λ * h + L * h ^ 2) * ‖v - y t‖ := by
  obtain ⟨h0, N, C, p0, -, -, c0, H⟩ := S.inc_lip (Inc.ofStep F)
  refine ⟨h0, C, p0, c0, fun h hh hle t ht v hv => ?_⟩
  obtain ⟨-, -, h3⟩ := H h hh hle t ht v hv
  rw [Inc.wt_ofStep] at h3
  rw [Inc.val_ofStep, Inc.val_ofStep]
  have e : v + h • (Inc.ofStep F).val f h v - (y t + h • (Inc.ofStep F).val f h (y t))
      = (v - y t) + (h * (wStep F).t1) • (f v - f (y t))
        + h • ((Inc.ofStep F).val f h v - (Inc.ofStep F).val f h (y t) - (wStep F).t1 • (f v - f (y t))) := by module
  rw [e]
  refine (norm_add₃_le).trans ?_
  rw [norm_smul, norm_smul, Real.norm_eq_abs, Real.norm_eq_abs, abs_mul, abs_of_nonneg hh]
  have r1 := mul_le_mul_of_nonneg_left h3 hh
  have r2 := mul_le_mul_of_nonneg_left (hΛ t ht v hv) (mul_nonneg hh (abs_nonneg (wStep F).t1))
  nlinarith [r1, r2]

end

end

end Odes
