import Verif.Model.Avc
import Verif.Spec.Stroke
import Mathlib.Analysis.Calculus.MeanValue
import Mathlib.Analysis.SpecialFunctions.Trigonometric.DerivHyp
import Mathlib.Tactic.FinCases
import Mathlib.Tactic.LinearCombination
import Mathlib.Tactic.FieldSimp

/-!
# The stroke problem: C97 (balance laws), C98 (where it is defined), C99 (autonomous)
-/

namespace Odes.Avc

open Real Spec.Stroke

variable {p : Par} {t : ℝ} {x z : Fin 21 → ℝ}

theorem dv_some {a b c : ℝ} (h : dv a b = some c) : b ≠ 0 ∧ c = a / b := by
  unfold dv at h
  split at h
  · cases h
  · rename_i hb
    exact ⟨hb, (Option.some.inj h).symm⟩

theorem dv_pos {a b : ℝ} (h : b ≠ 0) : dv a b = some (a / b) := if_neg h

theorem lg_pos {a : ℝ} (h : 0 < a) : lg a = some (log a) := if_pos h

theorem rhs_some (h : rhs p t x = some z) :
    ∃ n a, neuron p t x = some n ∧ astro p t x = some a ∧ assemble p x n a = some z := by
  unfold rhs at h
  obtain ⟨n, h1, h⟩ := Option.bind_eq_some_iff.1 h
  obtain ⟨a, h2, h⟩ := Option.bind_eq_some_iff.1 h
  exact ⟨n, a, h1, h2, h⟩

/-- what the last part of `operator()` computes. -/
theorem assemble_some {nK nNa nCa nCl nglu aK aNa aCa aCl aglu : ℝ}
    (h : assemble p x (nK, nNa, nCa, nCl, nglu) (aK, aNa, aCa, aCl, aglu) = some z) :
    ∃ sn sa : ℝ, sn = 1000 * p.n1 * p.nsurf / (p.F * p.v) ∧ sa = 1000 * p.n2 * p.asurf / (p.F * p.v) ∧
    p.F * p.v ≠ 0 ∧ p.ncap ≠ 0 ∧ p.acap ≠ 0 ∧ x 17 ≠ 0 ∧ x 18 ≠ 0 ∧ 1 - x 18 - x 17 ≠ 0 ∧
    z 17 = p.alpha_n * (x 0 + x 1 + x 2 + x 3 + x 4 + p.nnP0 / (p.v * x 17)
      - (x 10 + x 11 + x 12 + x 13 + x 14)) ∧
    z 18 = p.alpha_a * (x 5 + x 6 + x 7 + x 8 + x 9 + p.anP0 / (p.v * x 18)
      - (x 10 + x 11 + x 12 + x 13 + x 14)) ∧
    z 15 = -1000 * (p.nsurf / p.ncap) * (nNa + nK + nCa + nCl + nglu) ∧
    z 16 = -1000 * (p.asurf / p.acap) * (aNa + aK + aCa + aCl + aglu) ∧
    z 19 = (recup p x).1 ∧ z 20 = (recup p x).2 ∧
    z 0 * x 17 = -sn * nK - x 0 * z 17 ∧ z 1 * x 17 = -sn * nNa - x 1 * z 17 ∧
    z 2 * x 17 = -sn * nCa / 2 - x 2 * z 17 ∧ z 3 * x 17 = sn * nCl - x 3 * z 17 ∧
    z 4 * x 17 = sn * nglu - x 4 * z 17 ∧
    z 5 * x 18 = -sa * aK - x 5 * z 18 ∧ z 6 * x 18 = -sa * aNa - x 6 * z 18 ∧
    z 7 * x 18 = -sa * aCa / 2 - x 7 * z 18 ∧ z 8 * x 18 = sa * aCl - x 8 * z 18 ∧
    z 9 * x 18 = sa * aglu - x 9 * z 18 ∧
    z 10 * (1 - x 18 - x 17) = sn * nK + sa * aK + x 10 * (z 17 + z 18) ∧
    z 11 * (1 - x 18 - x 17) = sn * nNa + sa * aNa + x 11 * (z 17 + z 18) ∧
    z 12 * (1 - x 18 - x 17) = sn * nCa / 2 + sa * aCa / 2 + x 12 * (z 17 + z 18) ∧
    z 13 * (1 - x 18 - x 17) = -sn * nCl - sa * aCl + x 13 * (z 17 + z 18) ∧
    z 14 * (1 - x 18 - x 17) = -sn * nglu - sa * aglu + x 14 * (z 17 + z 18) := by
  unfold assemble at h
  dsimp only at h
  obtain ⟨sn, h1, h⟩ := Option.bind_eq_some_iff.1 h
  obtain ⟨sa, h2, h⟩ := Option.bind_eq_some_iff.1 h
  obtain ⟨cn, h3, h⟩ := Option.bind_eq_some_iff.1 h
  obtain ⟨ca, h4, h⟩ := Option.bind_eq_some_iff.1 h
  obtain ⟨pn, h5, h⟩ := Option.bind_eq_some_iff.1 h
  obtain ⟨pa, h6, h⟩ := Option.bind_eq_some_iff.1 h
  obtain ⟨g1, e1⟩ := dv_some h1
  obtain ⟨g2, e2⟩ := dv_some h2
  obtain ⟨g3, e3⟩ := dv_some h3
  obtain ⟨g4, e4⟩ := dv_some h4
  obtain ⟨g5, e5⟩ := dv_some h5
  obtain ⟨g6, e6⟩ := dv_some h6
  rw [← e5, ← e6, ← e3, ← e4]
  split at h
  · cases h
  rename_i hv
  push Not at hv
  obtain ⟨v1, v2, v3⟩ := hv
  have h := Option.some.inj h
  refine ⟨sn, sa, e1, e2, g1, g3, g4, v1, v2, v3, ?_⟩
  subst h
  refine ⟨rfl, rfl, rfl, rfl, rfl, rfl, ?_⟩
  refine ⟨?_, ?_, ?_, ?_, ?_, ?_, ?_, ?_, ?_, ?_, ?_, ?_, ?_, ?_, ?_⟩
  · exact div_mul_cancel₀ _ v1
  · exact div_mul_cancel₀ _ v1
  · exact div_mul_cancel₀ _ v1
  · exact div_mul_cancel₀ _ v1
  · exact div_mul_cancel₀ _ v1
  · exact div_mul_cancel₀ _ v2
  · exact div_mul_cancel₀ _ v2
  · exact div_mul_cancel₀ _ v2
  · exact div_mul_cancel₀ _ v2
  · exact div_mul_cancel₀ _ v2
  · exact div_mul_cancel₀ _ v3
  · exact div_mul_cancel₀ _ v3
  · exact div_mul_cancel₀ _ v3
  · exact div_mul_cancel₀ _ v3
  · exact div_mul_cancel₀ _ v3

/-- a function whose derivative vanishes along solutions is constant along solutions. -/
theorem invariant_of_deriv {n : ℕ} {f : ℝ → (Fin n → ℝ) → Option (Fin n → ℝ)} {G : (Fin n → ℝ) → ℝ}
    (h : ∀ t x z (y : ℝ → Fin n → ℝ), f t x = some z → y t = x →
      (∀ i, HasDerivAt (fun s => y s i) (z i) t) → HasDerivAt (fun s => G (y s)) 0 t) :
    Invariant f G := by
  intro a b y hy t ht
  have hd : ∀ s ∈ Set.Icc a b, HasDerivAt (fun s => G (y s)) 0 s := fun s hs => by
    obtain ⟨z, h1, h2⟩ := hy s hs
    exact h s _ z y h1 rfl h2
  exact constant_of_has_deriv_right_zero (fun s hs => (hd s hs).continuousAt.continuousWithinAt)
    (fun s hs => (hd s (Set.Ico_subset_Icc_self hs)).hasDerivWithinAt) t ht

/-- C97: the amount of each of the five ions is constant along the solutions. -/
theorem avc_ions (p : Par) (i : Fin 5) : Invariant (rhs p) (amount i) := by
  refine invariant_of_deriv fun t x z y h hy hd => ?_
  obtain ⟨⟨nK, nNa, nCa, nCl, nglu⟩, ⟨aK, aNa, aCa, aCl, aglu⟩, -, -, h⟩ := rhs_some h
  obtain ⟨sn, sa, -, -, -, -, -, -, -, -, -, -, -, -, -, -, h0, h1, h2, h3, h4, h5, h6, h7, h8, h9, h10,
    h11, h12, h13, h14⟩ := assemble_some h
  have key : ∀ a b c : Fin 21, z a * x 17 + x a * z 17 + (z b * x 18 + x b * z 18) +
      (z c * (1 - x 18 - x 17) - x c * (z 17 + z 18)) = 0 →
      HasDerivAt (fun s => y s 17 * y s a + y s 18 * y s b + (1 - y s 17 - y s 18) * y s c) 0 t := by
    intro a b c e
    have d := (((hd 17).mul (hd a)).add ((hd 18).mul (hd b))).add
      ((((hd 17).const_sub 1).sub (hd 18)).mul (hd c))
    refine d.congr_deriv ?_
    simp only [hy, Pi.sub_apply]
    linear_combination e
  fin_cases i
  · exact key 0 5 10 (by rw [h0, h5, h10]; ring)
  · exact key 1 6 11 (by rw [h1, h6, h11]; ring)
  · exact key 2 7 12 (by rw [h2, h7, h12]; ring)
  · exact key 3 8 13 (by rw [h3, h8, h13]; ring)
  · exact key 4 9 14 (by rw [h4, h9, h14]; ring)

/-- C97: the potential of the neurons follows their charge (a capacitor). -/
theorem avc_charge_n (p : Par) : Invariant (rhs p) fun x =>
    charge (x 17) (x 0) (x 1) (x 2) (x 3) (x 4) - p.n1 * p.ncap / (p.F * p.v) * x 15 := by
  refine invariant_of_deriv fun t x z y h hy hd => ?_
  obtain ⟨⟨nK, nNa, nCa, nCl, nglu⟩, ⟨aK, aNa, aCa, aCl, aglu⟩, -, -, h⟩ := rhs_some h
  obtain ⟨sn, sa, e1, -, g1, g2, -, -, -, -, -, -, e15, -, -, -, h0, h1, h2, h3, h4, -⟩ := assemble_some h
  have d := (((hd 17).mul (((((hd 0).add (hd 1)).add ((hd 2).const_mul 2)).sub (hd 3)).sub (hd 4))).sub
    ((hd 15).const_mul (p.n1 * p.ncap / (p.F * p.v))))
  refine d.congr_deriv ?_
  simp only [hy, Pi.add_apply, Pi.sub_apply]
  have k : p.n1 * p.ncap / (p.F * p.v) * z 15 = -sn * (nNa + nK + nCa + nCl + nglu) := by
    rw [e15, e1]
    field_simp
  rw [k]
  linear_combination h0 + h1 + 2 * h2 - h3 - h4

/-- C97: the same for the astrocytes. -/
theorem avc_charge_a (p : Par) : Invariant (rhs p) fun x =>
    charge (x 18) (x 5) (x 6) (x 7) (x 8) (x 9) - p.n2 * p.acap / (p.F * p.v) * x 16 := by
  refine invariant_of_deriv fun t x z y h hy hd => ?_
  obtain ⟨⟨nK, nNa, nCa, nCl, nglu⟩, ⟨aK, aNa, aCa, aCl, aglu⟩, -, -, h⟩ := rhs_some h
  obtain ⟨sn, sa, -, e1, g1, -, g2, -, -, -, -, -, -, e16, -, -, -, -, -, -, -, h5, h6, h7, h8, h9, -⟩ :=
    assemble_some h
  have d := (((hd 18).mul (((((hd 5).add (hd 6)).add ((hd 7).const_mul 2)).sub (hd 8)).sub (hd 9))).sub
    ((hd 16).const_mul (p.n2 * p.acap / (p.F * p.v))))
  refine d.congr_deriv ?_
  simp only [hy, Pi.add_apply, Pi.sub_apply]
  have k : p.n2 * p.acap / (p.F * p.v) * z 16 = -sa * (aNa + aK + aCa + aCl + aglu) := by
    rw [e16, e1]
    field_simp
  rw [k]
  linear_combination h5 + h6 + 2 * h7 - h8 - h9

/-! ### C98 -/

theorem smooth2_mem (x : ℝ) : 0 < smooth2 x ∧ smooth2 x < 1 := by
  have h := exp_pos (100 * x)
  refine ⟨by unfold smooth2; positivity, ?_⟩
  rw [smooth2, div_lt_one (by linarith)]
  linarith

/-- C98: at the ends of the unit interval the field of the two recovery variables points inwards. -/
theorem avc_recovery (hp : 0 < p.T0v ∧ 0 < p.Tfv ∧ 0 < p.T0r ∧ 0 < p.Tfr) (h : rhs p t x = some z) :
    (x 19 = 0 → 0 < z 19) ∧ (x 19 = 1 → z 19 < 0) ∧ (x 20 = 0 → 0 < z 20) ∧ (x 20 = 1 → z 20 < 0) := by
  obtain ⟨h1, h2, h3, h4⟩ := hp
  obtain ⟨⟨nK, nNa, nCa, nCl, nglu⟩, ⟨aK, aNa, aCa, aCl, aglu⟩, -, -, h⟩ := rhs_some h
  obtain ⟨sn, sa, -, -, -, -, -, -, -, -, -, -, -, -, e1, e2, -⟩ := assemble_some h
  rw [e1, e2]
  have s1 := smooth2_mem ((x 10 - p.alpha) / 10)
  have s2 := smooth2_mem ((x 10 - p.alphaP) / 10)
  have s3 := smooth2_mem (x 19 - p.v0)
  have s4 := smooth2_mem (x 19 - p.v0P)
  refine ⟨fun e => ?_, fun e => ?_, fun e => ?_, fun e => ?_⟩ <;> simp only [recup, e]
  · have := div_pos (sub_pos.2 s1.2) h1
    simpa using this
  · have := div_pos s2.1 h2
    simpa using this
  · have := div_pos (sub_pos.2 s3.2) h3
    simpa using this
  · have := div_pos s4.1 h4
    simpa using this

/-- C98: along solutions the recovery variables stay in the unit interval. -/
theorem avc_recovery_stays (hp : 0 < p.T0v ∧ 0 < p.Tfv ∧ 0 < p.T0r ∧ 0 < p.Tfr) {a b : ℝ}
    {y : ℝ → Fin 21 → ℝ} (hy : Solves (rhs p) (Set.Icc a b) y)
    (h19 : y a 19 ∈ Set.Icc (0 : ℝ) 1) (h20 : y a 20 ∈ Set.Icc (0 : ℝ) 1) {t : ℝ}
    (ht : t ∈ Set.Icc a b) : y t 19 ∈ Set.Icc (0 : ℝ) 1 ∧ y t 20 ∈ Set.Icc (0 : ℝ) 1 := by
  choose! z hz hd using hy
  have key : ∀ i : Fin 21, y a i ∈ Set.Icc (0 : ℝ) 1 → (∀ s ∈ Set.Icc a b, y s i = 0 → 0 < z s i) →
      (∀ s ∈ Set.Icc a b, y s i = 1 → z s i < 0) → y t i ∈ Set.Icc (0 : ℝ) 1 := by
    intro i h0 h1 h2
    have sub : ∀ {s}, s ∈ Set.Ico a b → s ∈ Set.Icc a b := fun h => Set.Ico_subset_Icc_self h
    constructor
    · have := image_le_of_deriv_right_lt_deriv_boundary' (f := fun s => -y s i) (f' := fun s => -z s i)
        (a := a) (b := b) (B := fun _ => 0) (B' := fun _ => 0)
        (fun s hs => (hd s hs i).neg.continuousAt.continuousWithinAt)
        (fun s hs => (hd s (sub hs) i).neg.hasDerivWithinAt) (by simpa using h0.1) continuousOn_const
        (fun s _ => hasDerivWithinAt_const ..)
        (fun s hs e => by simpa using h1 s (sub hs) (by simpa using e)) ht
      simpa using this
    · exact image_le_of_deriv_right_lt_deriv_boundary' (f := fun s => y s i) (f' := fun s => z s i)
        (a := a) (b := b) (B := fun _ => 1) (B' := fun _ => 0)
        (fun s hs => (hd s hs i).continuousAt.continuousWithinAt)
        (fun s hs => (hd s (sub hs) i).hasDerivWithinAt) h0.2 continuousOn_const
        (fun s _ => hasDerivWithinAt_const ..)
        (fun s hs e => h2 s (sub hs) e) ht
  exact ⟨key 19 h19 (fun s hs => (avc_recovery hp (hz s hs)).1) fun s hs => (avc_recovery hp (hz s hs)).2.1,
    key 20 h20 (fun s hs => (avc_recovery hp (hz s hs)).2.2.1)
      fun s hs => (avc_recovery hp (hz s hs)).2.2.2⟩

/-- the constants make sense. -/
structure Sound (p : Par) : Prop where
  F : 0 < p.F
  RT : 0 < p.RT
  v : 0 < p.v
  v1 : 0 < p.nPropVol0
  v2 : 0 < p.aPropVol0
  ncap : 0 < p.ncap
  acap : 0 < p.acap

/-- the state makes sense: positive concentrations and volumes of the three media. -/
structure Phys (x : Fin 21 → ℝ) : Prop where
  conc : ∀ i : Fin 15, 0 < x ⟨i, by omega⟩
  vn : 0 < x 17
  va : 0 < x 18
  ve : x 17 + x 18 < 1

theorem Phys.all (hx : Phys x) : 0 < x 0 ∧ 0 < x 1 ∧ 0 < x 2 ∧ 0 < x 3 ∧ 0 < x 4 ∧ 0 < x 5 ∧ 0 < x 6 ∧
    0 < x 7 ∧ 0 < x 8 ∧ 0 < x 9 ∧ 0 < x 10 ∧ 0 < x 11 ∧ 0 < x 12 ∧ 0 < x 13 ∧ 0 < x 14 :=
  ⟨hx.conc 0, hx.conc 1, hx.conc 2, hx.conc 3, hx.conc 4, hx.conc 5, hx.conc 6, hx.conc 7, hx.conc 8,
    hx.conc 9, hx.conc 10, hx.conc 11, hx.conc 12, hx.conc 13, hx.conc 14⟩

theorem Sound.FRT (hp : Sound p) : 0 < p.FRT := div_pos hp.F hp.RT

theorem nernst_def {ce ci : ℝ} (h1 : 0 < ce) (h2 : 0 < ci) :
    nernst p ce ci = some (p.RTF * log (ce / ci)) := by
  unfold nernst
  rw [dv_pos h2.ne', Option.bind_some, lg_pos (div_pos h1 h2)]
  rfl

theorem exp_ne_one {a : ℝ} (h : a ≠ 0) : exp a - 1 ≠ 0 := fun e => h (exp_eq_one_iff a |>.1 (by linarith))

theorem kdr_pos {V : ℝ} (h : V ≠ 8) : 0 < 0.0047 * (V - 8) / (1 - exp (-(V - 8) / 12)) := by
  rcases lt_or_gt_of_ne h with h | h
  · apply div_pos_of_neg_of_neg
    · linarith
    · have : 1 < exp (-(V - 8) / 12) := one_lt_exp_iff.2 (by linarith)
      linarith
  · apply div_pos
    · linarith
    · have : exp (-(V - 8) / 12) < 1 := exp_lt_one_iff.2 (by linarith)
      linarith

theorem iKDR_def (g V EK : ℝ) (h : V ≠ 8) : ∃ y, iKDR g V EK = some y := by
  unfold iKDR
  have h0 : 1 - exp (-(V - 8) / 12) ≠ 0 := fun e =>
    exp_ne_one (a := -(V - 8) / 12) (fun e' => h (by linarith)) (by linarith)
  have h1 := kdr_pos h
  have h2 := exp_pos (-(V + 127) / 30)
  have h3 := exp_pos ((V + 25) / 4)
  rw [dv_pos h0, Option.bind_some, dv_pos (by linarith), Option.bind_some, dv_pos (by linarith)]
  exact ⟨_, rfl⟩

theorem iKDR_eight (g EK : ℝ) : iKDR g 8 EK = none := by
  unfold iKDR dv
  rw [if_pos (by norm_num)]
  rfl

theorem iBK_def (g V EK : ℝ) {Ca : ℝ} (h : 0 < Ca) : ∃ y, iBK g V EK Ca = some y := by
  unfold iBK
  rw [dv_pos (by positivity)]
  exact ⟨_, rfl⟩

theorem iKir_def (V EK : ℝ) {K : ℝ} (h : 0 < K) : ∃ y, iKir p V EK K = some y := by
  unfold iKir
  rw [dv_pos (by positivity), Option.bind_some, dv_pos (by positivity)]
  exact ⟨_, rfl⟩

theorem gate_def {A B : ℝ} (va ka vb kb V : ℝ) (hA : 0 < A) (hB : 0 < B) :
    ∃ y, gate A va ka B vb kb V = some y := by
  unfold gate
  rw [dv_pos (by positivity), Option.bind_some, dv_pos (by positivity), Option.bind_some,
    dv_pos (by positivity)]
  exact ⟨_, rfl⟩

theorem iCaHVA_def (hp : Sound p) (ph g : ℝ) {V : ℝ} (Ci Ce : ℝ) (h : V ≠ 0) :
    ∃ y, iCaHVA p ph g V Ci Ce = some y := by
  unfold iCaHVA
  obtain ⟨m, hm⟩ := gate_def (A := 8.5) (B := 35) (-8) (-12.5) 74 14.5 V (by norm_num) (by norm_num)
  obtain ⟨k, hk⟩ := gate_def (A := 0.0015) (B := 0.0055) 29 8 23 (-8) V (by norm_num) (by norm_num)
  rw [dv_pos (exp_ne_one (mul_ne_zero two_ne_zero (mul_ne_zero hp.FRT.ne' h))), Option.bind_some, hm,
    Option.bind_some, hk]
  exact ⟨_, rfl⟩

theorem iCaHVA_zero (ph g Ci Ce : ℝ) : iCaHVA p ph g 0 Ci Ce = none := by
  unfold iCaHVA dv
  rw [if_pos (by norm_num)]
  rfl

theorem iNaP_def (g V ENa : ℝ) : ∃ y, iNaP g V ENa = some y := by
  unfold iNaP
  obtain ⟨m, hm⟩ := gate_def (A := 200) (B := 25) (-18) (-16) 58 8 V (by norm_num) (by norm_num)
  rw [hm]
  exact ⟨_, rfl⟩

theorem receptor_def (hp : Sound p) (f PK AB : ℝ) {w Ci Ce V : ℝ} (hw : w ≠ 0) (he : 0 < Ce) (hV : V ≠ 0) :
    ∃ y, receptor p f PK w Ci Ce V AB = some y := by
  unfold receptor ghk
  rw [dv_pos he.ne', Option.bind_some, dv_pos (exp_ne_one (mul_ne_zero hw (mul_ne_zero hp.FRT.ne' hV))),
    Option.bind_some, dv_pos hp.RT.ne']
  exact ⟨_, rfl⟩

theorem nmda_def {glu : ℝ} (V : ℝ) (h : 0 < glu) : ∃ y, nmda glu V = some y := by
  unfold nmda
  rw [dv_pos (by positivity), Option.bind_some, dv_pos (by positivity)]
  exact ⟨_, rfl⟩

theorem ampa_def {glu : ℝ} (h : 0 < glu) : ∃ y, ampa glu = some y := by
  unfold ampa
  rw [dv_pos (by positivity)]
  exact ⟨_, rfl⟩

theorem pump_def {K Na : ℝ} (V : ℝ) (h1 : 0 < K) (h2 : 0 < Na) : pump p K Na V =
    some ((K / (K + 3.7)) ^ 2 * (Na / (Na + 0.6)) ^ 3 * (0.052 * sinh (p.FRT * (V + 176.5)) /
      (0.026 * exp (p.FRT * (V + 176.5)) + 22.5 * exp (-(p.FRT * (V + 176.5)))))) := by
  unfold pump
  rw [dv_pos (by positivity), Option.bind_some, dv_pos (by positivity), Option.bind_some,
    dv_pos (by positivity)]
  rfl

theorem iCapompe_def (d g : ℝ) {Ca : ℝ} (h : 0 < Ca) : ∃ y, iCapompe d g Ca = some y := by
  unfold iCapompe
  rw [dv_pos (by positivity)]
  exact ⟨_, rfl⟩

theorem iClpompe_def (d g : ℝ) {Cl : ℝ} (h : 0 < Cl) : ∃ y, iClpompe d g Cl = some y := by
  unfold iClpompe
  rw [dv_pos (by positivity)]
  exact ⟨_, rfl⟩

theorem antiport_def (hp : Sound p) {a b c d : ℝ} (V : ℝ) (h1 : 0 < a) (h2 : 0 < b) (h3 : 0 < c)
    (h4 : 0 < d) : ∃ y, antiport p a b c d V = some y := by
  unfold antiport
  have := hp.RT
  rw [dv_pos (by positivity), Option.bind_some, dv_pos (by positivity)]
  exact ⟨_, rfl⟩

theorem eTransp_def {a b c d e f : ℝ} (h1 : 0 < a) (h2 : 0 < b) (h3 : 0 < c) (h4 : 0 < d) (h5 : 0 < e)
    (h6 : 0 < f) : ∃ y, eTransp p a b c d e f = some y := by
  unfold eTransp
  rw [dv_pos h1.ne', Option.bind_some, dv_pos h4.ne', Option.bind_some, dv_pos h5.ne', Option.bind_some,
    lg_pos (by positivity)]
  exact ⟨_, rfl⟩

theorem iStre_def (g v : ℝ) {v0 : ℝ} (h : 0 < v0) : ∃ y, iStre g v0 v = some y := by
  unfold iStre
  rw [dv_pos h.ne']
  exact ⟨_, rfl⟩

/-- the value of `nA3*nB3*nC3`. -/
noncomputable def pumpN (p : Par) (x : Fin 21 → ℝ) : ℝ :=
  (x 10 / (x 10 + 3.7)) ^ 2 * (x 1 / (x 1 + 0.6)) ^ 3 * (0.052 * sinh (p.FRT * (x 15 + 176.5)) /
    (0.026 * exp (p.FRT * (x 15 + 176.5)) + 22.5 * exp (-(p.FRT * (x 15 + 176.5)))))

/-- the neuron is defined, and the sodium current depends on the time through its pump only. -/
theorem neuron_def (hp : Sound p) (hx : Phys x) (h0 : x 15 ≠ 0) (h8 : x 15 ≠ 8) :
    ∃ b, ∀ t, ∃ n, neuron p t x = some n ∧
      n.2.1 = b + 1.5 * 0.01 * p.nrNaK * fdepol t (x 20) * pumpN p x := by
  obtain ⟨c0, c1, c2, c3, c4, c5, c6, c7, c8, c9, c10, c11, c12, c13, c14⟩ := hx.all
  obtain ⟨y1, e1⟩ := iKDR_def p.ngKDR (x 15) (p.RTF * log (x 10 / x 0)) h8
  obtain ⟨y2, e2⟩ := iBK_def p.ngBK (x 15) (p.RTF * log (x 10 / x 0)) c2
  obtain ⟨y3, e3⟩ := iCaHVA_def hp p.npHVA p.ngCaHVA (x 2) (x 12) h0
  obtain ⟨y4, e4⟩ := iNaP_def p.ngNaP (x 15) (p.RTF * log (x 11 / x 1))
  obtain ⟨y5, e5⟩ := nmda_def (x 15) c14
  obtain ⟨y6, e6⟩ := receptor_def hp 1 p.nPK y5 (Ci := x 0) one_ne_zero c10 h0
  obtain ⟨y7, e7⟩ := receptor_def hp 1 p.nPK y5 (Ci := x 1) one_ne_zero c11 h0
  obtain ⟨y8, e8⟩ := receptor_def hp (4 * 6) p.nPK y5 (Ci := x 2) two_ne_zero c12 h0
  obtain ⟨y11, e11⟩ := antiport_def hp (x 15) c1 c11 c2 c12
  obtain ⟨y12, e12⟩ := eTransp_def (p := p) c1 c11 c0 c10 c4 c14
  obtain ⟨y13, e13⟩ := iStre_def p.ngstre (x 17) hp.v1
  refine ⟨y4 + y7 + 1.5 * 0.01 * (p.nrNaCa / 20736) * y11 + 3 * 0.001 * p.ngtransp * (x 15 - y12),
    fun t => ?_⟩
  obtain ⟨y9, e9⟩ := iCapompe_def (fdepol t (x 20)) p.ngCapompe c2
  obtain ⟨y10, e10⟩ := iClpompe_def (fdepol t (x 20)) p.ngClpompe c3
  unfold neuron
  dsimp only
  rw [nernst_def c10 c0, Option.bind_some, nernst_def c11 c1, Option.bind_some,
    nernst_def c14 c4, Option.bind_some, nernst_def c13 c3, Option.bind_some, e1, Option.bind_some, e2,
    Option.bind_some, e3, Option.bind_some, e4, Option.bind_some, e5, Option.bind_some, e6,
    Option.bind_some, e7, Option.bind_some, e8, Option.bind_some, pump_def (x 15) c10 c1,
    Option.bind_some, e9, Option.bind_some, e10, Option.bind_some, e11, Option.bind_some, e12,
    Option.bind_some, e13]
  refine ⟨_, rfl, ?_⟩
  show y4 + y7 + 1.5 * 0.01 * p.nrNaK * fdepol t (x 20) * pumpN p x +
    1.5 * 0.01 * (p.nrNaCa / 20736) * y11 + 3 * 0.001 * p.ngtransp * (x 15 - y12) = _
  ring

theorem astro_def (hp : Sound p) (hx : Phys x) (t : ℝ) (h0 : x 16 ≠ 0) (h8 : x 16 ≠ 8) :
    ∃ n, astro p t x = some n := by
  obtain ⟨c0, c1, c2, c3, c4, c5, c6, c7, c8, c9, c10, c11, c12, c13, c14⟩ := hx.all
  unfold astro
  dsimp only
  rw [nernst_def c10 c5, Option.bind_some, nernst_def c11 c6, Option.bind_some,
    nernst_def c14 c9, Option.bind_some, nernst_def c13 c8, Option.bind_some]
  obtain ⟨y1, e⟩ := iKDR_def p.agKDR (x 16) (p.RTF * log (x 10 / x 5)) h8
  rw [e, Option.bind_some]
  obtain ⟨y2, e⟩ := iBK_def p.agBK (x 16) (p.RTF * log (x 10 / x 5)) c7
  rw [e, Option.bind_some]
  obtain ⟨y14, e⟩ := iKir_def (p := p) (x 16) (p.RTF * log (x 10 / x 5)) c10
  rw [e, Option.bind_some]
  obtain ⟨y3, e⟩ := iCaHVA_def hp p.apHVA p.agCaHVA (x 7) (x 12) h0
  rw [e, Option.bind_some]
  obtain ⟨y4, e⟩ := iNaP_def p.agNaP (x 16) (p.RTF * log (x 11 / x 6))
  rw [e, Option.bind_some]
  obtain ⟨y5, e⟩ := ampa_def c14
  rw [e, Option.bind_some]
  obtain ⟨y6, e⟩ := receptor_def hp 1 p.aPK y5 (Ci := x 5) one_ne_zero c10 h0
  rw [e, Option.bind_some]
  obtain ⟨y7, e⟩ := receptor_def hp 1 p.aPK y5 (Ci := x 6) one_ne_zero c11 h0
  rw [e, Option.bind_some, pump_def (x 16) c10 c6, Option.bind_some]
  obtain ⟨y9, e⟩ := iCapompe_def (fdepol t (x 20)) p.agCapompe c7
  rw [e, Option.bind_some]
  obtain ⟨y10, e⟩ := iClpompe_def (fdepol t (x 20)) p.agClpompe c8
  rw [e, Option.bind_some]
  obtain ⟨y11, e⟩ := antiport_def hp (x 16) c6 c11 c7 c12
  rw [e, Option.bind_some]
  obtain ⟨y12, e⟩ := eTransp_def (p := p) c6 c11 c5 c10 c9 c14
  rw [e, Option.bind_some]
  obtain ⟨y13, e⟩ := iStre_def p.agstre (x 18) hp.v2
  rw [e]
  exact ⟨_, rfl⟩

/-- a chain of computations one of which fails. -/
theorem bind_none_of {α β : Type*} {o : Option α} {f : α → Option β} (h : ∀ a, f a = none) :
    o.bind f = none := by
  cases o
  · rfl
  · exact h _

theorem neuron_none (t : ℝ) (h : x 15 = 0 ∨ x 15 = 8) : neuron p t x = none := by
  unfold neuron
  dsimp only
  refine bind_none_of fun EK => bind_none_of fun _ => bind_none_of fun _ => bind_none_of fun _ => ?_
  rcases h with h | h <;> rw [h]
  · refine bind_none_of fun _ => bind_none_of fun _ => ?_
    rw [iCaHVA_zero]; rfl
  · rw [iKDR_eight]; rfl

theorem astro_none (t : ℝ) (h : x 16 = 0 ∨ x 16 = 8) : astro p t x = none := by
  unfold astro
  dsimp only
  refine bind_none_of fun EK => bind_none_of fun _ => bind_none_of fun _ => bind_none_of fun _ => ?_
  rcases h with h | h <;> rw [h]
  · refine bind_none_of fun _ => bind_none_of fun _ => bind_none_of fun _ => ?_
    rw [iCaHVA_zero]; rfl
  · rw [iKDR_eight]; rfl

theorem assemble_def (hp : Sound p) (hx : Phys x) (n a : ℝ × ℝ × ℝ × ℝ × ℝ) :
    ∃ z, assemble p x n a = some z := by
  obtain ⟨nK, nNa, nCa, nCl, nglu⟩ := n
  obtain ⟨aK, aNa, aCa, aCl, aglu⟩ := a
  unfold assemble
  dsimp only
  have e : ¬(x 17 = 0 ∨ x 18 = 0 ∨ 1 - x 18 - x 17 = 0) := by
    have h1 := hx.vn
    have h2 := hx.va
    have h3 := hx.ve
    rintro (h | h | h) <;> linarith
  rw [dv_pos (mul_pos hp.F hp.v).ne', Option.bind_some, dv_pos (mul_pos hp.F hp.v).ne', Option.bind_some,
    dv_pos hp.ncap.ne', Option.bind_some, dv_pos hp.acap.ne', Option.bind_some,
    dv_pos (mul_pos hp.v hx.vn).ne', Option.bind_some, dv_pos (mul_pos hp.v hx.va).ne', Option.bind_some,
    if_neg e]
  exact ⟨_, rfl⟩

/-- C98 (the full claim is that the right hand side is defined for all states that make sense): it is
defined exactly if none of the two potentials is 0 mV or 8 mV. -/
theorem avc_defined_partial (hp : Sound p) (hx : Phys x) (t : ℝ) :
    (∃ z, rhs p t x = some z) ↔ x 15 ≠ 0 ∧ x 15 ≠ 8 ∧ x 16 ≠ 0 ∧ x 16 ≠ 8 := by
  constructor
  · rintro ⟨z, h⟩
    obtain ⟨n, a, h1, h2, -⟩ := rhs_some h
    refine ⟨fun e => ?_, fun e => ?_, fun e => ?_, fun e => ?_⟩
    · rw [neuron_none t (.inl e)] at h1; cases h1
    · rw [neuron_none t (.inr e)] at h1; cases h1
    · rw [astro_none t (.inl e)] at h2; cases h2
    · rw [astro_none t (.inr e)] at h2; cases h2
  · rintro ⟨h1, h2, h3, h4⟩
    obtain ⟨b, hb⟩ := neuron_def hp hx h1 h2
    obtain ⟨n, hn, -⟩ := hb t
    obtain ⟨a, ha⟩ := astro_def hp hx t h3 h4
    unfold rhs
    rw [hn, Option.bind_some, ha, Option.bind_some]
    exact assemble_def hp hx n a

theorem shipped_sound {k rn ra : ℝ} (hk : 0 < k) (hn : 0 < rn) (ha : 0 < ra) : Sound (shipped k rn ra) := by
  constructor <;> simp only [shipped] <;> positivity

theorem init_phys {k : ℝ} (hk : 0 < k) : Phys (init k) := by
  constructor
  · intro i
    match i with
    | 0 => show (0 : ℝ) < 130.659; norm_num
    | 1 => show (0 : ℝ) < 17.7391; norm_num
    | 2 => show (0 : ℝ) < 0.0006; norm_num
    | 3 => show (0 : ℝ) < 14; norm_num
    | 4 => show (0 : ℝ) < 3; norm_num
    | 5 => show (0 : ℝ) < 130.658; norm_num
    | 6 => show (0 : ℝ) < 17.7391; norm_num
    | 7 => show (0 : ℝ) < 0.0006; norm_num
    | 8 => show (0 : ℝ) < 7; norm_num
    | 9 => show (0 : ℝ) < 3; norm_num
    | 10 => show (0 : ℝ) < 5.4; norm_num
    | 11 => show (0 : ℝ) < 140; norm_num
    | 12 => show (0 : ℝ) < 2.0; norm_num
    | 13 => show (0 : ℝ) < 149.397; norm_num
    | 14 => show (0 : ℝ) < 0.001; norm_num
  · show 0 < 0.8 * 25000 / (10000 + k * 9000) * 10000 / 25000
    positivity
  · show 0 < k * (0.8 * 25000 / (10000 + k * 9000)) * 9000 / 25000
    positivity
  · show 0.8 * 25000 / (10000 + k * 9000) * 10000 / 25000 +
      k * (0.8 * 25000 / (10000 + k * 9000)) * 9000 / 25000 < 1
    have : 0.8 * 25000 / (10000 + k * 9000) * 10000 / 25000 +
      k * (0.8 * 25000 / (10000 + k * 9000)) * 9000 / 25000 = 0.8 := by
      have : 10000 + k * 9000 ≠ 0 := by positivity
      field_simp
    rw [this]; norm_num

/-- C98 fails: with the constants of the constructor and the initial concentrations and volumes, for a
neuron at 0 mV the right hand side computes 0/0. -/
theorem avc_defined_wrong {k rn ra : ℝ} (hk : 0 < k) (hn : 0 < rn) (ha : 0 < ra) :
    ¬ ∀ x, Phys x → ∃ z, rhs (shipped k rn ra) 0 x = some z := by
  intro h
  have hy : Phys (Function.update (init k) 15 0) := by
    have := init_phys hk
    exact ⟨fun i => by
      rw [Function.update_of_ne (fun e => by have := congrArg Fin.val e; have := i.2; simp at *; omega)]
      exact this.conc i, this.vn, this.va, this.ve⟩
  have := (avc_defined_partial (shipped_sound hk hn ha) hy 0).1 (h _ hy)
  exact this.1 (Function.update_self ..)

/-- the hypotheses hold: at the initial state of the code the right hand side is defined. -/
theorem avc_init_defined {k rn ra : ℝ} (hk : 0 < k) (hn : 0 < rn) (ha : 0 < ra) (t : ℝ) :
    ∃ z, rhs (shipped k rn ra) t (init k) = some z := by
  refine (avc_defined_partial (shipped_sound hk hn ha) (init_phys hk) t).2 ⟨?_, ?_, ?_, ?_⟩
  · show (-53.3 : ℝ) ≠ 0; norm_num
  · show (-53.3 : ℝ) ≠ 8; norm_num
  · show (-73.3 : ℝ) ≠ 0; norm_num
  · show (-73.3 : ℝ) ≠ 8; norm_num

/-- C98: in the initial state the volume of the neurons is at rest, the one of the astrocytes is not (the
concentration of potassium in the astrocytes is 130.658 and not 130.659). -/
theorem avc_init_volumes {k rn ra t : ℝ} (h : rhs (shipped k rn ra) t (init k) = some z) :
    z 17 = 0 ∧ z 18 = -0.04 := by
  obtain ⟨⟨nK, nNa, nCa, nCl, nglu⟩, ⟨aK, aNa, aCa, aCl, aglu⟩, -, -, h⟩ := rhs_some h
  obtain ⟨sn, sa, -, -, -, -, -, v1, v2, -, h1, h2, -⟩ := assemble_some h
  have hv : ∀ w c : ℝ, w ≠ 0 → 25000 * w * c / (25000 * w) = c := fun w c h => by field_simp
  constructor
  · rw [h1]
    show 20 * (130.659 + 17.7391 + 0.0006 + 14 + 3 + 25000 * init k 17 *
      (17.7391 + 130.659 + 2 * 0.0006 - 14 - 3) / (25000 * init k 17)
      - (5.4 + 140 + 2.0 + 149.397 + 0.001)) = 0
    rw [hv _ _ v1]
    norm_num
  · rw [h2]
    show 20 * (130.658 + 17.7391 + 0.0006 + 7 + 3 + 25000 * init k 18 *
      (17.7391 + 130.658 + 2 * 0.0006 - 7 - 3) / (25000 * init k 18)
      - (5.4 + 140 + 2.0 + 149.397 + 0.001)) = -0.04
    rw [hv _ _ v2]
    norm_num

/-! ### C99 -/

theorem S_mono {a b : ℝ} (h : a < b) : S a < S b := by
  unfold S
  apply one_div_lt_one_div_of_lt (by positivity)
  have : exp (-20 * (b - 0.7)) < exp (-20 * (a - 0.7)) := exp_lt_exp.2 (by linarith)
  linarith

theorem S_pos (a : ℝ) : 0 < S a := by unfold S; positivity

/-- the energy available decreases with the time. -/
theorem fdepol_anti {r s t : ℝ} (hr : 0 ≤ r) (h : s < t) : fdepol t r < fdepol s r := by
  unfold fdepol
  dsimp only
  have e : exp (-(1 / 60) * t) < exp (-(1 / 60) * s) := exp_lt_exp.2 (by linarith)
  have e0 := exp_pos (-(1 / 60) * t)
  generalize ha : (1.025 : ℝ) * (0.25 + (1 - 0.25) * exp (-(1 / 60) * t)) = a
  generalize hb : (1.025 : ℝ) * (0.25 + (1 - 0.25) * exp (-(1 / 60) * s)) = b
  have hab : a < b := by rw [← ha, ← hb]; linarith
  have h0 : 0 < a := by rw [← ha]; positivity
  have hS : S (a / 1.025) < S (b / 1.025) := S_mono (by
    apply div_lt_div_of_pos_right hab; norm_num)
  have hS' : 0.6 * r * S (a / 1.025) ≤ 0.6 * r * S (b / 1.025) :=
    mul_le_mul_of_nonneg_left hS.le (by positivity)
  have hS0 := (S_pos (a / 1.025)).le
  have h1 : 0 < 1 + 0.6 * r * S (a / 1.025) := by positivity
  exact (mul_lt_mul_of_pos_right hab h1).trans_le (mul_le_mul_of_nonneg_left (by linarith) (by linarith))

/-- the right hand side does not depend on the time. -/
def Autonomous {n : ℕ} (f : ℝ → (Fin n → ℝ) → Option (Fin n → ℝ)) : Prop := ∀ s t x, f s x = f t x

/-- C99: wherever the right hand side of the stroke problem is defined, with the neurons above -176.5 mV and
the recovery variable not negative, it takes different values at different times. -/
theorem avc_time (hp : Sound p) (hp' : 0 < p.n1 ∧ 0 < p.nsurf ∧ 0 < p.nrNaK) (hx : Phys x)
    (hr : 0 ≤ x 20) (hV : -176.5 < x 15) {s t : ℝ} (hst : s ≠ t) {z w : Fin 21 → ℝ}
    (hz : rhs p s x = some z) (hw : rhs p t x = some w) : z 1 ≠ w 1 := by
  obtain ⟨h1, h2, -, -⟩ := (avc_defined_partial hp hx s).1 ⟨z, hz⟩
  obtain ⟨b, hb⟩ := neuron_def hp hx h1 h2
  have hpump : 0 < pumpN p x := by
    obtain ⟨c0, c1, c2, c3, c4, c5, c6, c7, c8, c9, c10, -⟩ := hx.all
    have : 0 < sinh (p.FRT * (x 15 + 176.5)) := Real.sinh_pos_iff.2 (mul_pos hp.FRT (by linarith))
    unfold pumpN
    positivity
  have main : ∀ t z, rhs p t x = some z → z 1 * x 17 =
      -(1000 * p.n1 * p.nsurf / (p.F * p.v)) * (b + 1.5 * 0.01 * p.nrNaK * fdepol t (x 20) * pumpN p x)
      - x 1 * (p.alpha_n * (x 0 + x 1 + x 2 + x 3 + x 4 + p.nnP0 / (p.v * x 17)
      - (x 10 + x 11 + x 12 + x 13 + x 14))) := by
    intro t z h
    obtain ⟨n', e1, e2⟩ := hb t
    obtain ⟨⟨nK, nNa, nCa, nCl, nglu⟩, ⟨aK, aNa, aCa, aCl, aglu⟩, h3, -, h⟩ := rhs_some h
    rw [e1] at h3
    cases h3
    obtain ⟨sn, sa, es, -, -, -, -, v1, v2, -, e17, -, -, -, -, -, -, e, -⟩ := assemble_some h
    rw [e, e17, es, ← e2]
  intro hzw
  have e := (main s z hz).symm.trans ((congrArg (· * x 17) hzw).trans (main t w hw))
  have hsn : 0 < 1000 * p.n1 * p.nsurf / (p.F * p.v) :=
    div_pos (mul_pos (mul_pos (by norm_num) hp'.1) hp'.2.1) (mul_pos hp.F hp.v)
  have hc : 0 < 1.5 * 0.01 * p.nrNaK := mul_pos (by norm_num) hp'.2.2
  have e2 : 1.5 * 0.01 * p.nrNaK * fdepol s (x 20) * pumpN p x =
      1.5 * 0.01 * p.nrNaK * fdepol t (x 20) * pumpN p x := by
    have := mul_left_cancel₀ (neg_ne_zero.2 hsn.ne') (sub_left_inj.1 e)
    linarith
  have e3 : fdepol s (x 20) = fdepol t (x 20) :=
    mul_left_cancel₀ hc.ne' (mul_right_cancel₀ hpump.ne' e2)
  rcases lt_or_gt_of_ne hst with h | h
  · exact absurd e3 (fdepol_anti hr h).ne'
  · exact absurd e3 (fdepol_anti hr h).ne

/-- C99 fails: the stroke problem is declared autonomous and is not. -/
theorem avc_autonomous_wrong {k rn ra : ℝ} (hk : 0 < k) (hn : 0 < rn) (ha : 0 < ra) :
    autonomous = true ∧ ¬ Autonomous (rhs (shipped k rn ra)) := by
  refine ⟨rfl, fun h => ?_⟩
  obtain ⟨z, hz⟩ := avc_init_defined hk hn ha 0
  have hs := shipped_sound hk hn ha
  refine avc_time hs ⟨?_, ?_, ?_⟩ (init_phys hk) ?_ ?_ zero_ne_one hz ((h 1 0 _).trans hz) rfl
  · show 0 < 0.8 * 25000 / (10000 + k * 9000)
    positivity
  · show 0 < 4 * 3.141592654 * rn * rn
    positivity
  · show (0 : ℝ) < 13.6319
    norm_num
  · show (0 : ℝ) ≤ 0
    norm_num
  · show (-176.5 : ℝ) < -53.3
    norm_num

end Odes.Avc
