import Verif.Lemmas.RodasEnergy
import Verif.Props.RadauConsts

/-!
# Radau IIA of order 5 on nonlinear dissipative problems: energy estimates for one step
-/

namespace Odes.RadauB

open Odes.Rodas (nrm nrm_nonneg nrm_add nrm_smul nrm_sq Energy)
open Odes.Radau (radauA radauAinv s6sq)

variable {V : Type*} [AddCommGroup V] [Module ℝ V] {B : LinearMap.BilinForm ℝ V}

theorem cs (hB : Energy B 0) (x y : V) : B x y ≤ nrm B x * nrm B y := by
  apply abs_le_of_sq_le_sq' _ (mul_nonneg (nrm_nonneg x) (nrm_nonneg y)) |>.2
  rw [mul_pow, nrm_sq hB, nrm_sq hB]
  exact LinearMap.BilinForm.apply_sq_le_of_symm B hB.nonneg ⟨hB.symm⟩ x y

/-- algebraic stability: the growth of the norm in one step. -/
theorem step_identity (hs : ∀ x y, B x y = B y x) (e G0 G1 G2 e0 e1 e2 : V)
    (h0 : e0 = e + (radauA 0 0 • G0 + radauA 0 1 • G1 + radauA 0 2 • G2))
    (h1 : e1 = e + (radauA 1 0 • G0 + radauA 1 1 • G1 + radauA 1 2 • G2))
    (h2 : e2 = e + (radauA 2 0 • G0 + radauA 2 1 • G1 + radauA 2 2 • G2)) :
    B e2 e2 = B e e + 2 * (radauA 2 0 * B e0 G0 + radauA 2 1 * B e1 G1 + radauA 2 2 * B e2 G2)
      - 1 / 324 * B ((Real.sqrt 6 - 1) • G0 - (Real.sqrt 6 + 1) • G1 + (2 : ℝ) • G2)
        ((Real.sqrt 6 - 1) • G0 - (Real.sqrt 6 + 1) • G1 + (2 : ℝ) • G2) := by
  have h6 := s6sq
  subst h0 h1 h2
  simp only [map_add, map_sub, map_smul, LinearMap.add_apply, LinearMap.sub_apply, LinearMap.smul_apply, smul_eq_mul]
  rw [hs G0 e, hs G1 e, hs G2 e, hs G1 G0, hs G2 G0, hs G2 G1]
  simp only [radauA, Matrix.of_apply, Matrix.cons_val', Matrix.cons_val_zero, Matrix.cons_val_one, Matrix.cons_val,
    Matrix.cons_val_fin_one]
  generalize Real.sqrt 6 = s at *
  generalize B G0 G0 = p00
  generalize B G0 G1 = p01
  generalize B G0 G2 = p02
  generalize B G1 G1 = p11
  generalize B G1 G2 = p12
  generalize B G2 G2 = p22
  linear_combination (p00 * (1 / 1296 - 2 * 7 / 12960 + 1 / 324)
    + 2 * p01 * (-1 / 1296 - 2 * 169 / 64800 - 1 / 324)
    + p11 * (1 / 1296 - 2 * 7 / 12960 + 1 / 324) + p02 * (2 / 2700) + p12 * (2 / 2700)) * h6

/-- coercivity of the inverse of the method for the weights `b/c`. -/
theorem stage_identity (hs : ∀ x y, B x y = B y x) (w0 w1 w2 : V) :
    (29 + 6 * Real.sqrt 6) / 18 * B (radauAinv 0 0 • w0 + radauAinv 0 1 • w1 + radauAinv 0 2 • w2) w0
      + (29 - 6 * Real.sqrt 6) / 18 * B (radauAinv 1 0 • w0 + radauAinv 1 1 • w1 + radauAinv 1 2 • w2) w1
      + 1 / 9 * B (radauAinv 2 0 • w0 + radauAinv 2 1 • w1 + radauAinv 2 2 • w2) w2
    = (152 + 53 * Real.sqrt 6) / 36 * B w0 w0 + (152 - 53 * Real.sqrt 6) / 36 * B w1 w1 + 5 / 9 * B w2 w2 := by
  have h6 := s6sq
  simp only [map_add, map_smul, LinearMap.add_apply, LinearMap.smul_apply, smul_eq_mul]
  rw [hs w1 w0, hs w2 w0, hs w2 w1]
  simp only [radauAinv, Matrix.of_apply, Matrix.cons_val', Matrix.cons_val_zero, Matrix.cons_val_one, Matrix.cons_val,
    Matrix.cons_val_fin_one]
  generalize Real.sqrt 6 = s at *
  generalize B w0 w0 = p00
  generalize B w0 w1 = p01
  generalize B w0 w2 = p02
  generalize B w1 w1 = p11
  generalize B w1 w2 = p12
  generalize B w2 w2 = p22
  linear_combination (1 / 6 * p00 + 29 / 45 * p01 - 4 / 45 * p02 + 1 / 6 * p11 - 4 / 45 * p12) * h6

theorem cauchy3 {a0 a1 a2 N q : ℝ} (hN : N ^ 2 = 7.82 * a0 ^ 2 + 0.61 * a1 ^ 2 + 0.55 * a2 ^ 2) (N0 : 0 ≤ N) (q0 : 0 ≤ q)
    (c0 c1 c2 : ℝ) (hq : c0 ^ 2 / 7.82 + c1 ^ 2 / 0.61 + c2 ^ 2 / 0.55 ≤ q ^ 2) :
    c0 * a0 + c1 * a1 + c2 * a2 ≤ q * N := by
  apply abs_le_of_sq_le_sq' _ (mul_nonneg q0 N0) |>.2
  rw [mul_pow, hN]
  refine le_trans ?_ (mul_le_mul_of_nonneg_right hq (by positivity))
  have key : ∀ w0 w1 w2 : ℝ, 0 < w0 → 0 < w1 → 0 < w2 → (c0 * a0 + c1 * a1 + c2 * a2) ^ 2
      ≤ (c0 ^ 2 / w0 + c1 ^ 2 / w1 + c2 ^ 2 / w2) * (w0 * a0 ^ 2 + w1 * a1 ^ 2 + w2 * a2 ^ 2) := by
    intro w0 w1 w2 h0 h1 h2
    have h01 := div_nonneg (sq_nonneg (w0 * c1 * a0 - w1 * c0 * a1)) (mul_pos h0 h1).le
    have h02 := div_nonneg (sq_nonneg (w0 * c2 * a0 - w2 * c0 * a2)) (mul_pos h0 h2).le
    have h12 := div_nonneg (sq_nonneg (w1 * c2 * a1 - w2 * c1 * a2)) (mul_pos h1 h2).le
    have e : (c0 ^ 2 / w0 + c1 ^ 2 / w1 + c2 ^ 2 / w2) * (w0 * a0 ^ 2 + w1 * a1 ^ 2 + w2 * a2 ^ 2)
        - (c0 * a0 + c1 * a1 + c2 * a2) ^ 2 = (w0 * c1 * a0 - w1 * c0 * a1) ^ 2 / (w0 * w1)
          + (w0 * c2 * a0 - w2 * c0 * a2) ^ 2 / (w0 * w2) + (w1 * c2 * a1 - w2 * c1 * a2) ^ 2 / (w1 * w2) := by
      field_simp
      ring
    linarith
  exact key _ _ _ (by norm_num) (by norm_num) (by norm_num)

theorem numbers {a0 a1 a2 e r : ℝ} (p0 : 0 ≤ a0) (p1 : 0 ≤ a1) (p2 : 0 ≤ a2) (he : 0 ≤ e) (hr : 0 ≤ r)
    (H : 7.82 * a0 ^ 2 + 0.61 * a1 ^ 2 + 0.55 * a2 ^ 2 ≤ a0 * (10.06 * e + 2.43 * r) + a1 * (1.39 * e + 0.8 * r)
      + a2 * (0.34 * e + 0.12 * r)) : 0.377 * a0 + 0.513 * a1 + 0.112 * a2 ≤ 2.8 * e + r := by
  obtain ⟨N, hN⟩ : ∃ N, N = Real.sqrt (7.82 * a0 ^ 2 + 0.61 * a1 ^ 2 + 0.55 * a2 ^ 2) := ⟨_, rfl⟩
  have N0 : 0 ≤ N := by rw [hN]; exact Real.sqrt_nonneg _
  have hN2 : N ^ 2 = 7.82 * a0 ^ 2 + 0.61 * a1 ^ 2 + 0.55 * a2 ^ 2 := by rw [hN, Real.sq_sqrt (by positivity)]
  have k1 := cauchy3 hN2 N0 (by norm_num : (0 : ℝ) ≤ 4.05) 10.06 1.39 0.34 (by norm_num)
  have k2 := cauchy3 hN2 N0 (by norm_num : (0 : ℝ) ≤ 1.36) 2.43 0.8 0.12 (by norm_num)
  have k3 := cauchy3 hN2 N0 (by norm_num : (0 : ℝ) ≤ 0.69) 0.377 0.513 0.112 (by norm_num)
  have k4 := mul_le_mul_of_nonneg_right k1 he
  have k5 := mul_le_mul_of_nonneg_right k2 hr
  have k6 : N ^ 2 ≤ N * (4.05 * e + 1.36 * r) := by rw [hN2]; linarith
  have k7 : N ≤ 4.05 * e + 1.36 * r := by
    by_contra h
    push Not at h
    have : 0 < N := lt_of_le_of_lt (by positivity) h
    nlinarith
  nlinarith

/-- the stages: inverse of the method. -/
theorem stage_inverse (e G0 G1 G2 e0 e1 e2 : V)
    (h0 : e0 = e + (radauA 0 0 • G0 + radauA 0 1 • G1 + radauA 0 2 • G2))
    (h1 : e1 = e + (radauA 1 0 • G0 + radauA 1 1 • G1 + radauA 1 2 • G2))
    (h2 : e2 = e + (radauA 2 0 • G0 + radauA 2 1 • G1 + radauA 2 2 • G2)) :
    radauAinv 0 0 • e0 + radauAinv 0 1 • e1 + radauAinv 0 2 • e2 = G0 + ((6 + 6 * Real.sqrt 6) / 5) • e ∧
    radauAinv 1 0 • e0 + radauAinv 1 1 • e1 + radauAinv 1 2 • e2 = G1 + ((6 - 6 * Real.sqrt 6) / 5) • e ∧
    radauAinv 2 0 • e0 + radauAinv 2 1 • e1 + radauAinv 2 2 • e2 = G2 + (3 : ℝ) • e := by
  have hI : radauAinv * radauA = 1 := mul_eq_one_comm.1 Odes.Radau.radauA_mul_inv
  have key : ∀ i, radauAinv i 0 • e0 + radauAinv i 1 • e1 + radauAinv i 2 • e2
      = ((1 : Matrix (Fin 3) (Fin 3) ℝ) i 0) • G0 + ((1 : Matrix (Fin 3) (Fin 3) ℝ) i 1) • G1
        + ((1 : Matrix (Fin 3) (Fin 3) ℝ) i 2) • G2 + (radauAinv i 0 + radauAinv i 1 + radauAinv i 2) • e := by
    intro i
    rw [← hI, Matrix.mul_apply, Matrix.mul_apply, Matrix.mul_apply, Fin.sum_univ_three, Fin.sum_univ_three,
      Fin.sum_univ_three, h0, h1, h2]
    module
  have r0 : radauAinv 0 0 + radauAinv 0 1 + radauAinv 0 2 = (6 + 6 * Real.sqrt 6) / 5 := by
    simp [radauAinv]; ring
  have r1 : radauAinv 1 0 + radauAinv 1 1 + radauAinv 1 2 = (6 - 6 * Real.sqrt 6) / 5 := by
    simp [radauAinv]; ring
  have r2 : radauAinv 2 0 + radauAinv 2 1 + radauAinv 2 2 = 3 := by
    simp [radauAinv]; ring
  refine ⟨?_, ?_, ?_⟩
  · rw [key, r0]; simp
  · rw [key, r1]; simp
  · rw [key, r2]; simp

/-- **one step**: if the stages `e0`, `e1`, `e2` solve the equations with derivatives `K` which do not increase the
norm, up to residuals `ρ` of length at most `r`, then the last stage is at most `3 r` longer than the initial value. -/
theorem step_bound (hB : Energy B 0) (e K0 K1 K2 ρ0 ρ1 ρ2 e0 e1 e2 : V) {r : ℝ}
    (h0 : e0 = e + (radauA 0 0 • (K0 + ρ0) + radauA 0 1 • (K1 + ρ1) + radauA 0 2 • (K2 + ρ2)))
    (h1 : e1 = e + (radauA 1 0 • (K0 + ρ0) + radauA 1 1 • (K1 + ρ1) + radauA 1 2 • (K2 + ρ2)))
    (h2 : e2 = e + (radauA 2 0 • (K0 + ρ0) + radauA 2 1 • (K1 + ρ1) + radauA 2 2 • (K2 + ρ2)))
    (d0 : B K0 e0 ≤ 0) (d1 : B K1 e1 ≤ 0) (d2 : B K2 e2 ≤ 0)
    (r0 : nrm B ρ0 ≤ r) (r1 : nrm B ρ1 ≤ r) (r2 : nrm B ρ2 ≤ r) :
    nrm B e2 ≤ nrm B e + 3 * r := by
  have hr : 0 ≤ r := (nrm_nonneg _).trans r0
  have h6 := s6sq
  obtain ⟨s1, s2⟩ := Odes.Radau.s6_enc
  have n0 := nrm_nonneg (B := B) e0
  have n1 := nrm_nonneg (B := B) e1
  have n2 := nrm_nonneg (B := B) e2
  have ne := nrm_nonneg (B := B) e
  have i1 := step_identity hB.symm _ _ _ _ _ _ _ h0 h1 h2
  have i2 := stage_identity hB.symm e0 e1 e2
  obtain ⟨v0, v1, v2⟩ := stage_inverse _ _ _ _ _ _ _ h0 h1 h2
  rw [v0, v1, v2] at i2
  have i3 := hB.nonneg ((Real.sqrt 6 - 1) • (K0 + ρ0) - (Real.sqrt 6 + 1) • (K1 + ρ1) + (2 : ℝ) • (K2 + ρ2))
  generalize B ((Real.sqrt 6 - 1) • (K0 + ρ0) - (Real.sqrt 6 + 1) • (K1 + ρ1) + (2 : ℝ) • (K2 + ρ2))
    ((Real.sqrt 6 - 1) • (K0 + ρ0) - (Real.sqrt 6 + 1) • (K1 + ρ1) + (2 : ℝ) • (K2 + ρ2)) = q at i1 i3
  simp only [map_add, map_smul, LinearMap.add_apply, LinearMap.smul_apply, smul_eq_mul] at i1 i2
  have c0 := (cs hB ρ0 e0).trans (mul_le_mul_of_nonneg_right r0 n0)
  have c1 := (cs hB ρ1 e1).trans (mul_le_mul_of_nonneg_right r1 n1)
  have c2 := (cs hB ρ2 e2).trans (mul_le_mul_of_nonneg_right r2 n2)
  have f0 := cs hB e e0
  have f1 := cs hB (-e) e1
  have f2 := cs hB e e2
  have hneg : nrm B (-e) = nrm B e := by
    unfold nrm; simp
  rw [hneg, map_neg, LinearMap.neg_apply] at f1
  rw [← nrm_sq hB, ← nrm_sq hB, ← nrm_sq hB] at i2
  rw [← nrm_sq hB e2, ← nrm_sq hB e, hB.symm e0 K0, hB.symm e0 ρ0, hB.symm e1 K1, hB.symm e1 ρ1, hB.symm e2 K2,
    hB.symm e2 ρ2] at i1
  have b0 : radauA 2 0 = (16 - Real.sqrt 6) / 36 := by simp [radauA]
  have b1 : radauA 2 1 = (16 + Real.sqrt 6) / 36 := by simp [radauA]
  have b2 : radauA 2 2 = 1 / 9 := by simp [radauA]
  rw [b0, b1, b2] at i1
  generalize nrm B e0 = a0 at *
  generalize nrm B e1 = a1 at *
  generalize nrm B e2 = a2 at *
  generalize nrm B e = ε at *
  generalize B K0 e0 = k0 at *
  generalize B K1 e1 = k1 at *
  generalize B K2 e2 = k2 at *
  generalize B ρ0 e0 = p0 at *
  generalize B ρ1 e1 = p1 at *
  generalize B ρ2 e2 = p2 at *
  generalize B e e0 = q0 at *
  generalize B e e1 = q1 at *
  generalize B e e2 = q2 at *
  generalize Real.sqrt 6 = s at *
  have H : 7.82 * a0 ^ 2 + 0.61 * a1 ^ 2 + 0.55 * a2 ^ 2 ≤ a0 * (10.06 * ε + 2.43 * r) + a1 * (1.39 * ε + 0.8 * r)
      + a2 * (0.34 * ε + 0.12 * r) := by
    have i4 : (29 + 6 * s) / 18 * k0 + (29 + 6 * s) / 18 * p0 + (13 + 7 * s) / 3 * q0 + (29 - 6 * s) / 18 * k1
        + (29 - 6 * s) / 18 * p1 + (7 * s - 13) / 3 * -q1 + 1 / 9 * k2 + 1 / 9 * p2 + 1 / 3 * q2
        = (152 + 53 * s) / 36 * a0 ^ 2 + (152 - 53 * s) / 36 * a1 ^ 2 + 5 / 9 * a2 ^ 2 := by
      linear_combination i2 - (2 / 5 * q0 + 2 / 5 * q1) * h6
    have j0 : (29 + 6 * s) / 18 * k0 ≤ 0 := mul_nonpos_of_nonneg_of_nonpos (by linarith) d0
    have j1 : (29 - 6 * s) / 18 * k1 ≤ 0 := mul_nonpos_of_nonneg_of_nonpos (by linarith) d1
    have j2 := mul_le_mul_of_nonneg_left c0 (by linarith : 0 ≤ (29 + 6 * s) / 18)
    have j3 := mul_le_mul_of_nonneg_left c1 (by linarith : 0 ≤ (29 - 6 * s) / 18)
    have j4 := mul_le_mul_of_nonneg_left f0 (by linarith : 0 ≤ (13 + 7 * s) / 3)
    have j5 := mul_le_mul_of_nonneg_left f1 (by linarith : 0 ≤ (7 * s - 13) / 3)
    have l2 := mul_le_mul_of_nonneg_right (by linarith : (29 + 6 * s) / 18 ≤ 2.43) (mul_nonneg hr n0)
    have l3 := mul_le_mul_of_nonneg_right (by linarith : (29 - 6 * s) / 18 ≤ 0.8) (mul_nonneg hr n1)
    have l4 := mul_le_mul_of_nonneg_right (by linarith : (13 + 7 * s) / 3 ≤ 10.06) (mul_nonneg ne n0)
    have l5 := mul_le_mul_of_nonneg_right (by linarith : (7 * s - 13) / 3 ≤ 1.39) (mul_nonneg ne n1)
    have m0 := mul_le_mul_of_nonneg_right (by linarith : 7.82 ≤ (152 + 53 * s) / 36) (sq_nonneg a0)
    have m1 := mul_le_mul_of_nonneg_right (by linarith : 0.61 ≤ (152 - 53 * s) / 36) (sq_nonneg a1)
    have m2 := sq_nonneg a2
    have o1 := mul_nonneg ne n2
    have o2 := mul_nonneg hr n2
    clear i1 i2 i3 r0 r1 r2 h6 s1 s2
    linarith
  have t := numbers n0 n1 n2 ne hr H
  have t2 : a2 ^ 2 ≤ (ε + 3 * r) ^ 2 := by
    have j0 : (16 - s) / 36 * k0 ≤ 0 := mul_nonpos_of_nonneg_of_nonpos (by linarith) d0
    have j1 : (16 + s) / 36 * k1 ≤ 0 := mul_nonpos_of_nonneg_of_nonpos (by linarith) d1
    have j2 := mul_le_mul_of_nonneg_left c0 (by linarith : 0 ≤ (16 - s) / 36)
    have j3 := mul_le_mul_of_nonneg_left c1 (by linarith : 0 ≤ (16 + s) / 36)
    have l2 := mul_le_mul_of_nonneg_right (by linarith : (16 - s) / 36 ≤ 0.377) (mul_nonneg hr n0)
    have l3 := mul_le_mul_of_nonneg_right (by linarith : (16 + s) / 36 ≤ 0.513) (mul_nonneg hr n1)
    have o2 := mul_nonneg hr n2
    have t3 := mul_le_mul_of_nonneg_left t hr
    have o3 := mul_nonneg hr ne
    have o4 := mul_nonneg hr hr
    clear i2 H
    linarith
  exact abs_le_of_sq_le_sq' t2 (by positivity) |>.2

end Odes.RadauB
