import Verif.Props.RadauConsts
import Mathlib.LinearAlgebra.Matrix.ToLin
import Mathlib.LinearAlgebra.FiniteDimensional.Lemmas

/-! Constants with which the transformation of Radau5 is exact. -/

namespace Odes.Radau

open Matrix

/-- eigenvectors of the inverse of the Runge-Kutta matrix, for the root `z` of the characteristic
polynomial. -/
theorem eigvec {R : Type} [Field R] [CharZero R] (s z : R) (hs : s * s = 6)
    (hz : z ^ 3 - 9 * z ^ 2 + 36 * z - 60 = 0) (r0 r1 r2 : R)
    (h0 : r0 = (12 + 12 * s) / 100 * z ^ 2 - (12 + 6 * s) / 10 * z + 6)
    (h1 : r1 = (12 - 12 * s) / 100 * z ^ 2 - (12 - 6 * s) / 10 * z + 6)
    (h2 : r2 = 3 / 10 * z ^ 2 + 24 / 10 * z + 6) :
    (4 + s) / 2 * r0 + (-36 + 29 * s) / 30 * r1 + (6 - 4 * s) / 15 * r2 = z * r0 ∧
    (-36 - 29 * s) / 30 * r0 + (4 - s) / 2 * r1 + (6 + 4 * s) / 15 * r2 = z * r1 ∧
    (-3 + 8 * s) / 3 * r0 + (-3 - 8 * s) / 3 * r1 + 5 * r2 = z * r2 := by
  subst h0 h1 h2
  refine ⟨?_, ?_, ?_⟩
  · linear_combination (7 / 25 * z - 7 / 125 * z ^ 2) * hs - (12 + 12 * s) / 100 * hz
  · linear_combination (7 / 25 * z - 7 / 125 * z ^ 2) * hs - (12 - 12 * s) / 100 * hz
  · linear_combination (16 / 25 * z ^ 2 - 16 / 5 * z) * hs - 3 / 10 * hz

theorem BETA_ne : consts.BETA ≠ 0 := by have := BETA_enc.1; intro h; rw [h] at this; norm_num at this

/-- the eigenvector of `U1`. -/
theorem eig_real : ∃ v0 v1 : ℝ,
    (4 + Real.sqrt 6) / 2 * v0 + (-36 + 29 * Real.sqrt 6) / 30 * v1 + (6 - 4 * Real.sqrt 6) / 15
      = consts.U1 * v0 ∧
    (-36 - 29 * Real.sqrt 6) / 30 * v0 + (4 - Real.sqrt 6) / 2 * v1 + (6 + 4 * Real.sqrt 6) / 15
      = consts.U1 * v1 ∧
    (-3 + 8 * Real.sqrt 6) / 3 * v0 + (-3 - 8 * Real.sqrt 6) / 3 * v1 + 5 = consts.U1 := by
  have hz : consts.U1 ^ 3 - 9 * consts.U1 ^ 2 + 36 * consts.U1 - 60 = 0 := by
    linear_combination consts.U1 ^ 2 * eig_sum - consts.U1 * eig_pairs + eig_prod
  obtain ⟨k1, k2, k3⟩ := eigvec (Real.sqrt 6) consts.U1 s6sq hz _ _ _ rfl rfl rfl
  have hp : (3 / 10 * consts.U1 ^ 2 + 24 / 10 * consts.U1 + 6) ≠ 0 := by
    have := U1_enc.1
    have : 0 < 3 / 10 * consts.U1 ^ 2 + 24 / 10 * consts.U1 + 6 := by nlinarith
    exact this.ne'
  generalize (3 / 10 * consts.U1 ^ 2 + 24 / 10 * consts.U1 + 6) = r2 at *
  generalize ((12 + 12 * Real.sqrt 6) / 100 * consts.U1 ^ 2 - (12 + 6 * Real.sqrt 6) / 10 * consts.U1
    + 6) = r0 at *
  generalize ((12 - 12 * Real.sqrt 6) / 100 * consts.U1 ^ 2 - (12 - 6 * Real.sqrt 6) / 10 * consts.U1
    + 6) = r1 at *
  refine ⟨r0 / r2, r1 / r2, ?_, ?_, ?_⟩
  · field_simp; linear_combination 900 * k1
  · field_simp; linear_combination 900 * k2
  · field_simp; linear_combination 3 * k3

/-- real and imaginary part of the eigenvector of `ALPH + i BETA`. -/
theorem eig_cplx : ∃ u0 u1 v0 v1 : ℝ,
    ((4 + Real.sqrt 6) / 2 * u0 + (-36 + 29 * Real.sqrt 6) / 30 * u1 + (6 - 4 * Real.sqrt 6) / 15
      = consts.ALPH * u0 + consts.BETA * v0 ∧
    (-36 - 29 * Real.sqrt 6) / 30 * u0 + (4 - Real.sqrt 6) / 2 * u1 + (6 + 4 * Real.sqrt 6) / 15
      = consts.ALPH * u1 + consts.BETA * v1 ∧
    (-3 + 8 * Real.sqrt 6) / 3 * u0 + (-3 - 8 * Real.sqrt 6) / 3 * u1 + 5 = consts.ALPH) ∧
    ((4 + Real.sqrt 6) / 2 * v0 + (-36 + 29 * Real.sqrt 6) / 30 * v1
      = consts.ALPH * v0 - consts.BETA * u0 ∧
    (-36 - 29 * Real.sqrt 6) / 30 * v0 + (4 - Real.sqrt 6) / 2 * v1
      = consts.ALPH * v1 - consts.BETA * u1 ∧
    (-3 + 8 * Real.sqrt 6) / 3 * v0 + (-3 - 8 * Real.sqrt 6) / 3 * v1 = - consts.BETA) := by
  have e1 := congrArg Complex.ofReal eig_sum
  have e2 := congrArg Complex.ofReal eig_pairs
  have e3 := congrArg Complex.ofReal eig_prod
  have h6 := congrArg Complex.ofReal s6sq
  push_cast at e1 e2 e3 h6
  obtain ⟨z, hzdef⟩ : ∃ z : ℂ, z = consts.ALPH + consts.BETA * Complex.I := ⟨_, rfl⟩
  have hz : z ^ 3 - 9 * z ^ 2 + 36 * z - 60 = 0 := by
    have hR : (z - (consts.U1 : ℂ)) * (z - (consts.ALPH + consts.BETA * Complex.I))
          * (z - (consts.ALPH - consts.BETA * Complex.I)) = z ^ 3 - 9 * z ^ 2 + 36 * z - 60 := by
      linear_combination (-z ^ 2) * e1 + z * e2 - e3
        + ((z - (consts.U1 : ℂ)) * (-(consts.BETA : ℂ) ^ 2)) * Complex.I_sq
    rw [← hR, hzdef]; ring
  obtain ⟨k1, k2, k3⟩ := eigvec ((Real.sqrt 6 : ℝ) : ℂ) z h6 hz _ _ _ rfl rfl rfl
  have hp : (3 / 10 * z ^ 2 + 24 / 10 * z + 6) ≠ 0 := by
    intro h
    have h2 := congrArg Complex.im h
    have h3 : (3 / 10 * z ^ 2 + 24 / 10 * z + 6).im
        = consts.BETA * (6 / 10 * consts.ALPH + 24 / 10) := by
      have q1 : (3 / 10 : ℂ) = ((3 / 10 : ℝ) : ℂ) := by push_cast; rfl
      have q2 : (24 / 10 : ℂ) = ((24 / 10 : ℝ) : ℂ) := by push_cast; rfl
      have q3 : (6 : ℂ) = ((6 : ℝ) : ℂ) := by push_cast; rfl
      rw [hzdef, q1, q2, q3, sq]
      simp only [Complex.add_re, Complex.mul_re, Complex.ofReal_re, Complex.ofReal_im, Complex.add_im,
        Complex.mul_im, Complex.I_re, Complex.I_im]
      ring
    rw [h3] at h2
    rcases mul_eq_zero.1 h2 with h4 | h4
    · exact BETA_ne h4
    · have := ALPH_enc.1; linarith
  generalize (3 / 10 * z ^ 2 + 24 / 10 * z + 6) = r2 at *
  generalize ((12 + 12 * ((Real.sqrt 6 : ℝ) : ℂ)) / 100 * z ^ 2 - (12 + 6 * ((Real.sqrt 6 : ℝ) : ℂ))
    / 10 * z + 6) = r0 at *
  generalize ((12 - 12 * ((Real.sqrt 6 : ℝ) : ℂ)) / 100 * z ^ 2 - (12 - 6 * ((Real.sqrt 6 : ℝ) : ℂ))
    / 10 * z + 6) = r1 at *
  obtain ⟨w0, hw0⟩ : ∃ w0 : ℂ, w0 = r0 / r2 := ⟨_, rfl⟩
  obtain ⟨w1, hw1⟩ : ∃ w1 : ℂ, w1 = r1 / r2 := ⟨_, rfl⟩
  have m1 : ((((4 + Real.sqrt 6) / 2 : ℝ)) : ℂ) * w0 + (((-36 + 29 * Real.sqrt 6) / 30 : ℝ) : ℂ) * w1
      + (((6 - 4 * Real.sqrt 6) / 15 : ℝ) : ℂ) = z * w0 := by
    rw [hw0, hw1]; push_cast; field_simp; linear_combination 900 * k1
  have m2 : ((((-36 - 29 * Real.sqrt 6) / 30 : ℝ)) : ℂ) * w0 + (((4 - Real.sqrt 6) / 2 : ℝ) : ℂ) * w1
      + (((6 + 4 * Real.sqrt 6) / 15 : ℝ) : ℂ) = z * w1 := by
    rw [hw0, hw1]; push_cast; field_simp; linear_combination 900 * k2
  have m3 : ((((-3 + 8 * Real.sqrt 6) / 3 : ℝ)) : ℂ) * w0 + (((-3 - 8 * Real.sqrt 6) / 3 : ℝ) : ℂ) * w1
      + ((5 : ℝ) : ℂ) = z := by
    rw [hw0, hw1]; push_cast; field_simp; linear_combination 3 * k3
  refine ⟨w0.re, w1.re, -w0.im, -w1.im, ⟨?_, ?_, ?_⟩, ?_, ?_, ?_⟩
  · have := congrArg Complex.re m1
    rw [hzdef] at this
    simp only [Complex.add_re, Complex.mul_re, Complex.ofReal_re, Complex.ofReal_im, Complex.add_im,
      Complex.mul_im, Complex.I_re, Complex.I_im] at this
    linear_combination this
  · have := congrArg Complex.re m2
    rw [hzdef] at this
    simp only [Complex.add_re, Complex.mul_re, Complex.ofReal_re, Complex.ofReal_im, Complex.add_im,
      Complex.mul_im, Complex.I_re, Complex.I_im] at this
    linear_combination this
  · have := congrArg Complex.re m3
    rw [hzdef] at this
    simp only [Complex.add_re, Complex.mul_re, Complex.ofReal_re, Complex.ofReal_im, Complex.add_im,
      Complex.mul_im, Complex.I_re, Complex.I_im] at this
    linear_combination this
  · have := congrArg Complex.im m1
    rw [hzdef] at this
    simp only [Complex.add_re, Complex.mul_re, Complex.ofReal_re, Complex.ofReal_im, Complex.add_im,
      Complex.mul_im, Complex.I_re, Complex.I_im] at this
    linear_combination -this
  · have := congrArg Complex.im m2
    rw [hzdef] at this
    simp only [Complex.add_re, Complex.mul_re, Complex.ofReal_re, Complex.ofReal_im, Complex.add_im,
      Complex.mul_im, Complex.I_re, Complex.I_im] at this
    linear_combination -this
  · have := congrArg Complex.im m3
    rw [hzdef] at this
    simp only [Complex.add_re, Complex.mul_re, Complex.ofReal_re, Complex.ofReal_im, Complex.add_im,
      Complex.mul_im, Complex.I_re, Complex.I_im] at this
    linear_combination -this

/-- a transformation exists: constants which differ from those of the code in `T` and `TI` only. -/
theorem exact_T : ∃ c : Consts ℝ, c.C1 = consts.C1 ∧ c.C2 = consts.C2 ∧ c.U1 = consts.U1 ∧
    c.ALPH = consts.ALPH ∧ c.BETA = consts.BETA ∧ Tm c * TIm c = 1 ∧
    Tm c * Lam c * TIm c = radauAinv := by
  obtain ⟨p0, p1, a1, a2, a3⟩ := eig_real
  obtain ⟨u0, u1, v0, v1, ⟨b1, b2, b3⟩, d1, d2, d3⟩ := eig_cplx
  let T : Matrix (Fin 3) (Fin 3) ℝ := !![p0, u0, v0; p1, u1, v1; 1, 1, 0]
  have hL : Lam consts = !![consts.U1, 0, 0; 0, consts.ALPH, -consts.BETA; 0, consts.BETA,
    consts.ALPH] := rfl
  have hTL : radauAinv * T = T * Lam consts := by
    rw [hL]
    ext i j
    rw [mul_apply, mul_apply, Fin.sum_univ_three, Fin.sum_univ_three]
    fin_cases i <;> fin_cases j <;> simp [T, radauAinv] <;> linarith
  have hinj : Function.Injective T.mulVec := by
    refine (injective_iff_map_eq_zero T.mulVecLin).2 fun x hx => ?_
    change T.mulVec x = 0 at hx
    have step : ∀ y : Fin 3 → ℝ, T.mulVec y = 0 → T.mulVec ((Lam consts).mulVec y) = 0 := by
      intro y hy
      rw [Matrix.mulVec_mulVec, ← hTL, ← Matrix.mulVec_mulVec, hy, Matrix.mulVec_zero]
    have third : ∀ y : Fin 3 → ℝ, T.mulVec y = 0 → y 0 + y 1 = 0 := by
      intro y hy
      have := congrFun hy 2
      simpa [Matrix.mulVec, dotProduct, Fin.sum_univ_three, T] using this
    have l0 : ∀ y, (Lam consts).mulVec y 0 = consts.U1 * y 0 := by
      intro y; rw [hL]; simp [Matrix.mulVec, dotProduct, Fin.sum_univ_three]
    have l1 : ∀ y, (Lam consts).mulVec y 1 = consts.ALPH * y 1 - consts.BETA * y 2 := by
      intro y; rw [hL]; simp [Matrix.mulVec, dotProduct, Fin.sum_univ_three]; ring
    have l2 : ∀ y, (Lam consts).mulVec y 2 = consts.BETA * y 1 + consts.ALPH * y 2 := by
      intro y; rw [hL]; simp [Matrix.mulVec, dotProduct, Fin.sum_univ_three]
    have t0 := third x hx
    have t1 := third _ (step x hx)
    have t2 := third _ (step _ (step x hx))
    rw [l0, l1] at t1 t2
    rw [l0, l1, l2] at t2
    have hb := BETA_enc.1
    have x0 : x 0 = 0 := by
      have : x 0 * ((consts.U1 - consts.ALPH) ^ 2 + consts.BETA ^ 2) = 0 := by
        linear_combination t2 - 2 * consts.ALPH * t1 + (consts.ALPH ^ 2 + consts.BETA ^ 2) * t0
      rcases mul_eq_zero.1 this with h | h
      · exact h
      · nlinarith [sq_nonneg (consts.U1 - consts.ALPH)]
    have x1 : x 1 = 0 := by linarith
    have x2 : x 2 = 0 := by
      rw [x0, x1] at t1
      rcases mul_eq_zero.1 (show consts.BETA * x 2 = 0 by linarith) with h | h
      · exact absurd h BETA_ne
      · exact h
    funext i
    fin_cases i
    · exact x0
    · exact x1
    · exact x2
  have hdet : IsUnit T.det := by
    rw [← Matrix.isUnit_iff_isUnit_det]
    exact Matrix.mulVec_injective_iff_isUnit.1 hinj
  refine ⟨{ consts with
    T11 := p0, T12 := u0, T13 := v0, T21 := p1, T22 := u1, T23 := v1, T31 := 1
    TI11 := T⁻¹ 0 0, TI12 := T⁻¹ 0 1, TI13 := T⁻¹ 0 2, TI21 := T⁻¹ 1 0, TI22 := T⁻¹ 1 1
    TI23 := T⁻¹ 1 2, TI31 := T⁻¹ 2 0, TI32 := T⁻¹ 2 1, TI33 := T⁻¹ 2 2 }, rfl, rfl, rfl, rfl, rfl,
    ?_⟩
  have q1 : ∀ M : Matrix (Fin 3) (Fin 3) ℝ,
      !![M 0 0, M 0 1, M 0 2; M 1 0, M 1 1, M 1 2; M 2 0, M 2 1, M 2 2] = M :=
    fun M => (Matrix.eta_fin_three M).symm
  show T * !![T⁻¹ 0 0, T⁻¹ 0 1, T⁻¹ 0 2; T⁻¹ 1 0, T⁻¹ 1 1, T⁻¹ 1 2; T⁻¹ 2 0, T⁻¹ 2 1, T⁻¹ 2 2] = 1 ∧
    T * Lam consts * !![T⁻¹ 0 0, T⁻¹ 0 1, T⁻¹ 0 2; T⁻¹ 1 0, T⁻¹ 1 1, T⁻¹ 1 2; T⁻¹ 2 0, T⁻¹ 2 1,
      T⁻¹ 2 2] = radauAinv
  rw [q1, ← hTL, Matrix.mul_assoc, Matrix.mul_nonsing_inv _ hdet, Matrix.mul_one]
  exact ⟨rfl, rfl⟩

end Odes.Radau
