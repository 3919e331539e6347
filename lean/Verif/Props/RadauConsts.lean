import Verif.Model.Radau
import Verif.Spec.RadauIIA
import Verif.Lemmas.RadauScalar
import Mathlib.LinearAlgebra.Vandermonde
import Mathlib.Tactic.LinearCombination

/-! C33: the constants of Radau5 (Radau5cc.hpp 342-362). -/

namespace Odes.Radau

open Spec Matrix
open Polynomial (derivative derivative_pow)

/-- the nodes, as used in Radau5cc.hpp 188-192. -/
noncomputable def nodes : Fin 3 → ℝ := ![consts.C1, consts.C2, 1]

/-- the matrix applied by `back` (Radau5cc.hpp 219-221). -/
def Tm {α : Type} [Zero α] [One α] (c : Consts α) : Matrix (Fin 3) (Fin 3) α :=
  !![c.T11, c.T12, c.T13; c.T21, c.T22, c.T23; c.T31, 1, 0]

/-- the matrix applied by `forth` (Radau5cc.hpp 530-532) and in the Newton loop (195-204). -/
def TIm {α : Type} (c : Consts α) : Matrix (Fin 3) (Fin 3) α :=
  !![c.TI11, c.TI12, c.TI13; c.TI21, c.TI22, c.TI23; c.TI31, c.TI32, c.TI33]

/-- the block diagonal matrix of the transformed system solved by `slvrad` (Radau5cc.hpp 109-127):
a real equation with `U1` and a complex one with `ALPH + i BETA`. -/
def Lam {α : Type} [Zero α] [Neg α] (c : Consts α) : Matrix (Fin 3) (Fin 3) α :=
  !![c.U1, 0, 0; 0, c.ALPH, -c.BETA; 0, c.BETA, c.ALPH]

theorem s6sq : Real.sqrt 6 * Real.sqrt 6 = 6 := Real.mul_self_sqrt (by norm_num)
theorem s3sq : Real.sqrt 3 * Real.sqrt 3 = 3 := Real.mul_self_sqrt (by norm_num)

theorem s6p2 : Real.sqrt 6 ^ 2 = 6 := by rw [sq, s6sq]
theorem s6p3 : Real.sqrt 6 ^ 3 = 6 * Real.sqrt 6 := by rw [pow_succ, s6p2]

/-- the nodes are those of the three stage Radau IIA method. -/
theorem radau_nodes : RadauNodes nodes := by
  have h6 := s6sq
  obtain ⟨s1, s2⟩ := sqrt6
  constructor
  · have e : ∀ x : ℝ, (derivative^[2] ((Polynomial.X : Polynomial ℝ) ^ 2 * (Polynomial.X - 1) ^ 3)).eval x
        = 2 * (x - 1) * (10 * x ^ 2 - 8 * x + 1) := by
      intro x
      simp only [Function.iterate_succ, Function.iterate_zero, Function.comp, id]
      simp [derivative_pow]
      ring
    intro i
    rw [e]
    fin_cases i
    · show 2 * ((4 - Real.sqrt 6) / 10 - 1) * (10 * ((4 - Real.sqrt 6) / 10) ^ 2
        - 8 * ((4 - Real.sqrt 6) / 10) + 1) = 0
      have : 10 * ((4 - Real.sqrt 6) / 10) ^ 2 - 8 * ((4 - Real.sqrt 6) / 10) + 1 = 0 := by
        linear_combination h6 / 10
      rw [this, mul_zero]
    · show 2 * ((4 + Real.sqrt 6) / 10 - 1) * (10 * ((4 + Real.sqrt 6) / 10) ^ 2
        - 8 * ((4 + Real.sqrt 6) / 10) + 1) = 0
      have : 10 * ((4 + Real.sqrt 6) / 10) ^ 2 - 8 * ((4 + Real.sqrt 6) / 10) + 1 = 0 := by
        linear_combination h6 / 10
      rw [this, mul_zero]
    · show 2 * ((1 : ℝ) - 1) * (10 * 1 ^ 2 - 8 * 1 + 1) = 0
      norm_num
  · constructor
    · show (4 - Real.sqrt 6) / 10 < (4 + Real.sqrt 6) / 10
      linarith
    · show (4 + Real.sqrt 6) / 10 < 1
      linarith

/-- the Runge-Kutta matrix. -/
noncomputable def radauA : Matrix (Fin 3) (Fin 3) ℝ :=
  !![(88 - 7 * Real.sqrt 6) / 360, (296 - 169 * Real.sqrt 6) / 1800, (-2 + 3 * Real.sqrt 6) / 225;
     (296 + 169 * Real.sqrt 6) / 1800, (88 + 7 * Real.sqrt 6) / 360, (-2 - 3 * Real.sqrt 6) / 225;
     (16 - Real.sqrt 6) / 36, (16 + Real.sqrt 6) / 36, 1 / 9]

/-- its inverse. -/
noncomputable def radauAinv : Matrix (Fin 3) (Fin 3) ℝ :=
  !![(4 + Real.sqrt 6) / 2, (-36 + 29 * Real.sqrt 6) / 30, (6 - 4 * Real.sqrt 6) / 15;
     (-36 - 29 * Real.sqrt 6) / 30, (4 - Real.sqrt 6) / 2, (6 + 4 * Real.sqrt 6) / 15;
     (-3 + 8 * Real.sqrt 6) / 3, (-3 - 8 * Real.sqrt 6) / 3, 5]

theorem radauA_collocation : Collocation nodes radauA := by
  have h6 := s6sq
  intro i k
  rw [Fin.sum_univ_three]
  fin_cases i <;> fin_cases k <;> simp [radauA, nodes, consts] <;>
    ring_nf <;> linarith [s6p2, s6p3]

theorem radauA_unique {A : Matrix (Fin 3) (Fin 3) ℝ} (h : Collocation nodes A) : A = radauA := by
  have key : A * vandermonde nodes = radauA * vandermonde nodes := by
    ext i k
    rw [mul_apply, mul_apply]
    simp only [vandermonde_apply]
    rw [h i k, radauA_collocation i k]
  have hdet : IsUnit (vandermonde nodes).det := by
    rw [isUnit_iff_ne_zero, det_vandermonde_ne_zero_iff]
    have hl := radau_nodes.lt
    intro a b hab
    fin_cases a <;> fin_cases b <;> first | rfl | (exfalso; simp at hab hl; linarith)
  have := congrArg (· * (vandermonde nodes)⁻¹) key
  simpa [Matrix.mul_assoc, Matrix.mul_nonsing_inv _ hdet] using this

theorem radauA_mul_inv : radauA * radauAinv = 1 := by
  have h6 := s6sq
  ext i j
  rw [mul_apply, Fin.sum_univ_three]
  fin_cases i <;> fin_cases j <;> simp [radauA, radauAinv] <;>
    ring_nf <;> linarith [s6p2, s6p3]

theorem radauA_inv : radauA⁻¹ = radauAinv := Matrix.inv_eq_right_inv radauA_mul_inv

theorem c9 : ((9 : ℝ) ^ (1 / 3 : ℝ)) ^ 3 = 9 := by
  rw [← Real.rpow_natCast, ← Real.rpow_mul (by norm_num)]; norm_num

theorem c81 : (81 : ℝ) ^ (1 / 3 : ℝ) = ((9 : ℝ) ^ (1 / 3 : ℝ)) ^ 2 := by
  rw [← Real.rpow_natCast, ← Real.rpow_mul (by norm_num), show (81 : ℝ) = 9 ^ (2 : ℝ) by norm_num,
    ← Real.rpow_mul (by norm_num)]
  norm_num

theorem raw_sum : U1raw + 2 * ALPHraw = 36 / 60 := by
  unfold U1raw ALPHraw; ring

theorem raw_pairs : U1raw * (2 * ALPHraw) + CNO = 9 / 60 := by
  unfold CNO U1raw ALPHraw BETAraw
  rw [c81]
  have h := c9
  have h3 := s3sq
  generalize (9 : ℝ) ^ (1 / 3 : ℝ) = c at *
  generalize Real.sqrt 3 = s at *
  linear_combination ((c ^ 2 + c) ^ 2 / 3600) * h3 + (1 / 300) * h

theorem raw_prod : U1raw * CNO = 1 / 60 := by
  unfold CNO U1raw ALPHraw BETAraw
  rw [c81]
  have h := c9
  have h3 := s3sq
  generalize (9 : ℝ) ^ (1 / 3 : ℝ) = c at *
  generalize Real.sqrt 3 = s at *
  linear_combination ((6 + c ^ 2 - c) / 30 * (c ^ 2 + c) ^ 2 / 3600) * h3 + (17 / 27000 + (c ^ 3 + 9) / 27000) * h

theorem U1_eq : consts.U1 = 3 + (9 : ℝ) ^ (1 / 3 : ℝ) - ((9 : ℝ) ^ (1 / 3 : ℝ)) ^ 2 / 3 := by
  have h0 : U1raw ≠ 0 := by have := U1raw_bounds.1; intro h; rw [h] at this; norm_num at this
  show 1 / U1raw = _
  rw [div_eq_iff h0]
  unfold U1raw
  rw [c81]
  have h := c9
  generalize (9 : ℝ) ^ (1 / 3 : ℝ) = c at *
  linear_combination (c / 90 - 4 / 90) * h

theorem CNO_inv : 1 / CNO = 60 * U1raw := by
  have h0 : CNO ≠ 0 := by have := CNO_bounds.1; intro h; rw [h] at this; norm_num at this
  rw [div_eq_iff h0]
  linear_combination (-60) * raw_prod

theorem ALPH_eq : consts.ALPH
    = 3 - (9 : ℝ) ^ (1 / 3 : ℝ) / 2 + ((9 : ℝ) ^ (1 / 3 : ℝ)) ^ 2 / 6 := by
  show ALPHraw / CNO = _
  rw [div_eq_mul_one_div, CNO_inv]
  unfold U1raw ALPHraw
  rw [c81]
  have h := c9
  generalize (9 : ℝ) ^ (1 / 3 : ℝ) = c at *
  linear_combination (1 / 15 - c / 30) * h

theorem BETA_eq : consts.BETA
    = ((9 : ℝ) ^ (1 / 3 : ℝ) + ((9 : ℝ) ^ (1 / 3 : ℝ)) ^ 2 / 3) * (Real.sqrt 3 / 2) := by
  show BETAraw / CNO = _
  rw [div_eq_mul_one_div, CNO_inv]
  unfold U1raw BETAraw
  rw [c81]
  have h := c9
  generalize (9 : ℝ) ^ (1 / 3 : ℝ) = c at *
  linear_combination (c / 30 * Real.sqrt 3) * h

theorem eig_sum : consts.U1 + 2 * consts.ALPH = 9 := by rw [U1_eq, ALPH_eq]; ring

theorem eig_pairs : consts.U1 * (2 * consts.ALPH) + (consts.ALPH ^ 2 + consts.BETA ^ 2) = 36 := by
  rw [U1_eq, ALPH_eq, BETA_eq]
  have h := c9
  have h3 := s3sq
  generalize (9 : ℝ) ^ (1 / 3 : ℝ) = c at *
  generalize Real.sqrt 3 = s at *
  linear_combination ((c + c ^ 2 / 3) ^ 2 / 4) * h3 + h

theorem eig_prod : consts.U1 * (consts.ALPH ^ 2 + consts.BETA ^ 2) = 60 := by
  rw [U1_eq, ALPH_eq, BETA_eq]
  have h := c9
  have h3 := s3sq
  generalize (9 : ℝ) ^ (1 / 3 : ℝ) = c at *
  generalize Real.sqrt 3 = s at *
  linear_combination ((3 + c - c ^ 2 / 3) * (c + c ^ 2 / 3) ^ 2 / 4) * h3 + (4 - (c ^ 3 + 9) / 27) * h

/-! ### decimal enclosures -/

theorem c9_enc : 2.0800838230519041145300568 ≤ (9 : ℝ) ^ (1 / 3 : ℝ) ∧
    (9 : ℝ) ^ (1 / 3 : ℝ) ≤ 2.0800838230519041145300569 := by
  have h3 := c9
  have h0 : 0 ≤ (9 : ℝ) ^ (1 / 3 : ℝ) := by positivity
  constructor
  · by_contra h
    have := pow_lt_pow_left₀ (not_le.1 h) h0 (n := 3) (by norm_num)
    rw [h3] at this
    norm_num at this
  · by_contra h
    have := pow_lt_pow_left₀ (not_le.1 h) (by norm_num) (n := 3) (by norm_num)
    rw [h3] at this
    norm_num at this

theorem s6_enc : 2.4494897427831780981972840 ≤ Real.sqrt 6 ∧
    Real.sqrt 6 ≤ 2.4494897427831780981972841 :=
  ⟨Real.le_sqrt_of_sq_le (by norm_num), Real.sqrt_le_iff.2 ⟨by norm_num, by norm_num⟩⟩

theorem s3_enc : 1.7320508075688772935274463 ≤ Real.sqrt 3 ∧
    Real.sqrt 3 ≤ 1.7320508075688772935274464 :=
  ⟨Real.le_sqrt_of_sq_le (by norm_num), Real.sqrt_le_iff.2 ⟨by norm_num, by norm_num⟩⟩

theorem U1_enc : 3.6378342527444957322084 ≤ consts.U1 ∧
    consts.U1 ≤ 3.6378342527444957322085 := by
  rw [U1_eq]
  obtain ⟨a, b⟩ := c9_enc
  constructor <;> nlinarith

theorem ALPH_enc : 2.68108287362775213389579 ≤ consts.ALPH ∧
    consts.ALPH ≤ 2.68108287362775213389580 := by
  rw [ALPH_eq]
  obtain ⟨a, b⟩ := c9_enc
  constructor <;> nlinarith

theorem BETA_enc : 3.05043019924741056942637 ≤ consts.BETA ∧
    consts.BETA ≤ 3.05043019924741056942638 := by
  rw [BETA_eq]
  obtain ⟨a, b⟩ := c9_enc
  obtain ⟨d, e⟩ := s3_enc
  have h1 : 3.522333393359312496851694 ≤ (9 : ℝ) ^ (1 / 3 : ℝ) + ((9 : ℝ) ^ (1 / 3 : ℝ)) ^ 2 / 3 := by
    nlinarith
  have h2 : (9 : ℝ) ^ (1 / 3 : ℝ) + ((9 : ℝ) ^ (1 / 3 : ℝ)) ^ 2 / 3 ≤ 3.522333393359312496851696 := by
    nlinarith
  have h3 := mul_le_mul h1 d (by norm_num) (by linarith)
  have h4 := mul_le_mul h2 e (by linarith) (by norm_num)
  constructor <;> linarith

/-! ### the theorems -/

/-- `U1` and `ALPH ± i BETA` are the eigenvalues of the inverse of the Runge-Kutta matrix. -/
theorem radau_eigenvalues {A : Matrix (Fin 3) (Fin 3) ℝ} (hA : Collocation nodes A) (t : ℂ) :
    (t • (1 : Matrix (Fin 3) (Fin 3) ℂ) - A⁻¹.map Complex.ofReal).det
      = (t - consts.U1) * (t - (consts.ALPH + consts.BETA * Complex.I))
        * (t - (consts.ALPH - consts.BETA * Complex.I)) := by
  rw [radauA_unique hA, radauA_inv]
  have e1 := congrArg Complex.ofReal eig_sum
  have e2 := congrArg Complex.ofReal eig_pairs
  have e3 := congrArg Complex.ofReal eig_prod
  have h6 := congrArg Complex.ofReal s6sq
  push_cast at e1 e2 e3 h6
  have hR : (t - (consts.U1 : ℂ)) * (t - (consts.ALPH + consts.BETA * Complex.I))
        * (t - (consts.ALPH - consts.BETA * Complex.I)) = t ^ 3 - 9 * t ^ 2 + 36 * t - 60 := by
    linear_combination (-t ^ 2) * e1 + t * e2 - e3
      + ((t - (consts.U1 : ℂ)) * (-(consts.BETA : ℂ) ^ 2)) * Complex.I_sq
  rw [hR, det_fin_three]
  simp [radauAinv, Matrix.map_apply, one_apply]
  generalize ((Real.sqrt 6 : ℝ) : ℂ) = s at *
  linear_combination (t * (158 / 75) - 186 / 25) * h6

/-- `T` and `TI` are inverse to each other and block-diagonalise the inverse of the Runge-Kutta
matrix, up to the printed precision. -/
theorem radau_transformation {A : Matrix (Fin 3) (Fin 3) ℝ} (hA : Collocation nodes A)
    (i j : Fin 3) :
    |(Tm consts * TIm consts - 1) i j| ≤ 1e-19 ∧ |(TIm consts * Tm consts - 1) i j| ≤ 1e-19 ∧
    |(A⁻¹ * Tm consts - Tm consts * Lam consts) i j| ≤ 1e-19 ∧
    |(Tm consts * Lam consts * TIm consts - A⁻¹) i j| ≤ 1e-18 := by
  rw [radauA_unique hA, radauA_inv]
  obtain ⟨a1, a2⟩ := U1_enc
  obtain ⟨b1, b2⟩ := ALPH_enc
  obtain ⟨d1, d2⟩ := BETA_enc
  obtain ⟨s1, s2⟩ := s6_enc
  have hL : Lam consts = !![consts.U1, 0, 0; 0, consts.ALPH, -consts.BETA; 0, consts.BETA,
    consts.ALPH] := rfl
  have hT : Tm consts = !![9.1232394870892942792e-02, -0.14125529502095420843,
    -3.0029194105147424492e-02; 0.24171793270710701896, 0.20412935229379993199,
    0.38294211275726193779; 0.96604818261509293619, 1, 0] := rfl
  have hTI : TIm consts = !![4.3255798900631553510, 0.33919925181580986954, 0.54177053993587487119;
    -4.1787185915519047273, -0.32768282076106238708, 0.47662355450055045196;
    -0.50287263494578687595, 2.5719269498556054292, -0.59603920482822492497] := rfl
  rw [hL, hT, hTI]
  generalize consts.U1 = u at *
  generalize consts.ALPH = a at *
  generalize consts.BETA = b at *
  unfold radauAinv
  generalize Real.sqrt 6 = s at *
  refine ⟨?_, ?_, ?_, ?_⟩
  · rw [Matrix.sub_apply, mul_apply, Fin.sum_univ_three]
    fin_cases i <;> fin_cases j <;> simp <;> rw [abs_le] <;> constructor <;> norm_num
  · rw [Matrix.sub_apply, mul_apply, Fin.sum_univ_three]
    fin_cases i <;> fin_cases j <;> simp <;> rw [abs_le] <;> constructor <;> norm_num
  · rw [Matrix.sub_apply, mul_apply, mul_apply, Fin.sum_univ_three, Fin.sum_univ_three]
    fin_cases i <;> fin_cases j <;> simp <;> rw [abs_le] <;> constructor <;> linarith
  · rw [Matrix.sub_apply, mul_apply, Fin.sum_univ_three, mul_apply, mul_apply, mul_apply,
      Fin.sum_univ_three, Fin.sum_univ_three, Fin.sum_univ_three]
    fin_cases i <;> fin_cases j <;> simp <;> rw [abs_le] <;> constructor <;> linarith

/-- weights of the error estimate: with `γ₀ = 1/U1`, the formula `y₀ + γ₀ h f(x₀,y₀) +
h Σ b̂ⱼ f(xⱼ,yⱼ)` whose difference to the solution is `γ₀ (h f(x₀,y₀) + Σ DDᵢ zᵢ)`, with
`zᵢ = h Σ aᵢⱼ f(xⱼ,yⱼ)`, is a quadrature formula of order three. -/
theorem radau_error_weights {A : Matrix (Fin 3) (Fin 3) ℝ} (hA : Collocation nodes A)
    (bh : Fin 3 → ℝ)
    (hb : ∀ j, bh j = A 2 j + 1 / consts.U1 * (consts.DD1 * A 0 j + consts.DD2 * A 1 j
      + consts.DD3 * A 2 j)) :
    1 / consts.U1 + ∑ j, bh j = 1 ∧ ∑ j, bh j * nodes j = 1 / 2 ∧
      ∑ j, bh j * nodes j ^ 2 = 1 / 3 := by
  have hc : ∀ i, nodes i = ![(4 - Real.sqrt 6) / 10, (4 + Real.sqrt 6) / 10, 1] i := fun i => rfl
  have k : ∀ p : ℕ, ∑ j, bh j * nodes j ^ p = ∑ j, A 2 j * nodes j ^ p
      + 1 / consts.U1 * (consts.DD1 * (∑ j, A 0 j * nodes j ^ p)
        + consts.DD2 * (∑ j, A 1 j * nodes j ^ p) + consts.DD3 * (∑ j, A 2 j * nodes j ^ p)) := by
    intro p
    simp only [Fin.sum_univ_three, hb]
    ring
  have k0 := k 0
  have k1 := k 1
  have k2 := k 2
  have h0 := fun i => hA i 0
  have h1 := fun i => hA i 1
  have h2 := fun i => hA i 2
  have d1 : consts.DD1 = -(13 + 7 * Real.sqrt 6) / 3 := rfl
  have d2 : consts.DD2 = (-13 + 7 * Real.sqrt 6) / 3 := rfl
  have d3 : consts.DD3 = -1 / 3 := rfl
  have h6 := s6sq
  simp only [Fin.val_zero, Fin.val_one, Fin.val_two, Nat.cast_zero, Nat.cast_one, Nat.cast_ofNat,
    zero_add, pow_one, pow_zero, mul_one, div_one] at h0 h1 h2 k0 k1
  have g0 : nodes 0 = (4 - Real.sqrt 6) / 10 := rfl
  have g1 : nodes 1 = (4 + Real.sqrt 6) / 10 := rfl
  have g2 : nodes 2 = 1 := rfl
  generalize Real.sqrt 6 = s at *
  rw [k0, k1, k2, h0, h0, h0, h1, h1, h1, h2, h2, h2, d1, d2, d3, g0, g1, g2]
  generalize 1 / consts.U1 = v at *
  refine ⟨?_, ?_, ?_⟩
  · linear_combination (7 / 15 * v) * h6
  · linear_combination (43 / 300 * v) * h6
  · linear_combination (v * (2 / 9000) * (180 + 7 * (s ^ 2 + 6))) * h6

end Odes.Radau
