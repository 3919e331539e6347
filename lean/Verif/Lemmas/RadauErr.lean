import Verif.Lemmas.RodasErr
import Verif.Props.RadauConsts
import Mathlib.LinearAlgebra.Pi
import Mathlib.LinearAlgebra.BilinearForm.Hom

/-!
# Radau5 on dissipative linear problems: lemmas

`Z` stands for `h A`.
-/

namespace Odes.RadauLin

open Odes.Radau (consts Tm TIm Lam radauA radauAinv)
open Odes.Rodas (Energy nrm nrm_nonneg nrm_sq nrm_add nrm_smul nrm_sum)

variable {V : Type*} [AddCommGroup V] [Module ℝ V] {B : LinearMap.BilinForm ℝ V} {Z : V →ₗ[ℝ] V}

/-! ### the rational function of the method -/

/-- the denominator `1 - 3/5 z + 3/20 z^2 - 1/60 z^3` at `Z`. -/
noncomputable def den (Z : V →ₗ[ℝ] V) : V →ₗ[ℝ] V :=
  LinearMap.id - (3 / 5 : ℝ) • Z + (3 / 20 : ℝ) • Z ^ 2 - (1 / 60 : ℝ) • Z ^ 3

/-- the numerator `1 + 2/5 z + 1/20 z^2` at `Z`. -/
noncomputable def numer (Z : V →ₗ[ℝ] V) : V →ₗ[ℝ] V :=
  LinearMap.id + (2 / 5 : ℝ) • Z + (1 / 20 : ℝ) • Z ^ 2

theorem den_apply (w : V) : den Z w
    = w - (3 / 5 : ℝ) • Z w + (3 / 20 : ℝ) • (Z ^ 2) w - (1 / 60 : ℝ) • (Z ^ 3) w := rfl

theorem numer_apply (w : V) : numer Z w = w + (2 / 5 : ℝ) • Z w + (1 / 20 : ℝ) • (Z ^ 2) w := rfl

theorem pow_two_apply (w : V) : (Z ^ 2) w = Z (Z w) := by rw [sq]; rfl

theorem pow_three_apply (w : V) : (Z ^ 3) w = Z (Z (Z w)) := by rw [pow_succ, sq]; rfl

theorem den_comm (x : V) : den Z (Z x) = Z (den Z x) := by
  simp only [den_apply, pow_two_apply, pow_three_apply, map_sub, map_add, map_smul]

theorem den_comm_pow (k : ℕ) (x : V) : den Z ((Z ^ k) x) = (Z ^ k) (den Z x) := by
  induction k with
  | zero => rfl
  | succ k ih => rw [pow_succ', Module.End.mul_apply, den_comm, ih, Module.End.mul_apply]

/-- the energy identities behind the A-stability of the method. -/
theorem den_energy (hB : Energy B Z) (w : V) :
    B w w + 3 / 50 * B (Z w) (Z w) + 1 / 400 * B ((Z ^ 2) w) ((Z ^ 2) w)
      + 1 / 3600 * B ((Z ^ 3) w) ((Z ^ 3) w) ≤ B (den Z w) (den Z w) ∧
    B (numer Z w) (numer Z w) ≤ B (den Z w) (den Z w) := by
  have d1 := hB.diss (w - (1 / 4 : ℝ) • Z w + (1 / 36 : ℝ) • Z (Z w))
  have d2 := hB.diss (Z w - (7 / 43 : ℝ) • Z (Z w))
  have d3 := hB.diss (Z (Z w))
  have d4 := hB.diss (w - (1 / 10 : ℝ) • Z w + (1 / 60 : ℝ) • Z (Z w))
  have d5 := hB.diss (Z w - (1 / 10 : ℝ) • Z (Z w))
  have n3 := hB.nonneg (Z (Z (Z w)))
  rw [den_apply, numer_apply, pow_two_apply, pow_three_apply]
  simp only [map_sub, map_add, map_smul] at d1 d2 d3 d4 d5
  have s1 := hB.symm (Z w) w
  have s2 := hB.symm (Z (Z w)) w
  have s3 := hB.symm (Z (Z (Z w))) w
  have s4 := hB.symm (Z (Z w)) (Z w)
  have s5 := hB.symm (Z (Z (Z w))) (Z w)
  have s6 := hB.symm (Z (Z (Z w))) (Z (Z w))
  generalize Z (Z (Z w)) = d at *
  generalize Z (Z w) = c at *
  generalize Z w = b at *
  simp only [map_sub, map_add, map_smul, LinearMap.sub_apply, LinearMap.add_apply, LinearMap.smul_apply,
    smul_eq_mul, s1, s2, s3, s4, s5, s6] at *
  constructor <;> linarith

theorem sqrt_bound {x y k : ℝ} (hk : 0 ≤ k) (h : x ≤ k ^ 2 * y) : Real.sqrt x ≤ k * Real.sqrt y := by
  refine (Real.sqrt_le_sqrt h).trans ?_
  rw [Real.sqrt_mul (sq_nonneg k), Real.sqrt_sq hk]

theorem den_bounds (hB : Energy B Z) (w : V) :
    nrm B w ≤ nrm B (den Z w) ∧ nrm B (Z w) ≤ 4.09 * nrm B (den Z w) ∧
    nrm B ((Z ^ 2) w) ≤ 20 * nrm B (den Z w) ∧ nrm B ((Z ^ 3) w) ≤ 60 * nrm B (den Z w) ∧
    nrm B (numer Z w) ≤ nrm B (den Z w) := by
  obtain ⟨h1, h2⟩ := den_energy hB w
  have p0 := hB.nonneg w
  have p1 := hB.nonneg (Z w)
  have p2 := hB.nonneg ((Z ^ 2) w)
  have p3 := hB.nonneg ((Z ^ 3) w)
  refine ⟨Real.sqrt_le_sqrt (by linarith), sqrt_bound (by norm_num) ?_, sqrt_bound (by norm_num) ?_,
    sqrt_bound (by norm_num) ?_, Real.sqrt_le_sqrt h2⟩
  · norm_num; linarith
  · norm_num; linarith
  · norm_num; linarith

theorem den_surjective [FiniteDimensional ℝ V] (hB : Energy B Z) : Function.Surjective (den Z) := by
  rw [← LinearMap.injective_iff_surjective, ← LinearMap.ker_eq_bot, LinearMap.ker_eq_bot']
  intro x hx
  by_contra h
  have h1 := (den_energy hB x).1
  have h2 := hB.pos x h
  have p1 := hB.nonneg (Z x)
  have p2 := hB.nonneg ((Z ^ 2) x)
  have p3 := hB.nonneg ((Z ^ 3) x)
  rw [hx] at h1
  simp only [map_zero] at h1
  linarith

/-- the method agrees with the exponential up to the order 5. -/
theorem numer_taylor (hB : Energy B Z) (w : V) :
    nrm B (numer Z w - ∑ j ∈ Finset.range 6, (1 / (j.factorial : ℝ)) • (Z ^ j) (den Z w))
      ≤ 0.0066 * nrm B ((Z ^ 6) (den Z w)) := by
  have e : numer Z w - ∑ j ∈ Finset.range 6, (1 / (j.factorial : ℝ)) • (Z ^ j) (den Z w)
      = (11 / 7200 : ℝ) • (Z ^ 6) w + ((-1 / 1800 : ℝ) • Z ((Z ^ 6) w) + (1 / 7200 : ℝ) • (Z ^ 2) ((Z ^ 6) w)) := by
    simp only [Finset.sum_range_succ, Finset.sum_range_zero, den_apply, numer_apply, pow_succ, pow_zero,
      Module.End.mul_apply, Module.End.one_apply, map_add, map_sub, map_smul, Nat.factorial]
    push_cast
    module
  have hb := den_bounds hB ((Z ^ 6) w)
  rw [den_comm_pow] at hb
  obtain ⟨b0, b1, b2, -⟩ := hb
  rw [e]
  refine (nrm_add hB _ _).trans ((add_le_add_right (nrm_add hB _ _) _).trans ?_)
  rw [nrm_smul, nrm_smul, nrm_smul]
  norm_num [abs_of_pos] at *
  have := nrm_nonneg (B := B) ((Z ^ 6) (den Z w))
  linarith

/-! ### three copies of the space -/

/-- the inner product on three copies. -/
noncomputable def form3 (B : LinearMap.BilinForm ℝ V) : LinearMap.BilinForm ℝ (Fin 3 → V) :=
  ∑ i : Fin 3, B.compl₁₂ (LinearMap.proj i) (LinearMap.proj i)

theorem form3_apply (U W : Fin 3 → V) : form3 B U W = ∑ i, B (U i) (W i) := by
  simp [form3, LinearMap.sum_apply]

/-- `Z` on each copy. -/
noncomputable def map3 (Z : V →ₗ[ℝ] V) : (Fin 3 → V) →ₗ[ℝ] (Fin 3 → V) :=
  LinearMap.pi fun i => Z ∘ₗ LinearMap.proj i

theorem map3_apply (W : Fin 3 → V) (i : Fin 3) : map3 Z W i = Z (W i) := rfl

/-- a matrix acting on the copies. -/
noncomputable def mat3 (M : Matrix (Fin 3) (Fin 3) ℝ) : (Fin 3 → V) →ₗ[ℝ] (Fin 3 → V) :=
  LinearMap.pi fun i => ∑ j, M i j • LinearMap.proj j

theorem mat3_apply (M : Matrix (Fin 3) (Fin 3) ℝ) (W : Fin 3 → V) (i : Fin 3) :
    mat3 M W i = ∑ j, M i j • W j := by
  simp [mat3]

theorem mat3_mul (M N : Matrix (Fin 3) (Fin 3) ℝ) (W : Fin 3 → V) : mat3 M (mat3 N W) = mat3 (M * N) W := by
  funext i
  simp only [mat3_apply, Matrix.mul_apply, Finset.smul_sum, Finset.sum_smul, smul_smul]
  exact Finset.sum_comm

theorem mat3_sub (M N : Matrix (Fin 3) (Fin 3) ℝ) (W : Fin 3 → V) :
    mat3 (M - N) W = mat3 M W - mat3 N W := by
  funext i
  simp [mat3_apply, sub_smul]

theorem mat3_one (W : Fin 3 → V) : mat3 1 W = W := by
  funext i
  simp [mat3_apply, Matrix.one_apply]

theorem mat3_map3 (M : Matrix (Fin 3) (Fin 3) ℝ) (W : Fin 3 → V) :
    mat3 M (map3 Z W) = map3 Z (mat3 M W) := by
  funext i
  simp [mat3_apply, map3_apply]

theorem energy3 (hB : Energy B Z) : Energy (form3 B) (map3 Z) where
  symm x y := by
    rw [form3_apply, form3_apply]
    exact Finset.sum_congr rfl fun i _ => hB.symm _ _
  pos x hx := by
    rw [form3_apply]
    obtain ⟨i, hi⟩ := Function.ne_iff.1 hx
    exact Finset.sum_pos' (fun i _ => hB.nonneg _) ⟨i, Finset.mem_univ i, hB.pos _ hi⟩
  diss x := by
    rw [form3_apply]
    exact Finset.sum_nonpos fun i _ => hB.diss _

theorem nrm3_sq (hB : Energy B Z) (W : Fin 3 → V) :
    nrm (form3 B) W ^ 2 = nrm B (W 0) ^ 2 + nrm B (W 1) ^ 2 + nrm B (W 2) ^ 2 := by
  rw [nrm_sq (energy3 hB), form3_apply, Fin.sum_univ_three, nrm_sq hB, nrm_sq hB, nrm_sq hB]

theorem nrm3_le_sum (hB : Energy B Z) (W : Fin 3 → V) :
    nrm (form3 B) W ≤ nrm B (W 0) + nrm B (W 1) + nrm B (W 2) := by
  have h0 := nrm_nonneg (B := B) (W 0)
  have h1 := nrm_nonneg (B := B) (W 1)
  have h2 := nrm_nonneg (B := B) (W 2)
  apply le_of_sq_le_sq _ (by positivity)
  rw [nrm3_sq hB]
  nlinarith [mul_nonneg h0 h1, mul_nonneg h0 h2, mul_nonneg h1 h2]

/-- a matrix with entries at most `m`. -/
theorem nrm_mat3 (hB : Energy B Z) {M : Matrix (Fin 3) (Fin 3) ℝ} {m : ℝ} (hm : ∀ i j, |M i j| ≤ m)
    (W : Fin 3 → V) : nrm (form3 B) (mat3 M W) ≤ 3 * m * nrm (form3 B) W := by
  have h0 := nrm_nonneg (B := B) (W 0)
  have h1 := nrm_nonneg (B := B) (W 1)
  have h2 := nrm_nonneg (B := B) (W 2)
  have m0 : 0 ≤ m := (abs_nonneg _).trans (hm 0 0)
  have row : ∀ i, nrm B (mat3 M W i) ≤ m * (nrm B (W 0) + nrm B (W 1) + nrm B (W 2)) := by
    intro i
    rw [mat3_apply]
    refine (nrm_sum hB _).trans ?_
    rw [Fin.sum_univ_three, nrm_smul, nrm_smul, nrm_smul, mul_add, mul_add]
    gcongr <;> exact hm _ _
  have sq : ∀ i, nrm B (mat3 M W i) ^ 2 ≤ 3 * m ^ 2 * nrm (form3 B) W ^ 2 := by
    intro i
    refine (pow_le_pow_left₀ (nrm_nonneg _) (row i) 2).trans ?_
    rw [nrm3_sq hB, mul_pow, mul_comm 3, mul_assoc]
    refine mul_le_mul_of_nonneg_left ?_ (sq_nonneg m)
    nlinarith [sq_nonneg (nrm B (W 0) - nrm B (W 1)), sq_nonneg (nrm B (W 0) - nrm B (W 2)),
      sq_nonneg (nrm B (W 1) - nrm B (W 2))]
  apply le_of_sq_le_sq _ (mul_nonneg (by positivity) (nrm_nonneg _))
  rw [nrm3_sq hB, mul_pow, mul_pow]
  linarith [sq 0, sq 1, sq 2]

/-- one line of it. -/
theorem nrm_row (hB : Energy B Z) (W : Fin 3 → V) (i : Fin 3) : nrm B (W i) ≤ nrm (form3 B) W := by
  apply le_of_sq_le_sq _ (nrm_nonneg _)
  rw [nrm3_sq hB]
  have h0 := sq_nonneg (nrm B (W 0))
  have h1 := sq_nonneg (nrm B (W 1))
  have h2 := sq_nonneg (nrm B (W 2))
  fin_cases i
  · show nrm B (W 0) ^ 2 ≤ _; linarith
  · show nrm B (W 1) ^ 2 ≤ _; linarith
  · show nrm B (W 2) ^ 2 ≤ _; linarith

theorem bil_le (hB : Energy B Z) (x y : V) : B x y ≤ nrm B x * nrm B y := by
  have h1 := LinearMap.BilinForm.apply_sq_le_of_symm B hB.nonneg ⟨hB.symm⟩ x y
  apply abs_le_of_sq_le_sq' _ (mul_nonneg (nrm_nonneg x) (nrm_nonneg y)) |>.2
  rw [mul_pow, nrm_sq hB, nrm_sq hB]
  exact h1

/-! ### the linear systems of the code -/

theorem lam_coercive (hB : Energy B Z) (W : Fin 3 → V) :
    2.6 * form3 B W W ≤ form3 B (mat3 (Lam consts) W) W := by
  obtain ⟨a1, -⟩ := Odes.Radau.U1_enc
  obtain ⟨b1, -⟩ := Odes.Radau.ALPH_enc
  rw [form3_apply, form3_apply, Fin.sum_univ_three, Fin.sum_univ_three, mat3_apply, mat3_apply, mat3_apply,
    Fin.sum_univ_three, Fin.sum_univ_three, Fin.sum_univ_three]
  have e : ∀ i j, Lam consts i j = !![consts.U1, 0, 0; 0, consts.ALPH, -consts.BETA; 0, consts.BETA,
    consts.ALPH] i j := fun i j => rfl
  simp only [e]
  simp
  have n0 := hB.nonneg (W 0)
  have n1 := hB.nonneg (W 1)
  have n2 := hB.nonneg (W 2)
  rw [hB.symm (W 2) (W 1)]
  have c0 : 2.6 * B (W 0) (W 0) ≤ consts.U1 * B (W 0) (W 0) := by gcongr; linarith
  have c1 : 2.6 * B (W 1) (W 1) ≤ consts.ALPH * B (W 1) (W 1) := by gcongr; linarith
  have c2 : 2.6 * B (W 2) (W 2) ≤ consts.ALPH * B (W 2) (W 2) := by gcongr; linarith
  linarith

/-- `(Lam - Z)^-1` is bounded. -/
theorem lam_solve (hB : Energy B Z) {W R : Fin 3 → V} (h : mat3 (Lam consts) W - map3 Z W = R) :
    2.6 * nrm (form3 B) W ≤ nrm (form3 B) R := by
  have h3 := energy3 hB
  have c := lam_coercive hB W
  have d := h3.diss W
  have b := bil_le h3 R W
  rw [← h, map_sub, LinearMap.sub_apply] at b
  rw [← nrm_sq h3] at c
  have n := nrm_nonneg (B := form3 B) W
  rcases eq_or_lt_of_le n with n | n
  · rw [← n, mul_zero]; exact nrm_nonneg _
  · rw [h] at b
    have : 2.6 * nrm (form3 B) W * nrm (form3 B) W ≤ nrm (form3 B) R * nrm (form3 B) W := by nlinarith
    exact le_of_mul_le_mul_right this n

theorem lam_surjective [FiniteDimensional ℝ V] (hB : Energy B Z) (R : Fin 3 → V) :
    ∃ W, mat3 (Lam consts) W - map3 Z W = R := by
  have h3 := energy3 hB
  have : Function.Surjective (mat3 (V := V) (Lam consts) - map3 Z) := by
    rw [← LinearMap.injective_iff_surjective, ← LinearMap.ker_eq_bot, LinearMap.ker_eq_bot']
    intro x hx
    by_contra h
    have h1 := lam_solve hB (W := x) (R := 0) hx
    have h2 : nrm (form3 B) (0 : Fin 3 → V) = 0 := by simp [nrm]
    have h4 := h3.pos x h
    rw [← nrm_sq h3] at h4
    have h5 := nrm_nonneg (B := form3 B) x
    nlinarith
  exact this R

/-! ### the stages of the method -/

/-- coefficient of `Z^2` in the stages. -/
noncomputable def q2 (i : Fin 3) : ℝ := Odes.Radau.nodes i ^ 2 / 2 - 3 / 5 * Odes.Radau.nodes i

/-- stage increments of the Radau IIA method, started with `den Z w`. -/
noncomputable def stage (Z : V →ₗ[ℝ] V) (w : V) (i : Fin 3) : V :=
  Odes.Radau.nodes i • Z w + q2 i • (Z ^ 2) w + (1 / 60 : ℝ) • (Z ^ 3) w

theorem ainv_rows (i : Fin 3) : ∑ j, radauAinv i j * Odes.Radau.nodes j = 1 ∧
    ∑ j, radauAinv i j * q2 j = Odes.Radau.nodes i - 3 / 5 ∧
    ∑ j, radauAinv i j * (1 / 60) = q2 i + 3 / 20 := by
  have h6 := Odes.Radau.s6sq
  have h62 := Odes.Radau.s6p2
  have h63 := Odes.Radau.s6p3
  have n0 : Odes.Radau.nodes 0 = (4 - Real.sqrt 6) / 10 := rfl
  have n1 : Odes.Radau.nodes 1 = (4 + Real.sqrt 6) / 10 := rfl
  have n2 : Odes.Radau.nodes 2 = 1 := rfl
  have e0 : q2 0 = ((4 - Real.sqrt 6) / 10) ^ 2 / 2 - 3 / 5 * ((4 - Real.sqrt 6) / 10) := rfl
  have e1 : q2 1 = ((4 + Real.sqrt 6) / 10) ^ 2 / 2 - 3 / 5 * ((4 + Real.sqrt 6) / 10) := rfl
  have e2 : q2 2 = 1 ^ 2 / 2 - 3 / 5 * 1 := rfl
  simp only [Fin.sum_univ_three, n0, n1, n2, e0, e1, e2]
  fin_cases i <;> simp [radauAinv, n0, n1, n2, e0, e1, e2] <;> refine ⟨?_, ?_, ?_⟩ <;>
    ring_nf <;> linarith [h62, h63]

theorem stage_eq (w : V) : mat3 radauAinv (stage Z w) - map3 Z (stage Z w) = fun _ => Z (den Z w) := by
  funext i
  obtain ⟨h1, h2, h3⟩ := ainv_rows i
  rw [Pi.sub_apply, mat3_apply, map3_apply]
  rw [Fin.sum_univ_three] at *
  simp only [stage, den_apply, map_add, map_sub, map_smul]
  rw [pow_two_apply, pow_three_apply]
  generalize Z (Z (Z (Z w))) = d
  generalize Z (Z (Z w)) = c
  generalize Z (Z w) = b
  generalize Z w = a
  have e : radauAinv i 0 • (Odes.Radau.nodes 0 • a + q2 0 • b + (1 / 60 : ℝ) • c)
      + radauAinv i 1 • (Odes.Radau.nodes 1 • a + q2 1 • b + (1 / 60 : ℝ) • c)
      + radauAinv i 2 • (Odes.Radau.nodes 2 • a + q2 2 • b + (1 / 60 : ℝ) • c)
      = (radauAinv i 0 * Odes.Radau.nodes 0 + radauAinv i 1 * Odes.Radau.nodes 1
          + radauAinv i 2 * Odes.Radau.nodes 2) • a
        + (radauAinv i 0 * q2 0 + radauAinv i 1 * q2 1 + radauAinv i 2 * q2 2) • b
        + (radauAinv i 0 * (1 / 60) + radauAinv i 1 * (1 / 60) + radauAinv i 2 * (1 / 60)) • c := by module
  rw [e, h1, h2, h3]
  module

theorem stage_last (w : V) : den Z w + stage Z w 2 = numer Z w := by
  have n2 : Odes.Radau.nodes 2 = 1 := rfl
  have e2 : q2 2 = 1 ^ 2 / 2 - 3 / 5 * 1 := rfl
  rw [stage, den_apply, numer_apply, n2, e2]
  module

theorem nodes_abs : |Odes.Radau.nodes 0| ≤ 0.16 ∧ |Odes.Radau.nodes 1| ≤ 0.65 ∧ |Odes.Radau.nodes 2| ≤ 1 ∧
    |q2 0| ≤ 0.09 ∧ |q2 1| ≤ 0.18 ∧ |q2 2| ≤ 0.1 := by
  obtain ⟨s1, s2⟩ := Odes.Radau.s6_enc
  have h62 := Odes.Radau.s6p2
  have n0 : Odes.Radau.nodes 0 = (4 - Real.sqrt 6) / 10 := rfl
  have n1 : Odes.Radau.nodes 1 = (4 + Real.sqrt 6) / 10 := rfl
  have n2 : Odes.Radau.nodes 2 = 1 := rfl
  have e0 : q2 0 = ((4 - Real.sqrt 6) / 10) ^ 2 / 2 - 3 / 5 * ((4 - Real.sqrt 6) / 10) := rfl
  have e1 : q2 1 = ((4 + Real.sqrt 6) / 10) ^ 2 / 2 - 3 / 5 * ((4 + Real.sqrt 6) / 10) := rfl
  have e2 : q2 2 = 1 ^ 2 / 2 - 3 / 5 * 1 := rfl
  rw [n0, n1, n2, e0, e1, e2]
  refine ⟨abs_le.2 ⟨by linarith, by linarith⟩, abs_le.2 ⟨by linarith, by linarith⟩, by norm_num,
    abs_le.2 ⟨by nlinarith, by nlinarith⟩, abs_le.2 ⟨by nlinarith, by nlinarith⟩, ?_⟩
  rw [abs_le]; constructor <;> norm_num

theorem nrm_stage (hB : Energy B Z) (w : V) :
    nrm (form3 B) (stage Z w) ≤ 18 * nrm B (den Z w) ∧
    nrm (form3 B) (stage Z w) ≤ 5 * nrm B (Z (den Z w)) := by
  have h : nrm (form3 B) (stage Z w)
      ≤ 1.81 * nrm B (Z w) + 0.37 * nrm B ((Z ^ 2) w) + 1 / 20 * nrm B ((Z ^ 3) w) := by
    obtain ⟨a0, a1, a2, a3, a4, a5⟩ := nodes_abs
    have p1 := nrm_nonneg (B := B) (Z w)
    have p2 := nrm_nonneg (B := B) ((Z ^ 2) w)
    have r : ∀ i, nrm B (stage Z w i) ≤ |Odes.Radau.nodes i| * nrm B (Z w) + |q2 i| * nrm B ((Z ^ 2) w)
        + 1 / 60 * nrm B ((Z ^ 3) w) := by
      intro i
      refine (nrm_add hB _ _).trans ((add_le_add_left (nrm_add hB _ _) _).trans ?_)
      rw [nrm_smul, nrm_smul, nrm_smul, abs_of_pos (by norm_num : (0 : ℝ) < 1 / 60)]
    refine (nrm3_le_sum hB _).trans ?_
    have b0 := mul_le_mul_of_nonneg_right a0 p1
    have b1 := mul_le_mul_of_nonneg_right a1 p1
    have b2 := mul_le_mul_of_nonneg_right a2 p1
    have b3 := mul_le_mul_of_nonneg_right a3 p2
    have b4 := mul_le_mul_of_nonneg_right a4 p2
    have b5 := mul_le_mul_of_nonneg_right a5 p2
    linarith [r 0, r 1, r 2]
  obtain ⟨-, b1, b2, b3, -⟩ := den_bounds hB w
  obtain ⟨c0, c1, c2, -, -⟩ := den_bounds hB (Z w)
  rw [den_comm] at c0 c1 c2
  have e2 : (Z ^ 2) w = Z (Z w) := pow_two_apply w
  have e3 : (Z ^ 3) w = (Z ^ 2) (Z w) := by rw [pow_three_apply, pow_two_apply]
  have n0 := nrm_nonneg (B := B) (den Z w)
  have n1 := nrm_nonneg (B := B) (Z (den Z w))
  constructor
  · linarith
  · rw [e3, e2] at h
    linarith

/-! ### the printed constants -/

theorem printed (i j : Fin 3) :
    |(Tm consts * TIm consts - 1) i j| ≤ 1e-19 ∧ |(TIm consts * Tm consts - 1) i j| ≤ 1e-19 ∧
    |(TIm consts * radauAinv - Lam consts * TIm consts) i j| ≤ 1e-18 ∧
    |TIm consts i j| ≤ 4.33 ∧ |Tm consts i j| ≤ 1 ∧ |Lam consts i j| ≤ 3.64 := by
  have hc := Odes.Radau.radauA_collocation
  obtain ⟨t1, t2, -⟩ := Odes.Radau.radau_transformation hc i j
  refine ⟨t1, t2, ?_, ?_⟩
  all_goals
    obtain ⟨a1, a2⟩ := Odes.Radau.U1_enc
    obtain ⟨b1, b2⟩ := Odes.Radau.ALPH_enc
    obtain ⟨d1, d2⟩ := Odes.Radau.BETA_enc
    obtain ⟨s1, s2⟩ := Odes.Radau.s6_enc
    have hL : Lam consts = !![consts.U1, 0, 0; 0, consts.ALPH, -consts.BETA; 0, consts.BETA,
      consts.ALPH] := rfl
    have hT : Tm consts = !![9.1232394870892942792e-02, -0.14125529502095420843,
      -3.0029194105147424492e-02; 0.24171793270710701896, 0.20412935229379993199,
      0.38294211275726193779; 0.96604818261509293619, 1, 0] := rfl
    have hTI : TIm consts = !![4.3255798900631553510, 0.33919925181580986954, 0.54177053993587487119;
      -4.1787185915519047273, -0.32768282076106238708, 0.47662355450055045196;
      -0.50287263494578687595, 2.5719269498556054292, -0.59603920482822492497] := rfl
    rw [hL, hTI]
    generalize consts.U1 = u at *
    generalize consts.ALPH = a at *
    generalize consts.BETA = b at *
  · unfold radauAinv
    generalize Real.sqrt 6 = s at *
    rw [Matrix.sub_apply, Matrix.mul_apply, Matrix.mul_apply, Fin.sum_univ_three, Fin.sum_univ_three]
    fin_cases i <;> fin_cases j <;> simp <;> rw [abs_le] <;> constructor <;> linarith
  · rw [hT]
    refine ⟨?_, ?_, ?_⟩
    · fin_cases i <;> fin_cases j <;> simp <;> norm_num [abs_le]
    · fin_cases i <;> fin_cases j <;> simp <;> norm_num [abs_le]
    · fin_cases i <;> fin_cases j <;> simp <;> first | (rw [abs_le]; constructor <;> linarith) | norm_num

/-! ### the iteration -/

/-- the iterates of the code in the transformed variables: the starting values drop out at the first
iteration. -/
inductive Iter (Z : V →ₗ[ℝ] V) (e : V) : ℕ → (Fin 3 → V) → Prop
  | zero : Iter Z e 0 0
  | succ {k : ℕ} {W W' : Fin 3 → V} : Iter Z e k W →
      mat3 (Lam consts) W' - map3 Z W' = mat3 (TIm consts) (fun _ => Z e)
        + map3 Z (mat3 (TIm consts * Tm consts - 1) W) → Iter Z e (k + 1) W'

theorem Iter.sub {e e' : V} {k : ℕ} {W : Fin 3 → V} (h : Iter Z e k W) :
    ∀ {W' : Fin 3 → V}, Iter Z e' k W' → Iter Z (e - e') k (W - W') := by
  induction h with
  | zero => intro W' h'; cases h'; rw [sub_zero]; exact .zero
  | @succ k W V _ h ih =>
    intro V' h'
    obtain - | ⟨h1, h2⟩ := h'
    refine .succ (ih h1) ?_
    have e1 : (fun _ : Fin 3 => Z (e - e')) = (fun _ => Z e) - fun _ => Z e' := by
      funext i; simp
    rw [e1, map_sub, map_sub, map_sub, map_sub, map_sub]
    rw [sub_eq_iff_eq_add] at h h2
    rw [h, h2]
    abel

theorem Iter.exists [FiniteDimensional ℝ V] (hB : Energy B Z) (e : V) (k : ℕ) : ∃ W, Iter Z e k W := by
  induction k with
  | zero => exact ⟨0, .zero⟩
  | succ k ih =>
    obtain ⟨W, hW⟩ := ih
    obtain ⟨W', h⟩ := lam_surjective hB (mat3 (TIm consts) (fun _ => Z e)
        + map3 Z (mat3 (TIm consts * Tm consts - 1) W))
    exact ⟨W', .succ hW h⟩

/-- the iterates against the stages of the method. -/
theorem iter_close (hB : Energy B Z) {w : V} {k : ℕ} {W : Fin 3 → V} (h : Iter Z (den Z w) k W) :
    nrm (form3 B) W ≤ 14 * nrm (form3 B) (stage Z w) ∧
    (1 ≤ k → nrm (form3 B) (W - mat3 (TIm consts) (stage Z w)) ≤ 2.4e-17 * nrm (form3 B) (stage Z w)) := by
  have h3 := energy3 hB
  have n0 := nrm_nonneg (B := form3 B) (stage Z w)
  induction h with
  | zero =>
    refine ⟨?_, fun h => absurd h (by norm_num)⟩
    have : nrm (form3 B) (0 : Fin 3 → V) = 0 := by simp [nrm]
    rw [this]
    positivity
  | @succ k W W' _ h ih =>
    obtain ⟨ih, -⟩ := ih
    have st := congrArg (mat3 (TIm consts)) (stage_eq (Z := Z) w)
    rw [map_sub, mat3_mul, mat3_map3] at st
    have nu := mat3_sub (TIm consts * radauAinv) (Lam consts * TIm consts) (stage Z w)
    rw [← mat3_mul (Lam consts)] at nu
    have eq : mat3 (Lam consts) (W' - mat3 (TIm consts) (stage Z w) + mat3 (TIm consts * Tm consts - 1) W)
        - map3 Z (W' - mat3 (TIm consts) (stage Z w) + mat3 (TIm consts * Tm consts - 1) W)
        = mat3 (TIm consts * radauAinv - Lam consts * TIm consts) (stage Z w)
          + mat3 (Lam consts) (mat3 (TIm consts * Tm consts - 1) W) := by
      rw [nu, map_add, map_add, map_sub, map_sub]
      rw [sub_eq_iff_eq_add] at h st
      rw [h, st]
      abel
    have b1 := lam_solve hB eq
    have b2 := nrm_add h3 (mat3 (TIm consts * radauAinv - Lam consts * TIm consts) (stage Z w))
      (mat3 (Lam consts) (mat3 (TIm consts * Tm consts - 1) W))
    have b3 := nrm_mat3 hB (fun i j => (printed i j).2.2.1) (stage Z w)
    have b4 := nrm_mat3 hB (fun i j => (printed i j).2.2.2.2.2) (mat3 (TIm consts * Tm consts - 1) W)
    have b5 := nrm_mat3 hB (fun i j => (printed i j).2.1) W
    have b6 := nrm_mat3 hB (fun i j => (printed i j).2.2.2.1) (stage Z w)
    have e1 : W' - mat3 (TIm consts) (stage Z w)
        = (W' - mat3 (TIm consts) (stage Z w) + mat3 (TIm consts * Tm consts - 1) W)
          + (-1 : ℝ) • mat3 (TIm consts * Tm consts - 1) W := by
      rw [neg_one_smul]; abel
    have b7 := nrm_add h3 (W' - mat3 (TIm consts) (stage Z w) + mat3 (TIm consts * Tm consts - 1) W)
      ((-1 : ℝ) • mat3 (TIm consts * Tm consts - 1) W)
    rw [← e1, nrm_smul, abs_neg, abs_one, one_mul] at b7
    have b8 := nrm_add h3 (W' - mat3 (TIm consts) (stage Z w)) (mat3 (TIm consts) (stage Z w))
    rw [sub_add_cancel] at b8
    generalize nrm (form3 B) (stage Z w) = S at *
    generalize nrm (form3 B) W = w0 at *
    generalize nrm (form3 B) (mat3 (TIm consts * Tm consts - 1) W) = w1 at *
    have key : nrm (form3 B) (W' - mat3 (TIm consts) (stage Z w)) ≤ 2.4e-17 * S := by linarith
    exact ⟨by linarith, fun _ => key⟩

/-- the result of a step of the code against the Radau IIA method. -/
theorem iter_result (hB : Energy B Z) {w : V} {k : ℕ} {W : Fin 3 → V} (h : Iter Z (den Z w) k W)
    (hk : 1 ≤ k) : nrm B (den Z w + mat3 (Tm consts) W 2 - numer Z w) ≤ 1e-15 * nrm B (den Z w) ∧
      nrm B (den Z w + mat3 (Tm consts) W 2 - numer Z w) ≤ 3e-16 * nrm B (Z (den Z w)) := by
  have h3 := energy3 hB
  have b1 := (iter_close hB h).2 hk
  have b2 := nrm_mat3 hB (fun i j => (printed i j).1) (stage Z w)
  have b3 := (nrm_row hB _ 2).trans b2
  obtain ⟨s1, s2⟩ := nrm_stage hB w
  set G := W - mat3 (TIm consts) (stage Z w) with hG
  have e : den Z w + mat3 (Tm consts) W 2 - numer Z w
      = mat3 (Tm consts) G 2 + mat3 (Tm consts * TIm consts - 1) (stage Z w) 2 := by
    rw [← stage_last, hG, mat3_sub, mat3_one, ← mat3_mul, map_sub, Pi.sub_apply, Pi.sub_apply]
    abel
  have b4 : nrm B (mat3 (Tm consts) G 2) ≤ 1.97 * nrm (form3 B) G := by
    rw [mat3_apply]
    refine (nrm_sum hB _).trans ?_
    rw [Fin.sum_univ_three, nrm_smul, nrm_smul, nrm_smul]
    have t0 : Tm consts 2 0 = 0.96604818261509293619 := rfl
    have t1 : Tm consts 2 1 = 1 := rfl
    have t2 : Tm consts 2 2 = 0 := rfl
    rw [t0, t1, t2, abs_zero, abs_one, abs_of_pos (by norm_num)]
    have r0 := nrm_row hB G 0
    have r1 := nrm_row hB G 1
    have n0 := nrm_nonneg (B := B) (G 0)
    linarith
  have b5 := nrm_add hB (mat3 (Tm consts) G 2) (mat3 (Tm consts * TIm consts - 1) (stage Z w) 2)
  rw [e]
  have n1 := nrm_nonneg (B := B) (den Z w)
  have n2 := nrm_nonneg (B := B) (Z (den Z w))
  constructor <;> linarith

/-- a step of the code does not increase the energy (up to the 15th decimal). -/
theorem iter_stable [FiniteDimensional ℝ V] (hB : Energy B Z) {e : V} {k : ℕ} {W : Fin 3 → V}
    (h : Iter Z e k W) (hk : 1 ≤ k) : nrm B (e + mat3 (Tm consts) W 2) ≤ (1 + 1e-15) * nrm B e := by
  obtain ⟨w, rfl⟩ := den_surjective hB e
  have b1 := (iter_result hB h hk).1
  obtain ⟨-, -, -, -, b2⟩ := den_bounds hB w
  have b3 := nrm_add hB (den Z w + mat3 (Tm consts) W 2 - numer Z w) (numer Z w)
  rw [sub_add_cancel] at b3
  linarith

/-- a step of the code against the Taylor polynomial of the exponential. -/
theorem iter_taylor [FiniteDimensional ℝ V] (hB : Energy B Z) {e : V} {k : ℕ} {W : Fin 3 → V}
    (h : Iter Z e k W) (hk : 1 ≤ k) :
    nrm B (e + mat3 (Tm consts) W 2 - ∑ j ∈ Finset.range 6, (1 / (j.factorial : ℝ)) • (Z ^ j) e)
      ≤ 3e-16 * nrm B (Z e) + 0.0066 * nrm B ((Z ^ 6) e) := by
  obtain ⟨w, rfl⟩ := den_surjective hB e
  have b1 := (iter_result hB h hk).2
  have b2 := numer_taylor hB w
  have b3 := nrm_add hB (den Z w + mat3 (Tm consts) W 2 - numer Z w)
    (numer Z w - ∑ j ∈ Finset.range 6, (1 / (j.factorial : ℝ)) • (Z ^ j) (den Z w))
  rw [sub_add_sub_cancel] at b3
  linarith

end Odes.RadauLin
