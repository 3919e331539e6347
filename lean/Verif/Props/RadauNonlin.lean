import Verif.Lemmas.CollocReal
import Verif.Props.RadauB
import Verif.Props.Rock4Nonlin
import Verif.Props.RodasNonlin

/-! # C122: Radau5 converges with order five on smooth problems

Error of whole runs of Radau5 on `y' = F(x, y)`, `F` five times continuously differentiable near the solution, with the
constants printed in the code: the three stage Radau IIA method has order five, what the Newton iterations leave enters
with the factor `1 + C H`. -/

namespace Odes.Radau

open Classical
open Odes.Germ Odes.Colloc
open Odes.Spec (Collocation stageResidual newtonDefect len)

noncomputable section

variable {n : ℕ} {F : ℝ → (Fin n → ℝ) → Fin n → ℝ} {x0 b : ℝ}

/-! ### the method -/

theorem nodes_inj : Function.Injective nodes := by
  have hl := radau_nodes.lt
  intro a b hab
  fin_cases a <;> fin_cases b <;> first | rfl | (exfalso; simp at hab hl; linarith)

theorem nodal_eq : Lagrange.nodal Finset.univ nodes
    = (Polynomial.monomial 3 1 + Polynomial.monomial 2 (-9 / 5) + Polynomial.monomial 1 (9 / 10)
      + Polynomial.monomial 0 (-1 / 10) : Polynomial ℝ) := by
  have h6 := s6p2
  have e : Lagrange.nodal Finset.univ nodes
      = (Polynomial.X - Polynomial.C (nodes 0)) * (Polynomial.X - Polynomial.C (nodes 1))
        * (Polynomial.X - Polynomial.C (nodes 2)) := by
    rw [Lagrange.nodal_eq, Fin.prod_univ_three]
  have n0 : nodes 0 = (4 - Real.sqrt 6) / 10 := rfl
  have n1 : nodes 1 = (4 + Real.sqrt 6) / 10 := rfl
  have n2 : nodes 2 = 1 := rfl
  have s : nodes 0 + nodes 1 = 4 / 5 := by rw [n0, n1]; ring
  have m : nodes 0 * nodes 1 = 1 / 10 := by rw [n0, n1]; linarith
  have e2 : (Polynomial.X - Polynomial.C (nodes 0)) * (Polynomial.X - Polynomial.C (nodes 1))
      = (Polynomial.X ^ 2 - Polynomial.C (4 / 5) * Polynomial.X + Polynomial.C (1 / 10) : Polynomial ℝ) := by
    rw [← s, ← m, map_add, map_mul]; ring
  rw [e, e2, n2]
  simp only [← Polynomial.C_mul_X_pow_eq_monomial, map_one, pow_zero, pow_one, mul_one, one_mul]
  have q1 : (Polynomial.C (-9 / 5 : ℝ)) = -Polynomial.C (4 / 5) - 1 := by
    rw [← Polynomial.C_neg, ← Polynomial.C_1, ← Polynomial.C_sub]; norm_num
  have q2 : (Polynomial.C (9 / 10 : ℝ)) = Polynomial.C (4 / 5) + Polynomial.C (1 / 10) := by
    rw [← Polynomial.C_add]; norm_num
  have q3 : (Polynomial.C (-1 / 10 : ℝ)) = - Polynomial.C (1 / 10) := by
    rw [← Polynomial.C_neg]; norm_num
  rw [q1, q2, q3]
  ring

theorem radau_data : Data nodes (lag nodes) (fun i => prim (lag nodes i)) 5 := by
  refine data_of (σ := 2) nodes_inj fun k hk => ?_
  rw [nodal_eq]
  have : k = 0 ∨ k = 1 := by omega
  simp only [← Polynomial.monomial_one_right_eq_X_pow, add_mul, Polynomial.monomial_mul_monomial, map_add, J_monomial]
  rcases this with rfl | rfl <;> norm_num

/-- C122: **the local error of the three stage Radau IIA method is of order six.** -/
theorem radau_local {y : ℝ → Fin n → ℝ} (hy : SolT F y x0 b) {ρ : ℝ} (hρ : 0 < ρ) (hF : SmoothT F y x0 b ρ 5) :
    ∃ h0 C : ℝ, 0 < h0 ∧ 0 ≤ C ∧ ∀ t h : ℝ, x0 ≤ t → 0 ≤ h → h ≤ h0 → t + h ≤ b → ∃ k : Fin 3 → Fin n → ℝ,
      (∀ i, k i = F (t + nodes i * h) (y t + h • ∑ j, radauA i j • k j)) ∧ (∀ i, ‖h • ∑ j, radauA i j • k j‖ ≤ ρ) ∧
      ‖y t + h • ∑ j, radauA 2 j • k j - y (t + h)‖ ≤ C * h ^ 6 := by
  have ha : ∀ i j, radauA i j = (prim (lag nodes j)).eval (nodes i) := fun i j =>
    (prim_lag (a := fun j => radauA i j) nodes_inj (fun k hk => radauA_collocation i ⟨k, hk⟩) j).symm
  refine colloc_local_t radau_data (by norm_num) hy hρ hF ha (ha 2) fun i => ?_
  simpa using radauA_collocation i 0

/-! ### one step -/

theorem row_two : |radauA 2 0| + |radauA 2 1| + |radauA 2 2| = 1 := by
  obtain ⟨s1, s2⟩ := sqrt6
  have e0 : radauA 2 0 = (16 - Real.sqrt 6) / 36 := rfl
  have e1 : radauA 2 1 = (16 + Real.sqrt 6) / 36 := rfl
  have e2 : radauA 2 2 = 1 / 9 := rfl
  rw [e0, e1, e2, abs_of_nonneg (by linarith), abs_of_nonneg (by linarith), abs_of_nonneg (by norm_num)]
  ring

theorem three_le {A0 A1 A2 m : ℝ} {w : Fin 3 → Fin n → ℝ} (h : ∀ i, ‖w i‖ ≤ m) :
    ‖A0 • w 0 + A1 • w 1 + A2 • w 2‖ ≤ (|A0| + |A1| + |A2|) * m := by
  refine (norm_add₃_le).trans ?_
  rw [norm_smul, norm_smul, norm_smul]
  have a0 := mul_le_mul_of_nonneg_left (h 0) (abs_nonneg A0)
  have a1 := mul_le_mul_of_nonneg_left (h 1) (abs_nonneg A1)
  have a2 := mul_le_mul_of_nonneg_left (h 2) (abs_nonneg A2)
  simp only [Real.norm_eq_abs]
  linarith

theorem rows_le (i : Fin 3) : |radauA i 0| + |radauA i 1| + |radauA i 2| ≤ 1 := by
  obtain ⟨s1, s2⟩ := sqrt6
  have h6 := s6_enc
  fin_cases i
  · have e0 : radauA 0 0 = (88 - 7 * Real.sqrt 6) / 360 := rfl
    have e1 : radauA 0 1 = (296 - 169 * Real.sqrt 6) / 1800 := rfl
    have e2 : radauA 0 2 = (-2 + 3 * Real.sqrt 6) / 225 := rfl
    show |radauA 0 0| + |radauA 0 1| + |radauA 0 2| ≤ 1
    rw [e0, e1, e2, abs_of_nonneg (by linarith), abs_of_nonpos (by linarith), abs_of_nonneg (by linarith)]
    linarith
  · have e0 : radauA 1 0 = (296 + 169 * Real.sqrt 6) / 1800 := rfl
    have e1 : radauA 1 1 = (88 + 7 * Real.sqrt 6) / 360 := rfl
    have e2 : radauA 1 2 = (-2 - 3 * Real.sqrt 6) / 225 := rfl
    show |radauA 1 0| + |radauA 1 1| + |radauA 1 2| ≤ 1
    rw [e0, e1, e2, abs_of_nonneg (by linarith), abs_of_nonneg (by linarith), abs_of_nonpos (by linarith)]
    linarith
  · exact row_two.le

/-- two sets of stages side by side. -/
theorem stage_compare {F : Fin 3 → (Fin n → ℝ) → Fin n → ℝ} {h Λ ρ δ : ℝ} (hh : 0 ≤ h) (hΛ0 : 0 ≤ Λ)
    (hΛh : 2 * (Λ * h) ≤ 1) {v u : Fin n → ℝ}
    (hF : ∀ i x z, ‖x - u‖ ≤ ρ → ‖z - u‖ ≤ ρ → ‖F i x - F i z‖ ≤ Λ * ‖x - z‖) {Z U r : Fin 3 → Fin n → ℝ}
    (hv : ∀ i, ‖v + Z i - u‖ ≤ ρ) (hu : ∀ i, ‖u + U i - u‖ ≤ ρ) (hr : ∀ i, ‖r i‖ ≤ δ)
    (hZ : ∀ i, Z i = radauA i 0 • (h • F 0 (v + Z 0) + r 0) + radauA i 1 • (h • F 1 (v + Z 1) + r 1)
      + radauA i 2 • (h • F 2 (v + Z 2) + r 2))
    (hU : ∀ i, U i = radauA i 0 • (h • F 0 (u + U 0)) + radauA i 1 • (h • F 1 (u + U 1))
      + radauA i 2 • (h • F 2 (u + U 2))) (i : Fin 3) :
    ‖Z i - U i‖ ≤ (Λ * h + 2 * Λ ^ 2 * h ^ 2) * ‖v - u‖ + (1 + 2 * Λ * h) * δ := by
  obtain ⟨ζ, hζ⟩ : ∃ ζ, ζ = ‖Z - U‖ := ⟨_, rfl⟩
  have ζ0 : 0 ≤ ζ := by rw [hζ]; exact norm_nonneg _
  have hζi : ∀ i, ‖Z i - U i‖ ≤ ζ := fun i => by
    rw [hζ]; exact norm_le_pi_norm (Z - U) i
  obtain ⟨d, hd⟩ : ∃ d, d = ‖v - u‖ := ⟨_, rfl⟩
  have d0 : 0 ≤ d := by rw [hd]; exact norm_nonneg _
  obtain ⟨w, hw⟩ : ∃ w : Fin 3 → Fin n → ℝ, ∀ i, w i = h • (F i (v + Z i) - F i (u + U i)) + r i := ⟨_, fun _ => rfl⟩
  have hwi : ∀ i, ‖w i‖ ≤ h * (Λ * (d + ζ)) + δ := by
    intro i
    rw [hw]
    refine (norm_add_le _ _).trans (add_le_add ?_ (hr i))
    rw [norm_smul, Real.norm_eq_abs, abs_of_nonneg hh]
    refine mul_le_mul_of_nonneg_left ?_ hh
    refine (hF i _ _ (hv i) (hu i)).trans (mul_le_mul_of_nonneg_left ?_ hΛ0)
    have e : v + Z i - (u + U i) = (v - u) + (Z i - U i) := by abel
    rw [e]
    exact (norm_add_le _ _).trans (by rw [hd]; exact add_le_add le_rfl (hζi i))
  have hdiff : ∀ i, Z i - U i = radauA i 0 • w 0 + radauA i 1 • w 1 + radauA i 2 • w 2 := by
    intro i
    rw [hw, hw, hw]
    generalize F 0 (v + Z 0) = a0 at hZ
    generalize F 1 (v + Z 1) = a1 at hZ
    generalize F 2 (v + Z 2) = a2 at hZ
    generalize F 0 (u + U 0) = b0 at hU
    generalize F 1 (u + U 1) = b1 at hU
    generalize F 2 (u + U 2) = b2 at hU
    rw [hZ i, hU i]
    module
  have m0 : 0 ≤ h * (Λ * (d + ζ)) + δ := (norm_nonneg _).trans (hwi 0)
  have hb : ∀ i, ‖Z i - U i‖ ≤ h * (Λ * (d + ζ)) + δ := by
    intro i
    rw [hdiff]
    refine (three_le hwi).trans ?_
    have := mul_le_mul_of_nonneg_right (rows_le i) m0
    linarith
  have hζ2 : ζ ≤ h * (Λ * (d + ζ)) + δ := by
    rw [hζ, pi_norm_le_iff_of_nonneg (by rw [← hζ]; exact m0), ← hζ]
    exact hb
  have hζ3 : ζ ≤ 2 * (Λ * h * d + δ) := by
    have := mul_le_mul_of_nonneg_right hΛh ζ0
    linarith
  have g1 : Λ * h * ζ ≤ Λ * h * (2 * (Λ * h * d + δ)) := mul_le_mul_of_nonneg_left hζ3 (by positivity)
  have f2 := hb i
  rw [← hd]
  linarith

theorem node_range (i : Fin 3) : 0 ≤ nodes i ∧ nodes i ≤ 1 := by
  obtain ⟨s1, s2⟩ := sqrt6
  fin_cases i
  · show 0 ≤ (4 - Real.sqrt 6) / 10 ∧ (4 - Real.sqrt 6) / 10 ≤ 1
    constructor <;> linarith
  · show 0 ≤ (4 + Real.sqrt 6) / 10 ∧ (4 + Real.sqrt 6) / 10 ≤ 1
    constructor <;> linarith
  · show (0 : ℝ) ≤ 1 ∧ (1 : ℝ) ≤ 1
    norm_num

/-- C122 (one step): stage increments `Z` from `v` with residuals at most `δ` and inside the ball of radius `ρ`, compared
with the solution. -/
theorem radau_step_order {y : ℝ → Fin n → ℝ} (hy : SolT F y x0 b) {Λ ρ : ℝ} (hρ : 0 < ρ) (hF : SmoothT F y x0 b ρ 5)
    (hΛ0 : 0 ≤ Λ) (hΛ : LipT F y x0 b ρ Λ) :
    ∃ C, 0 ≤ C ∧ ∀ (t h δ : ℝ) (v : Fin n → ℝ) (Z : Matrix (Fin 3) (Fin n) ℝ), x0 ≤ t → 0 ≤ h → C * h ≤ 1 → t + h ≤ b →
      (∀ i, ‖v - y t‖ + ‖Z i‖ ≤ ρ) → (∀ i, ‖stageResidual radauA nodes F t h v Z i‖ ≤ δ) →
      ‖(fun i => v i + Z 2 i) - y (t + h)‖ ≤ (1 + Λ * h + C * h ^ 2) * ‖v - y t‖ + C * h ^ 6 + (1 + C * h) * δ := by
  obtain ⟨h0, C0, h0p, c0, hloc⟩ := radau_local hy hρ hF
  refine ⟨C0 + 2 * Λ + 2 * Λ ^ 2 + 1 / h0 + 1 / ρ, by positivity, ?_⟩
  intro t h δ v Z q1 q2 q3 q4 q6 q7
  obtain ⟨C, hC⟩ : ∃ C, C = C0 + 2 * Λ + 2 * Λ ^ 2 + 1 / h0 + 1 / ρ := ⟨_, rfl⟩
  rw [← hC] at q3 ⊢
  have i0 : 0 < 1 / h0 := by positivity
  have i1 : 0 < 1 / ρ := by positivity
  have k1 : C0 ≤ C := by linarith [sq_nonneg Λ]
  have k2 : 2 * Λ ≤ C := by linarith [sq_nonneg Λ]
  have k3 : 2 * Λ ^ 2 ≤ C := by linarith [sq_nonneg Λ]
  have k4 : 1 / h0 ≤ C := by linarith [sq_nonneg Λ]
  have k5 : 1 / ρ ≤ C := by linarith [sq_nonneg Λ]
  have hh : h ≤ h0 := by
    have := (mul_le_mul_of_nonneg_right k4 q2).trans q3
    rw [one_div, inv_mul_le_iff₀ h0p] at this
    linarith
  have hhρ : h ≤ ρ := by
    have := (mul_le_mul_of_nonneg_right k5 q2).trans q3
    rw [one_div, inv_mul_le_iff₀ hρ] at this
    linarith
  have hΛh : 2 * (Λ * h) ≤ 1 := by
    have := (mul_le_mul_of_nonneg_right k2 q2).trans q3
    linarith
  obtain ⟨k, e1, e2, e3⟩ := hloc t h q1 q2 hh q4
  obtain ⟨U, hU⟩ : ∃ U : Fin 3 → Fin n → ℝ, ∀ i, U i = h • ∑ j, radauA i j • k j := ⟨_, fun _ => rfl⟩
  have e1 : ∀ i, k i = F (t + nodes i * h) (y t + U i) := fun i => by rw [hU]; exact e1 i
  have e2 : ∀ i, ‖U i‖ ≤ ρ := fun i => by rw [hU]; exact e2 i
  have e3 : ‖y t + U 2 - y (t + h)‖ ≤ C0 * h ^ 6 := by rw [hU]; exact e3
  have hU' : ∀ i, U i = radauA i 0 • (h • F (t + nodes 0 * h) (y t + U 0))
      + radauA i 1 • (h • F (t + nodes 1 * h) (y t + U 1)) + radauA i 2 • (h • F (t + nodes 2 * h) (y t + U 2)) := by
    intro i
    rw [← e1, ← e1, ← e1, hU, Fin.sum_univ_three, smul_add, smul_add, smul_comm h, smul_comm h, smul_comm h]
  have cmp := stage_compare (F := fun i => F (t + nodes i * h)) q2 hΛ0 hΛh (v := v) (u := y t) (ρ := ρ)
    (fun i x z hx hz => by
      obtain ⟨n0, n1⟩ := node_range i
      have m0 : 0 ≤ nodes i * h := mul_nonneg n0 q2
      have m1 : nodes i * h ≤ h := by nlinarith
      exact hΛ t ⟨q1, by linarith⟩ (t + nodes i * h) ⟨by linarith, by linarith⟩
        (by rw [add_sub_cancel_left, abs_of_nonneg m0]; linarith) x z hx hz)
    (Z := fun i => Z i) (U := U) (r := stageResidual radauA nodes F t h v Z)
    (fun i => by rw [add_sub_right_comm]; exact (norm_add_le _ _).trans (q6 i))
    (fun i => by rw [add_sub_cancel_left]; exact e2 i) q7
    (fun i => of_residual (F := F) (c := nodes) radauA_collocation i) hU' 2
  have fin : ‖(fun i => v i + Z 2 i) - y (t + h)‖ ≤ ‖v - y t‖ + ‖Z 2 - U 2‖ + C0 * h ^ 6 := by
    have e : (fun i => v i + Z 2 i) - y (t + h) = ((v - y t) + (Z 2 - U 2)) + (y t + U 2 - y (t + h)) := by
      funext i
      simp only [Pi.sub_apply, Pi.add_apply]
      ring
    rw [e]
    exact (norm_add_le _ _).trans (add_le_add (norm_add_le _ _) e3)
  have δ0 : 0 ≤ δ := (norm_nonneg _).trans (q7 0)
  have d0 := norm_nonneg (v - y t)
  generalize ‖v - y t‖ = d at *
  have g2 : C0 * h ^ 6 ≤ C * h ^ 6 := mul_le_mul_of_nonneg_right k1 (by positivity)
  have g3 : 2 * Λ ^ 2 * (h ^ 2 * d) ≤ C * (h ^ 2 * d) := mul_le_mul_of_nonneg_right k3 (by positivity)
  have g4 : 2 * Λ * (h * δ) ≤ C * (h * δ) := mul_le_mul_of_nonneg_right k2 (by positivity)
  linarith

/-! ### whole runs -/

theorem dot_energy (n : ℕ) : Rodas.Energy (Rodas.dot n) (0 : (Fin n → ℝ) →ₗ[ℝ] (Fin n → ℝ)) :=
  ⟨fun x y => by rw [Rodas.dot_apply, Rodas.dot_apply]; exact dotProduct_comm _ _, Rodas.dot_pos, fun x => by simp⟩

theorem norm_le_len (w : Fin n → ℝ) : ‖w‖ ≤ len (Rodas.dot n) w := by
  unfold Spec.len
  rw [pi_norm_le_iff_of_nonneg (Real.sqrt_nonneg _)]
  intro i
  rw [Real.norm_eq_abs, ← Real.sqrt_sq_eq_abs]
  refine Real.sqrt_le_sqrt ?_
  rw [Rodas.dot_apply, dotProduct, sq]
  exact Finset.single_le_sum (f := fun i => w i * w i) (fun i _ => mul_self_nonneg _) (Finset.mem_univ i)

theorem run_growth {κ h S S' X0 T d d' c : ℝ} (hκ : 0 ≤ κ) (h0 : 0 ≤ h) (hT : X0 ≤ T) (hd : d ≤ Real.exp (κ * (T - X0)) * S)
    (hS : S' = S + c) (hc : 0 ≤ c) (hd' : d' ≤ (1 + κ * h) * d + c) (hS0 : 0 ≤ S) :
    d' ≤ Real.exp (κ * (T + h - X0)) * S' := by
  have e : Real.exp (κ * (T + h - X0)) = Real.exp (κ * h) * Real.exp (κ * (T - X0)) := by
    rw [← Real.exp_add]; congr 1; ring
  have g1 : 1 + κ * h ≤ Real.exp (κ * h) := by linarith [Real.add_one_le_exp (κ * h)]
  have g2 : 1 ≤ Real.exp (κ * (T + h - X0)) := Real.one_le_exp (by nlinarith)
  have g3 : 0 ≤ 1 + κ * h := by positivity
  have g4 := mul_le_mul_of_nonneg_left hd g3
  have g5 : 0 ≤ Real.exp (κ * (T - X0)) * S := mul_nonneg (Real.exp_pos _).le hS0
  have g6 := mul_le_mul_of_nonneg_right g1 g5
  have g7 := mul_le_mul_of_nonneg_right g2 hc
  rw [hS, mul_add]
  have g8 : Real.exp (κ * (T + h - X0)) * S = Real.exp (κ * h) * (Real.exp (κ * (T - X0)) * S) := by rw [e]; ring
  linarith

/-- C122: **error of a whole run of Radau5 on a smooth problem.**  `C` depends on the problem only.  The list holds for
every step its size, the largest stage increment and the defect left by its last Newton iteration.  When the steps are at
most `H` and the stage increments plus the bound `E` at most `ρ`, the error is at most
`E = exp((Λ + C H)(x - x0)) (error at x0 + (x - x0) C H^5 + (1 + C H) (sum of the defects))`. -/
theorem radau_nonlinear_run (hn : 0 < n) {y : ℝ → Fin n → ℝ} (hy : SolT F y x0 b) {Λ ρ : ℝ} (hρ : 0 < ρ)
    (hF : SmoothT F y x0 b ρ 5) (hΛ0 : 0 ≤ Λ) (hΛ : LipT F y x0 b ρ Λ) :
    ∃ C, 0 ≤ C ∧ ∀ (L : Lin X n) (Lr : Lin ℝ n) (Shape : Matrix (Fin n) (Fin n) ℝ → Prop) (_ : LinX L Lr)
      (_ : LinSpec Lr Shape) (P : Prob X n) (Q : Prob ℝ n) (_ : ProbX P Q) (_ : ∀ x v, Q.F x v = F x v)
      (g : Cfg n) (sf u : ℝ) (a r : Fin n → ℝ) (_ : Std g sf u) (_ : g.c = consts.map X.fin) (_ : RealTol g a r)
      (_ : ∀ x y, Shape (jacM Q u x y)) (_ : g.onlyOneStep = false) (xe : ℝ) (_ : x0 < xe) (y0 : Fin n → ℝ)
      (o : St n L.σ) (h : X) (s : St n L.σ) (_ : Returns (step L P g) (call o h (.fin x0) (.fin xe) (fins y0)) s),
      ∃ (x : ℝ) (v : Fin n → ℝ) (l : List (ℝ × ℝ × ℝ)), s.x = .fin x ∧ s.Y = fins v ∧
        (∀ q ∈ l, 0 < q.1 ∧ ∃ (x1 x2 : ℝ) (v1 v2 : Fin n → ℝ) (Z0 Zp Wp Z W : Matrix (Fin 3) (Fin n) ℝ) (k : ℕ),
          x0 ≤ x2 ∧ x2 ≤ x1 ∧ x1 + q.1 ≤ x ∧ k < g.nit.toNat ∧
          Spec.Iterate (newtonMethod consts) Q.F (jacM Q u x2 v2) x1 q.1 v1 Z0 k Zp Wp ∧
          Spec.Iterate (newtonMethod consts) Q.F (jacM Q u x2 v2) x1 q.1 v1 Z0 (k + 1) Z W ∧
          q.2.1 = ‖(fun i => Z i : Fin 3 → Fin n → ℝ)‖ ∧
          q.2.2 = newtonDefect (Rodas.dot n) nodes Q.F (jacM Q u x2 v2) x1 q.1 v1 Zp Z W) ∧
        (l.map fun q => q.1).sum = x - x0 ∧
        ∀ H E : ℝ, x ≤ b → (∀ q ∈ l, q.1 ≤ H ∧ q.2.1 + E ≤ ρ) → C * H ≤ 1 →
          E = Real.exp ((Λ + C * H) * (x - x0)) * (‖y0 - y x0‖ + (x - x0) * (C * H ^ 5)
            + (1 + C * H) * (l.map fun q => q.2.2).sum) → ‖v - y x‖ ≤ E := by
  obtain ⟨C, c0, hstep⟩ := radau_step_order hy hρ hF hΛ0 hΛ
  refine ⟨C, c0, ?_⟩
  intro L Lr Shape hL hS P Q hP hQ g sf u a r hg hc ha hSh ho xe hx y0 o h s hr
  obtain ⟨x, v, q, h1, h2, hp⟩ := radau_run_is_newton hn hL hS hP hg hc nonzero_consts ha hSh ho hx hr
  have hFe : Q.F = F := by funext x v; exact hQ x v
  have ge : ∀ {x v q}, Spec.RadauPath (newtonMethod consts) Q.F (jacM Q u)
      g.nit.toNat (ext consts) (Spec.Passes consts.U1 ![consts.DD1, consts.DD2, consts.DD3] a r Q.F) x0 y0 x v q →
      x0 ≤ x := by
    intro x v q hp
    induction hp with
    | refl => exact le_rfl
    | @step x x' x'' h hold v v' v'' p p' p'' Z W k _ _ _ h0 _ hk _ hi _ _ _ ih _ _ => linarith
  have key : ∀ {x v q}, Spec.RadauPath (newtonMethod consts) Q.F (jacM Q u)
      g.nit.toNat (ext consts) (Spec.Passes consts.U1 ![consts.DD1, consts.DD2, consts.DD3] a r Q.F) x0 y0 x v q →
      ∃ l : List (ℝ × ℝ × ℝ),
        (∀ q ∈ l, 0 < q.1 ∧ ∃ (x1 x2 : ℝ) (v1 v2 : Fin n → ℝ) (Z0 Zp Wp Z W : Matrix (Fin 3) (Fin n) ℝ) (k : ℕ),
          x0 ≤ x2 ∧ x2 ≤ x1 ∧ x1 + q.1 ≤ x ∧ k < g.nit.toNat ∧
          Spec.Iterate (newtonMethod consts) Q.F (jacM Q u x2 v2) x1 q.1 v1 Z0 k Zp Wp ∧
          Spec.Iterate (newtonMethod consts) Q.F (jacM Q u x2 v2) x1 q.1 v1 Z0 (k + 1) Z W ∧
          q.2.1 = ‖(fun i => Z i : Fin 3 → Fin n → ℝ)‖ ∧
          q.2.2 = newtonDefect (Rodas.dot n) nodes Q.F (jacM Q u x2 v2) x1 q.1 v1 Zp Z W) ∧
        (l.map fun q => q.1).sum = x - x0 ∧ 0 ≤ (l.map fun q => q.2.2).sum ∧
        ∀ H E : ℝ, 0 ≤ H → x ≤ b → (∀ q ∈ l, q.1 ≤ H ∧ q.2.1 + E ≤ ρ) → C * H ≤ 1 →
          Real.exp ((Λ + C * H) * (x - x0)) * (‖y0 - y x0‖ + (x - x0) * (C * H ^ 5)
            + (1 + C * H) * (l.map fun q => q.2.2).sum) ≤ E →
          ‖v - y x‖ ≤ Real.exp ((Λ + C * H) * (x - x0)) * (‖y0 - y x0‖ + (x - x0) * (C * H ^ 5)
            + (1 + C * H) * (l.map fun q => q.2.2).sum) := by
    intro x v q hp
    induction hp with
    | refl => exact ⟨[], by simp, by simp, by simp, by simp⟩
    | @step x x' x'' h hold v v' v'' p p' p'' Z W k q1 q2 q3 h0 q4 hk q5 hi _ _ _ ih _ _ =>
      obtain ⟨l, l1, l2, lp, l3⟩ := ih
      obtain ⟨k, rfl⟩ := Nat.exists_eq_add_of_le' hk
      obtain ⟨Zp, Wp, i1, i2⟩ := radau_newton_residual radauA_collocation (dot_energy n) h0 hi
      obtain ⟨δ, hδ⟩ : ∃ δ, δ = newtonDefect (Rodas.dot n) nodes Q.F (jacM Q u x' v') x h v Zp Z W := ⟨_, rfl⟩
      rw [← hδ] at i2
      have δ0 : 0 ≤ δ := (Real.sqrt_nonneg _).trans (i2 0)
      have xx := ge q1
      refine ⟨(h, ‖(fun i => Z i : Fin 3 → Fin n → ℝ)‖, δ) :: l, ?_, ?_, ?_, ?_⟩
      · intro z hz
        rcases List.mem_cons.1 hz with rfl | hz
        · exact ⟨h0, x, x', v, v', _, Zp, Wp, Z, W, k, ge q2, q3, le_rfl, by omega, i1, hi, rfl, hδ⟩
        · obtain ⟨z0, x1, x2, v1, v2, Z0', Zp', Wp', Z', W', k', g1, g2, g3, g4⟩ := l1 z hz
          exact ⟨z0, x1, x2, v1, v2, Z0', Zp', Wp', Z', W', k', g1, g2, by linarith, g4⟩
      · rw [List.map_cons, List.sum_cons, l2]; ring
      · rw [List.map_cons, List.sum_cons]; exact add_nonneg δ0 lp
      · intro H E H0 hb hl hCH hE
        rw [List.map_cons, List.sum_cons] at hE ⊢
        dsimp only at hE ⊢
        obtain ⟨hhH, hZρ⟩ := hl _ (List.mem_cons_self)
        dsimp only at hhH hZρ
        obtain ⟨κ, hκ⟩ : ∃ κ, κ = Λ + C * H := ⟨_, rfl⟩
        have κ0 : 0 ≤ κ := by rw [hκ]; positivity
        obtain ⟨S, hSd⟩ : ∃ S, S = ‖y0 - y x0‖ + (x - x0) * (C * H ^ 5) + (1 + C * H) * (l.map fun q => q.2.2).sum :=
          ⟨_, rfl⟩
        have S0 : 0 ≤ S := by
          rw [hSd]
          have := sub_nonneg.2 xx
          positivity
        have c0' : 0 ≤ h * (C * H ^ 5) + (1 + C * H) * δ := by positivity
        have hS' : ‖y0 - y x0‖ + (x + h - x0) * (C * H ^ 5) + (1 + C * H) * (δ + (l.map fun q => q.2.2).sum)
            = S + (h * (C * H ^ 5) + (1 + C * H) * δ) := by rw [hSd]; ring
        rw [hS', ← hκ] at hE ⊢
        have m1 : Real.exp (κ * (x - x0)) * S ≤ Real.exp (κ * (x + h - x0)) * (S + (h * (C * H ^ 5) + (1 + C * H) * δ)) :=
          mul_le_mul (Real.exp_le_exp.2 (mul_le_mul_of_nonneg_left (by linarith) κ0)) (by linarith) S0
            (Real.exp_pos _).le
        have l4 := l3 H E H0 (by linarith) (fun z hz => hl z (List.mem_cons_of_mem _ hz)) hCH
          (by rw [← hSd, ← hκ]; exact m1.trans hE)
        rw [← hSd, ← hκ] at l4
        have hCh : C * h ≤ C * H := mul_le_mul_of_nonneg_left hhH c0
        have st := hstep x h δ v Z xx h0.le (hCh.trans hCH) hb
          (fun i => by
            have g1 := norm_le_pi_norm (fun i => Z i : Fin 3 → Fin n → ℝ) i
            have g2 := l4.trans (m1.trans hE)
            linarith)
          (fun i => (norm_le_len _).trans (by rw [← hFe]; exact i2 i))
        refine run_growth κ0 h0.le xx l4 rfl c0' (st.trans ?_) S0
        have d0 := norm_nonneg (v - y x)
        have t1 : C * h ^ 2 * ‖v - y x‖ ≤ C * H * h * ‖v - y x‖ := by
          refine mul_le_mul_of_nonneg_right ?_ d0
          have := mul_le_mul_of_nonneg_right hCh h0.le
          linarith
        have t2 : C * h ^ 6 ≤ h * (C * H ^ 5) := by
          have := mul_le_mul_of_nonneg_left (pow_le_pow_left₀ h0.le hhH 5) (mul_nonneg c0 h0.le)
          linarith
        have t3 : (1 + C * h) * δ ≤ (1 + C * H) * δ := mul_le_mul_of_nonneg_right (by linarith) δ0
        rw [hκ]
        linarith
  obtain ⟨l, l1, l2, lp, l3⟩ := key hp
  refine ⟨x, v, l, h1, h2, l1, l2, ?_⟩
  intro H E hb hl hCH hE
  rw [hE]
  refine l3 H E ?_ hb hl hCH hE.ge
  cases l with
  | nil =>
    exfalso
    cases hp
    simp at l2
    have := ge ‹_›
    linarith
  | cons z l =>
    have := hl z (List.mem_cons_self)
    linarith [(l1 z (List.mem_cons_self)).1]

/-! ### instances -/

theorem smooth_poly (p : Fin n → MvPolynomial (Fin n) ℝ) {y : ℝ → Fin n → ℝ} {ρ : ℝ} {N : ℕ} :
    SmoothT (fun _ => polyField p) y x0 b ρ N := by
  intro t _ z x _ _
  rw [contDiffAt_pi]
  intro i
  show ContDiffAt ℝ N (fun q : ℝ × (Fin n → ℝ) => MvPolynomial.aeval q.2 (p i)) (z, x)
  induction p i using MvPolynomial.induction_on with
  | C r => simpa using contDiffAt_const
  | add p q hp hq => simpa using hp.add hq
  | mul_X p j hp =>
    simp only [map_mul, MvPolynomial.aeval_X]
    exact hp.mul (contDiffAt_pi.1 contDiffAt_snd j)

open Odes.Mem Odes.Lapack Odes.Storage

/-- C122 for E5 with the default settings (full matrix, numerical Jacobian), any LAPACK which solves the systems or fails. -/
theorem radau_e5_order {y : ℝ → Fin 4 → ℝ} (hy : SolT (fun _ => Stiff.e5) y x0 b) {Λ ρ : ℝ} (hρ : 0 < ρ) (hΛ0 : 0 ≤ Λ)
    (hΛ : LipT (fun _ => Stiff.e5) y x0 b ρ Λ) :
    ∃ C, 0 ≤ C ∧ ∀ (junk : ℤ → ℝ) (lap lapc) (_ : Rodas.SolvesR 4 (fun E i j => E.cell (ge 4 i j)) lap)
      (_ : SolvesC (4 : ℕ) (geC 4) (fun E z => (lapc E).map (· z))) (s0 : Fac 4) (tolst : X) (a r : Fin 4 → ℝ)
      (_ : ∀ i, 0 < a i) (_ : ∀ i, 0 ≤ r i) (xe : ℝ) (_ : x0 < xe) (y0 : Fin 4 → ℝ) (o : St 4 (Option (Fac 4))) (h : X)
      (s : St 4 (Option (Fac 4)))
      (_ : Returns (step (liftLin (fullLin 4 junk lap lapc) s0) (lift e5Q) ((Settings.default tolst).cfg (fins a) (fins r)))
        (call o h (.fin x0) (.fin xe) (fins y0)) s),
      ∃ (x : ℝ) (v : Fin 4 → ℝ) (l : List (ℝ × ℝ × ℝ)), s.x = .fin x ∧ s.Y = fins v ∧
        (∀ q ∈ l, 0 < q.1 ∧ ∃ (x1 x2 : ℝ) (v1 v2 : Fin 4 → ℝ) (Z0 Zp Wp Z W : Matrix (Fin 3) (Fin 4) ℝ) (k : ℕ),
          x0 ≤ x2 ∧ x2 ≤ x1 ∧ x1 + q.1 ≤ x ∧ k < 7 ∧
          Spec.Iterate (newtonMethod consts) e5Q.F (jacM e5Q 1.0e-16 x2 v2) x1 q.1 v1 Z0 k Zp Wp ∧
          Spec.Iterate (newtonMethod consts) e5Q.F (jacM e5Q 1.0e-16 x2 v2) x1 q.1 v1 Z0 (k + 1) Z W ∧
          q.2.1 = ‖(fun i => Z i : Fin 3 → Fin 4 → ℝ)‖ ∧
          q.2.2 = newtonDefect (Rodas.dot 4) nodes e5Q.F (jacM e5Q 1.0e-16 x2 v2) x1 q.1 v1 Zp Z W) ∧
        (l.map fun q => q.1).sum = x - x0 ∧
        ∀ H E : ℝ, x ≤ b → (∀ q ∈ l, q.1 ≤ H ∧ q.2.1 + E ≤ ρ) → C * H ≤ 1 →
          E = Real.exp ((Λ + C * H) * (x - x0)) * (‖y0 - y x0‖ + (x - x0) * (C * H ^ 5)
            + (1 + C * H) * (l.map fun q => q.2.2).sum) → ‖v - y x‖ ≤ E := by
  have e : Stiff.e5 = polyField Rodas.e5Poly := by
    funext v
    exact Rodas.e5Q_poly.F 0 v
  obtain ⟨C, c0, hC⟩ := radau_nonlinear_run (by norm_num) hy hρ (by rw [e]; exact smooth_poly _) hΛ0 hΛ
  refine ⟨C, c0, ?_⟩
  intro junk lap lapc hl hlc s0 tolst a r ha hr xe hx y0 o h s hs
  exact hC _ _ _ (full_linX 4 junk lap lapc s0) (full_spec (by norm_num) junk hl hlc) _ _ (lift_probX e5Q)
    (fun _ _ => rfl) _ _ _ a r (std_default tolst (fins a) (fins r)) rfl ⟨rfl, rfl, ha, hr⟩
    (fun _ _ => trivial) rfl xe hx y0 o h s hs

/-- the hypotheses are met by the run on `y' = -y` which returns at the time 1. -/
example : ∃ C : ℝ, 0 ≤ C ∧ ∃ (s : St 1 Sc) (v : Fin 1 → ℝ) (l : List (ℝ × ℝ × ℝ)),
    Returns (step scalar decay dcfg) (dcall obj) s ∧ s.x = .fin 1 ∧ s.Y = fins v ∧ (∀ q ∈ l, 0 < q.1) ∧
    (l.map fun q => q.1).sum = 1 ∧ ∀ H E : ℝ, (∀ q ∈ l, q.1 ≤ H ∧ q.2.1 + E ≤ 1) → C * H ≤ 1 →
      E = Real.exp (1 + C * H) * (C * H ^ 5 + (1 + C * H) * (l.map fun q => q.2.2).sum) →
      |v 0 - 0.001 * Real.exp (-1)| ≤ E := by
  have hy : SolT (fun _ v => -v) (fun t (_ : Fin 1) => 0.001 * Real.exp (-t)) 0 1 := by
    intro t _
    rw [hasDerivWithinAt_pi]
    intro i
    have h := ((hasDerivAt_neg t).exp).const_mul (0.001 : ℝ)
    have e : -(0.001 * Real.exp (-t)) = 0.001 * (Real.exp (-t) * -1) := by ring
    exact (e ▸ h).hasDerivWithinAt
  have hF : SmoothT (fun _ v => -v) (fun t (_ : Fin 1) => 0.001 * Real.exp (-t)) 0 1 1 5 := fun _ _ _ _ _ _ =>
    contDiffAt_snd.neg
  have hΛ : LipT (fun _ v => -v) (fun t (_ : Fin 1) => 0.001 * Real.exp (-t)) 0 1 1 1 := by
    intro _ _ _ _ _ u v _ _
    have : -u - -v = -(u - v) := by abel
    rw [this, norm_neg, one_mul]
  obtain ⟨C, c0, hC⟩ := radau_nonlinear_run one_pos hy one_pos hF zero_le_one hΛ
  obtain ⟨s, hs, hx, -⟩ := decay_run (o := obj) rfl
  obtain ⟨x, v, l, h1, h2, h3, h4, h5⟩ := hC _ _ _ scalar_linX scalar_spec _ _ decay_probX (fun _ _ => rfl) _ _ _
    (fun _ => 0.1) (fun _ => 0.1) (wcfg_std 7 false (by decide)) rfl
    ⟨funext fun _ => X.ofSci_eq _ _ _, funext fun _ => X.ofSci_eq _ _ _, fun _ => by norm_num,
      fun _ => by norm_num⟩ (fun _ _ => trivial) rfl 1 one_pos (fun _ => 0.001) obj (.fin 1) s hs
  obtain rfl : x = 1 := by rw [hx] at h1; injection h1 with h1; exact h1.symm
  refine ⟨C, c0, s, v, l, hs, hx, h2, fun q hq => (h3 q hq).1, by rw [h4, sub_zero], ?_⟩
  intro H E q1 q2 q3
  refine (norm_le_pi_norm (v - fun _ => 0.001 * Real.exp (-1)) 0).trans (h5 H E le_rfl q1 q2 ?_)
  rw [q3]
  have e : (fun _ : Fin 1 => (0.001 : ℝ)) - (fun _ => 0.001 * Real.exp (-0)) = 0 := by
    funext i
    simp
  rw [e, norm_zero, sub_zero, mul_one, one_mul, zero_add]

end

end Odes.Radau
