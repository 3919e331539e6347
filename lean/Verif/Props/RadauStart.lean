import Verif.Model.Radau
import Verif.Lemmas.RadauScalar
import Verif.Props.RadauConsts
import Mathlib.Tactic.LinearCombination

/-! C78: the polynomial kept after an accepted step and the starting values extrapolated from it
(Radau5cc.hpp 514-527, 613-624). -/

namespace Odes.Radau

variable {n : ℕ}

theorem c1_pos : 0 < consts.C1 ∧ consts.C1 < consts.C2 ∧ consts.C2 < 1 := by
  obtain ⟨h1, h2⟩ := sqrt6
  refine ⟨?_, ?_, ?_⟩
  · show 0 < (4 - Real.sqrt 6) / 10
    linarith
  · show (4 - Real.sqrt 6) / 10 < (4 + Real.sqrt 6) / 10
    linarith
  · show (4 + Real.sqrt 6) / 10 < 1
    linarith

/-- the full property: the starting values are those of the cubic polynomial which interpolates the
accepted step.  With `u(t) = a t + b t² + d t³`, `t` = distance from the beginning of the step in
units of the step size, and stage increments `Zᵢ = u(cᵢ)`, the starting values of a step of size `h`
are `u(1 + cᵢ h/hold) - u(1)`. -/
def Extrapolates (save : Tri ℝ n → Tri ℝ n) : Prop :=
  ∀ (a b d : Fin n → ℝ) (h hold : ℝ), hold ≠ 0 → ∀ u : ℝ → Fin n → ℝ,
    (∀ t i, u t i = a i * t + b i * t ^ 2 + d i * t ^ 3) →
    extrapolate consts h hold (save ⟨u consts.C1, u consts.C2, u 1⟩)
      = ⟨fun i => u (1 + consts.C1 * (h / hold)) i - u 1 i,
         fun i => u (1 + consts.C2 * (h / hold)) i - u 1 i,
         fun i => u (1 + h / hold) i - u 1 i⟩

/-- what the code does: the polynomial takes the right values at the three stages of the step, and at
its beginning it is off by `-Z1/(C1-1)`. -/
theorem radau_interp_partial (Z : Tri ℝ n) (i : Fin n) :
    interp consts 0 (saves consts Z) i = 0 ∧
    interp consts (consts.C1 - 1) (saves consts Z) i = Z.v1 i - Z.v3 i ∧
    interp consts (consts.C2 - 1) (saves consts Z) i = Z.v2 i - Z.v3 i ∧
    interp consts (-1) (saves consts Z) i = - Z.v3 i - Z.v1 i / (consts.C1 - 1) := by
  obtain ⟨h1, h2, h3⟩ := c1_pos
  have e1 : consts.C1M1 = consts.C1 - 1 := rfl
  have e2 : consts.C2M1 = consts.C2 - 1 := rfl
  have e3 : consts.C1MC2 = consts.C1 - consts.C2 := rfl
  have n1 : consts.C1 - 1 ≠ 0 := by intro h; linarith
  have n2 : consts.C2 - 1 ≠ 0 := by intro h; linarith
  have n3 : consts.C1 - consts.C2 ≠ 0 := by intro h; linarith
  have n4 : consts.C2 ≠ 0 := by intro h; linarith
  unfold interp saves
  dsimp only
  rw [e1, e2, e3]
  generalize consts.C1 = c1 at *
  generalize consts.C2 = c2 at *
  refine ⟨by ring, ?_, ?_, ?_⟩
  · field_simp
    ring
  · field_simp
    ring
  · field_simp
    ring

/-- the code violates the property already for solutions with constant slope. -/
theorem radau_extrapolation_wrong [NeZero n] : ¬ Extrapolates (n := n) (saves consts) := by
  intro H
  have k := H (fun _ => 1) (fun _ => 0) (fun _ => 0) 1 1 one_ne_zero (fun t _ => t)
    (fun t i => by ring)
  have k3 := congrFun (congrArg Tri.v3 k) ⟨0, Nat.pos_of_ne_zero (NeZero.ne n)⟩
  obtain ⟨h1, h2, h3⟩ := c1_pos
  have e1 : consts.C1M1 = consts.C1 - 1 := rfl
  have e2 : consts.C2M1 = consts.C2 - 1 := rfl
  have e3 : consts.C1MC2 = consts.C1 - consts.C2 := rfl
  have n1 : consts.C1 - 1 ≠ 0 := by intro h; linarith
  have n2 : consts.C2 - 1 ≠ 0 := by intro h; linarith
  have n3 : consts.C1 - consts.C2 ≠ 0 := by intro h; linarith
  have n4 : consts.C2 ≠ 0 := by intro h; linarith
  unfold extrapolate interp saves at k3
  dsimp only at k3
  rw [e1, e2, e3] at k3
  generalize consts.C1 = c1 at *
  generalize consts.C2 = c2 at *
  field_simp at k3
  have : (2 - c1) * (2 - c2) = 0 := by
    have : (2 - c1) * (2 - c2) * (c1 - c2) = 0 := by linear_combination k3
    exact (mul_eq_zero.1 this).resolve_right n3
  nlinarith

/-- with `1/C1` in place of `1/C1M1` in the definition of `aaa` (Radau5cc.hpp 621) it would hold. -/
theorem radau_extrapolation_repaired : Extrapolates (n := n) fun Z =>
    { saves consts Z with
      v3 := fun i => (saves consts Z).v2 i - (1 / consts.C1MC2 - 1 / consts.C1) * (1 / consts.C2) * Z.v1 i
        + 1 / consts.C1MC2 * (1 / consts.C2) * Z.v2 i } := by
  intro a b d h hold hh u hu
  obtain ⟨h1, h2, h3⟩ := c1_pos
  have e1 : consts.C1M1 = consts.C1 - 1 := rfl
  have e2 : consts.C2M1 = consts.C2 - 1 := rfl
  have e3 : consts.C1MC2 = consts.C1 - consts.C2 := rfl
  have n1 : consts.C1 - 1 ≠ 0 := by intro h; linarith
  have n2 : consts.C2 - 1 ≠ 0 := by intro h; linarith
  have n3 : consts.C1 - consts.C2 ≠ 0 := by intro h; linarith
  have n4 : consts.C2 ≠ 0 := by intro h; linarith
  have n5 : consts.C1 ≠ 0 := by intro h; linarith
  unfold extrapolate interp saves
  dsimp only
  rw [e1, e2, e3]
  generalize consts.C1 = c1 at *
  generalize consts.C2 = c2 at *
  generalize h / hold = q
  congr 1 <;> funext i <;> simp only [hu] <;> field_simp <;> ring

end Odes.Radau
