import Verif.Model.Rock4LMain
import Verif.Spec.Rock4LMain
import Verif.Props.Rock4LTest
import Verif.Props.Rock4Stab
import Verif.Lemmas.AmpPoly

/-!
# Rock4-L/test/main.cpp: the operator, its spectrum, and the 30 step sizes
-/

namespace Odes.Rock4L.Main

open Matrix Finset Test
open Spec.Rock4LMain (wt)

theorem mesh_pos (m : ℕ) : 0 < mesh ℝ m := by
  unfold mesh
  apply one_div_pos.2
  push_cast
  have : (0 : ℝ) ≤ m := Nat.cast_nonneg m
  linarith

/-- the operator of the program meets the contract of the linear solver, with its tables. -/
theorem operX_ok (aff : Bool) (m : ℕ) : Ok aff (operX m) tab (lap ℝ m) shipped := by
  have hm : mesh ℝ m * mesh ℝ m ≠ 0 := (mul_pos (mesh_pos m) (mesh_pos m)).ne'
  obtain ⟨hl, ha⟩ := rock4l_test_contract (K := ℝ) m
  refine ⟨fun _ => rfl, fun _ _ => rfl, fun _ _ => rfl, fun v s a b => ?_, fun _ v s a b c => ?_,
    fun _ v s a b g => ?_, fun _ v s a b c g => ?_⟩
  · rw [← hl.op5]
    funext i
    simp only [operX, oper, up, X.fin_mul, X.fin_add, X.fin_sub, X.fin_div _ _ hm]
    split_ifs <;> rfl
  · rw [← hl.op7]
    funext i
    simp only [operX, oper, up, X.fin_mul, X.fin_add, X.fin_sub, X.fin_div _ _ hm]
    split_ifs <;> rfl
  · rw [← ha.op6]
    funext i
    simp only [operX, oper, up, X.fin_mul, X.fin_add, X.fin_sub, X.fin_div _ _ hm]
    split_ifs <;> rfl
  · rw [← ha.op8]
    funext i
    simp only [operX, oper, up, X.fin_mul, X.fin_add, X.fin_sub, X.fin_div _ _ hm]
    split_ifs <;> rfl

theorem parts (u G : ℕ → ℝ) (n : ℕ) : ∑ i ∈ range (n + 1), u i * (G (i + 1) - G i)
    = u n * G (n + 1) - u 0 * G 0 - ∑ i ∈ range n, (u (i + 1) - u i) * G (i + 1) := by
  induction n with
  | zero => simp; ring
  | succ n ih => rw [sum_range_succ, ih, sum_range_succ]; ring

/-- a vector as a sequence. -/
def ext {m : ℕ} (v : Fin (m + 2) → ℝ) (k : ℕ) : ℝ := if h : k < m + 2 then v ⟨k, h⟩ else 0

/-- differences, zero at both ends. -/
def dif {m : ℕ} (v : Fin (m + 2) → ℝ) : ℕ → ℝ
  | 0 => 0
  | k + 1 => if k < m + 1 then ext v (k + 1) - ext v k else 0

theorem wt_lap {m : ℕ} (v : Fin (m + 2) → ℝ) (i : Fin (m + 2)) :
    wt m i * (lap ℝ m *ᵥ v) i = (mesh ℝ m * mesh ℝ m)⁻¹ * (dif v (i.1 + 1) - dif v i.1) := by
  rw [lap_mulVec]
  have e : ∀ (k : ℕ) (h : k < m + 2), ext v k = v ⟨k, h⟩ := fun k h => dif_pos h
  have one_ne : (1 : Fin (m + 2)) = ⟨1, by omega⟩ := Fin.ext (by simp)
  have zero_ne : (0 : Fin (m + 2)) = ⟨0, by omega⟩ := rfl
  obtain ⟨k, hk⟩ := i
  unfold wt
  simp only
  split_ifs with h0 h1 h2
  · subst h1
    simp only [dif, zero_add, if_pos (Nat.succ_pos m)]
    rw [e 0 (by omega), e 1 (by omega), one_ne, zero_ne]
    ring
  · subst h2
    simp only [dif, lt_irrefl, if_false]
    rw [if_pos (by omega), e (m + 1) (by omega), e m (by omega)]
    ring
  · omega
  · omega
  · omega
  · obtain ⟨j, rfl⟩ : ∃ j, k = j + 1 := ⟨k - 1, by omega⟩
    have hjm : j + 1 ≠ m + 1 := (not_or.1 h0).2
    simp only [dif]
    have hl : lft (⟨j + 1, hk⟩ : Fin (m + 2)) = ⟨j, by omega⟩ := Fin.ext rfl
    have hr : rgt (⟨j + 1, hk⟩ : Fin (m + 2)) = ⟨j + 1 + 1, by omega⟩ :=
      Fin.ext (Nat.min_eq_left (show j + 1 + 1 ≤ m + 1 by omega))
    rw [if_pos (by omega), if_pos (by omega), hl, hr, e (j + 1 + 1) (by omega), e (j + 1) (by omega),
      e j (by omega)]
    ring

theorem sum_ext {m : ℕ} (f : ℕ → ℝ) : ∑ i : Fin (m + 2), f i.1 = ∑ k ∈ range (m + 2), f k :=
  Fin.sum_univ_eq_sum_range f (m + 2)

/-- the quadratic form of the Laplacian. -/
theorem lap_form {m : ℕ} (v : Fin (m + 2) → ℝ) : ∑ i, wt m i * v i * (lap ℝ m *ᵥ v) i
    = -((mesh ℝ m * mesh ℝ m)⁻¹ * ∑ k ∈ range (m + 1), (ext v (k + 1) - ext v k) ^ 2) := by
  have h1 : ∀ i : Fin (m + 2), wt m i * v i * (lap ℝ m *ᵥ v) i
      = (mesh ℝ m * mesh ℝ m)⁻¹ * (ext v i.1 * (dif v (i.1 + 1) - dif v i.1)) := by
    intro i
    have e : ext v i.1 = v i := dif_pos i.2
    rw [mul_right_comm, wt_lap, e]
    ring
  rw [sum_congr rfl fun i _ => h1 i, ← mul_sum,
    sum_ext (fun k => ext v k * (dif v (k + 1) - dif v k)), parts, ← mul_neg]
  congr 1
  have h2 : dif v (m + 1 + 1) = 0 := by simp [dif]
  have h3 : dif v 0 = 0 := rfl
  rw [h2, h3, mul_zero, mul_zero, sub_zero, zero_sub]
  congr 1
  refine sum_congr rfl fun k hk => ?_
  rw [dif, if_pos (mem_range.1 hk)]
  ring

theorem wt_norm {m : ℕ} (v : Fin (m + 2) → ℝ) : ∑ k ∈ range (m + 1), (ext v (k + 1) ^ 2 + ext v k ^ 2)
    = 2 * ∑ i, wt m i * v i ^ 2 := by
  have h1 : ∀ i : Fin (m + 2), wt m i * v i ^ 2
      = (fun k : ℕ => (if k = 0 ∨ k = m + 1 then 1 / 2 else 1) * ext v k ^ 2) i.1 := by
    intro i
    have e : ext v i.1 = v i := dif_pos i.2
    simp only [e]
    rfl
  rw [sum_congr rfl fun i _ => h1 i,
    sum_ext (fun k : ℕ => (if k = 0 ∨ k = m + 1 then (1 / 2 : ℝ) else 1) * ext v k ^ 2),
    sum_range_succ (fun k : ℕ => (if k = 0 ∨ k = m + 1 then (1 / 2 : ℝ) else 1) * ext v k ^ 2),
    sum_range_succ' (fun k : ℕ => (if k = 0 ∨ k = m + 1 then (1 / 2 : ℝ) else 1) * ext v k ^ 2),
    sum_add_distrib, sum_range_succ (fun k => ext v (k + 1) ^ 2),
    sum_range_succ' (fun k => ext v k ^ 2)]
  have h2 : ∑ k ∈ range m, (if k + 1 = 0 ∨ k + 1 = m + 1 then (1 / 2 : ℝ) else 1) * ext v (k + 1) ^ 2
      = ∑ k ∈ range m, ext v (k + 1) ^ 2 := by
    refine sum_congr rfl fun k hk => ?_
    have := mem_range.1 hk
    rw [if_neg (by omega), one_mul]
  rw [h2]
  simp
  ring

/-- the Neumann Laplacian is symmetric for these weights, with its spectrum in `[-4/h^2, 0]`. -/
theorem lap_spec (m : ℕ) : SymSpec (wt m) (lap ℝ m) (4 / (mesh ℝ m * mesh ℝ m)) := by
  have hm := mul_pos (mesh_pos m) (mesh_pos m)
  refine ⟨fun i => ?_, fun i j => ?_, fun v => ?_, fun v => ?_⟩
  · unfold wt
    split_ifs <;> norm_num
  · unfold wt lap
    have hi := i.2
    have hj := j.2
    by_cases hij : j = i
    · rw [hij]
    · have hij' : ¬ i = j := fun h => hij h.symm
      have hv : j.1 ≠ i.1 := fun h => hij (Fin.ext h)
      rw [if_neg hij, if_neg hij']
      by_cases hn : i.1 + 1 = j.1 ∨ j.1 + 1 = i.1
      · rw [if_pos hn, if_pos (Or.comm.1 hn)]
        split_ifs <;> ring
      · rw [if_neg hn, if_neg (fun h => hn (Or.comm.1 h))]
        ring
  · rw [lap_form]
    have : 0 ≤ ∑ k ∈ range (m + 1), (ext v (k + 1) - ext v k) ^ 2 := sum_nonneg fun _ _ => sq_nonneg _
    have := mul_nonneg (inv_pos.2 hm).le this
    linarith
  · rw [lap_form]
    have h1 : ∑ k ∈ range (m + 1), (ext v (k + 1) - ext v k) ^ 2
        ≤ ∑ k ∈ range (m + 1), 2 * (ext v (k + 1) ^ 2 + ext v k ^ 2) :=
      sum_le_sum fun k _ => by nlinarith [sq_nonneg (ext v (k + 1) + ext v k)]
    rw [← mul_sum, wt_norm] at h1
    have := mul_le_mul_of_nonneg_left h1 (inv_pos.2 hm).le
    rw [neg_le_neg_iff, div_mul_eq_mul_div, div_eq_inv_mul]
    refine this.trans (le_of_eq ?_)
    ring

/-- the mean value is an invariant of the problem. -/
theorem lap_mean {m : ℕ} (v : Fin (m + 2) → ℝ) : ∑ i, wt m i * (lap ℝ m *ᵥ v) i = 0 := by
  rw [sum_congr rfl fun i _ => wt_lap v i, ← mul_sum,
    sum_ext (fun k => dif v (k + 1) - dif v k), sum_range_sub]
  simp [dif]

theorem step_mean {m : ℕ} (R : Spec.Gen.Formula ℝ) (h : ℝ) (y : Fin (m + 2) → ℝ) :
    ∑ i, wt m i * Spec.Gen.step R (fun v => lap ℝ m *ᵥ v) h y i = ∑ i, wt m i * y i := by
  let φ : (Fin (m + 2) → ℝ) →ₗ[ℝ] ℝ :=
    { toFun := fun v => ∑ i, wt m i * v i
      map_add' := fun u v => by rw [← sum_add_distrib]; exact sum_congr rfl fun i _ => mul_add _ _ _
      map_smul' := fun c v => by
        rw [RingHom.id_apply, smul_eq_mul, mul_sum]
        exact sum_congr rfl fun i _ => by rw [Pi.smul_apply, smul_eq_mul]; ring }
  have hφ : ∀ v, φ (lap ℝ m *ᵥ v) = 0 * φ v := fun v => by rw [zero_mul]; exact lap_mean v
  have := step_left R (lap ℝ m) φ hφ h y
  rw [mul_zero, amp_psi, zero_mul, add_zero, one_mul] at this
  exact this

/-! ### the step sizes -/

/-- full steps, stages needed and degree for them, the same for the last step. -/
def rows : List (ℕ × ℕ × ℕ × ℕ × ℕ) :=
  [(2, 150, 148, 106, 105), (3, 134, 138, 48, 44), (3, 120, 120, 114, 112), (4, 107, 105, 101, 98), (6, 96, 92, 31, 28),
   (7, 86, 86, 68, 67), (9, 77, 76, 56, 53), (11, 69, 67, 66, 63), (14, 62, 59, 59, 56), (18, 55, 53, 44, 41),
   (23, 49, 47, 27, 24), (29, 44, 41, 15, 11), (36, 40, 36, 25, 22), (45, 36, 32, 25, 22), (56, 32, 28, 29, 26),
   (71, 29, 26, 8, 4), (88, 26, 22, 23, 19), (111, 23, 19, 5, 1), (138, 21, 17, 18, 14), (173, 19, 15, 13, 9),
   (216, 17, 13, 15, 11), (271, 15, 11, 5, 1), (338, 14, 10, 12, 8), (423, 12, 8, 9, 5), (529, 11, 7, 8, 4),
   (661, 10, 6, 9, 5), (827, 9, 5, 5, 1), (1033, 8, 4, 8, 4), (1292, 8, 4, 6, 2), (1615, 7, 3, 6, 2)]

/-- the integer inequalities for a step `a/b`: `k` stages are needed, whether the spectral radius is
39194 or 39204, and `d` is the smallest sufficient degree. -/
def okStep (a b k d : ℕ) : Bool :=
  decide (1 ≤ k ∧ 353 * (k - 1) ^ 2 * b ≤ 3000 * b + 39194000 * a ∧
    3000 * b + 39204000 * a < 353 * k ^ 2 * b ∧ (d : ℤ) ∈ Rock4.MS ∧ k ≤ d + 4 ∧
    k ≤ 152) && Rock4.MS.all fun e => decide ((k : ℤ) ≤ e + 4 → (d : ℤ) ≤ e)

/-- the inequalities for the pass `l`: the step is `4^l / 5^(l+1)`. -/
def okRow (l : ℕ) (r : ℕ × ℕ × ℕ × ℕ × ℕ) : Bool :=
  decide ((100 * r.1 + 1) * (2 * 4 ^ l) < 100 * 5 ^ (l + 1) ∧
    100 * 5 ^ (l + 1) ≤ (100 * r.1 + 101) * (2 * 4 ^ l) ∧ 2 * r.1 * 4 ^ l < 5 ^ (l + 1)) &&
  okStep (4 ^ l) (5 ^ (l + 1)) r.2.1 r.2.2.1 &&
  okStep (5 ^ (l + 1) - 2 * r.1 * 4 ^ l) (2 * 5 ^ (l + 1)) r.2.2.2.1 r.2.2.2.2

theorem rows_ok : ∀ l : Fin 30, okRow l (rows.getD l (0, 0, 0, 0, 0)) = true := by decide +kernel

theorem printed_ok : ∀ l : Fin 30, Spec.Rock4LMain.printed.getD l (0, 0)
    = ((rows.getD l (0, 0, 0, 0, 0)).1 + 1,
      max ((rows.getD l (0, 0, 0, 0, 0)).2.2.1 : ℤ) ((rows.getD l (0, 0, 0, 0, 0)).2.2.2.2 : ℤ) + 4) := by
  decide +kernel

theorem dt_eq (l : ℕ) : dt l = (4 ^ l : ℕ) / (5 ^ (l + 1) : ℕ) := by
  induction l with
  | zero => unfold dt tinteg; norm_num
  | succ l ih =>
    rw [dt, ih]
    push_cast
    rw [pow_succ 4 l, pow_succ 5 (l + 1)]
    field_simp
    ring

end Odes.Rock4L.Main
