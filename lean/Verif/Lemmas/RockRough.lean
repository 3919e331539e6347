import Verif.Props.Rock4Err
import Mathlib.Algebra.Order.Ring.Abs
import Mathlib.Analysis.Complex.ExponentialBounds

/-!
# Powers of the amplification factor against the exponential
-/

namespace Odes

/-- `u e^(1-u) ≤ 1`. -/
theorem mul_exp_le (u : ℝ) : u * Real.exp (-u) ≤ Real.exp (-1) := by
  have h := Real.add_one_le_exp (u - 1)
  have e : Real.exp (-1) = Real.exp (u - 1) * Real.exp (-u) := by rw [← Real.exp_add]; congr 1; ring
  rw [e]
  exact mul_le_mul_of_nonneg_right (by linarith) (Real.exp_pos _).le

theorem exp_neg_one_le : Real.exp (-1) ≤ 0.368 := by
  have := Real.exp_neg_one_lt_d9
  linarith

/-- `x e^(-c x)` -/
theorem lin_exp_le {c : ℝ} (hc : 0 < c) (x : ℝ) : x * Real.exp (-(c * x)) ≤ 0.368 / c := by
  rw [le_div_iff₀ hc]
  have := (mul_exp_le (c * x)).trans exp_neg_one_le
  linarith

/-- `x^5 e^(-c x)` -/
theorem quint_exp_le {c x : ℝ} (hc : 0 < c) (hx : 0 ≤ x) :
    x ^ 5 * Real.exp (-(c * x)) ≤ 21.1 / c ^ 5 := by
  rw [le_div_iff₀ (by positivity)]
  have h1 := mul_exp_le (c * x / 5)
  have h0 : 0 ≤ c * x / 5 * Real.exp (-(c * x / 5)) := by positivity
  have h2 := pow_le_pow_left₀ h0 (h1.trans exp_neg_one_le) 5
  rw [mul_pow, ← Real.exp_nat_mul] at h2
  have e : ((5 : ℕ) : ℝ) * (-(c * x / 5)) = -(c * x) := by push_cast; ring
  rw [e] at h2
  have e2 : x ^ 5 * Real.exp (-(c * x)) * c ^ 5 = 3125 * ((c * x / 5) ^ 5 * Real.exp (-(c * x))) := by ring
  rw [e2]
  refine (mul_le_mul_of_nonneg_left h2 (by norm_num)).trans ?_
  norm_num

/-- what C103 says of one step, at `z = -x`. -/
def NearAt (p x : ℝ) : Prop := |p - Real.exp (-x)| ≤ x ^ 5 / 50 + 1e-14 * (x + x ^ 2 + x ^ 3 + x ^ 4)

theorem NearAt.le {p x : ℝ} (h : NearAt p x) (h0 : 0 ≤ x) (h1 : x ≤ 1) :
    |p - Real.exp (-x)| ≤ x ^ 5 / 50 + 4e-14 * x := by
  refine h.trans ?_
  have e2 : x ^ 2 ≤ x := by nlinarith
  have e3 : x ^ 3 ≤ x := by nlinarith
  have e4 : x ^ 4 ≤ x := by nlinarith
  linarith

theorem NearAt.abs_le {p x : ℝ} (h : NearAt p x) (h0 : 0 ≤ x) (h1 : x ≤ 1) :
    |p| ≤ Real.exp (-(0.9 * x)) := by
  have h2 := h.le h0 h1
  have h3 : |p| ≤ Real.exp (-x) + (x ^ 5 / 50 + 4e-14 * x) := by
    have := abs_sub_abs_le_abs_sub p (Real.exp (-x))
    rw [abs_of_pos (Real.exp_pos (-x))] at this
    linarith
  refine h3.trans ?_
  have e : Real.exp (-(0.9 * x)) = Real.exp (-x) * Real.exp (0.1 * x) := by
    rw [← Real.exp_add]; congr 1; ring
  have h4 := Real.add_one_le_exp (0.1 * x)
  have h5 : (0.36 : ℝ) ≤ Real.exp (-x) := by
    have := Real.exp_neg_one_gt_d9
    have h6 : Real.exp (-1) ≤ Real.exp (-x) := Real.exp_le_exp.2 (by linarith)
    linarith
  have h6 := mul_le_mul_of_nonneg_left h4 (Real.exp_pos (-x)).le
  have h7 : 0.36 * (0.1 * x) ≤ Real.exp (-x) * (0.1 * x) :=
    mul_le_mul_of_nonneg_right h5 (by positivity)
  have e5 : x ^ 5 ≤ x := by
    have : x ^ 4 ≤ 1 := pow_le_one₀ h0 h1
    nlinarith
  rw [e]
  linarith

/-- the slow components. -/
theorem NearAt.pow {p x : ℝ} (h : NearAt p x) (h0 : 0 ≤ x) (h1 : x ≤ 1) {N : ℕ} (hN : 1 ≤ N) :
    |p ^ N - Real.exp (-(N * x))| ≤ 1.8 / N ^ 4 + 5e-14 := by
  have hN' : (0 : ℝ) < N := by exact_mod_cast hN
  have hp := h.abs_le h0 h1
  have hd := h.le h0 h1
  have hq : |Real.exp (-x)| ≤ Real.exp (-(0.9 * x)) := by
    rw [abs_of_pos (Real.exp_pos _)]
    exact Real.exp_le_exp.2 (by linarith)
  have e1 : Real.exp (-(N * x)) = Real.exp (-x) ^ N := by
    rw [← Real.exp_nat_mul]; congr 1; ring
  rw [e1]
  refine (abs_pow_sub_pow_le p (Real.exp (-x)) N).trans ?_
  have h2 : max |p| |Real.exp (-x)| ^ (N - 1) ≤ 2.461 * Real.exp (-(0.9 * N * x)) := by
    refine (pow_le_pow_left₀ (le_max_of_le_left (abs_nonneg _)) (max_le hp hq) (N - 1)).trans ?_
    rw [← Real.exp_nat_mul, Nat.cast_sub hN]
    have e2 : ((N : ℝ) - (1 : ℕ)) * -(0.9 * x) = 0.9 * x + -(0.9 * N * x) := by push_cast; ring
    rw [e2, Real.exp_add]
    refine mul_le_mul_of_nonneg_right ?_ (Real.exp_pos _).le
    have h3 : Real.exp (0.9 * x) ≤ Real.exp 0.9 := Real.exp_le_exp.2 (by linarith)
    refine h3.trans ?_
    have h4 : Real.exp 0.9 = Real.exp 1 * Real.exp (-0.1) := by
      rw [← Real.exp_add]; norm_num
    have h5 : Real.exp (-0.1) ≤ 0.905 := by
      have := Real.exp_bound' (x := (0.1 : ℝ)) (by norm_num) (by norm_num) (n := 3) (by norm_num)
      have h6 := Real.add_one_le_exp (0.1 : ℝ)
      have h7 : Real.exp (-0.1) * Real.exp 0.1 = 1 := by
        rw [← Real.exp_add]; norm_num
      have h8 : (1.105 : ℝ) ≤ Real.exp 0.1 := by
        have := Real.quadratic_le_exp_of_nonneg (x := (0.1 : ℝ)) (by norm_num)
        norm_num at this ⊢
        linarith
      nlinarith [Real.exp_pos (-0.1)]
    have h6 := Real.exp_one_lt_d9
    rw [h4]
    nlinarith [Real.exp_pos (-0.1), Real.exp_pos 1]
  have hc : (0 : ℝ) < 0.9 * N := by positivity
  have h5 := quint_exp_le hc h0
  have h6 := lin_exp_le hc x
  set E := Real.exp (-(0.9 * N * x)) with hE
  have hE0 : 0 < E := Real.exp_pos _
  calc |p - Real.exp (-x)| * N * max |p| |Real.exp (-x)| ^ (N - 1)
      ≤ (x ^ 5 / 50 + 4e-14 * x) * N * (2.461 * E) := by gcongr
    _ = N * 2.461 * (x ^ 5 * E / 50 + 4e-14 * (x * E)) := by ring
    _ ≤ N * 2.461 * (21.1 / (0.9 * N) ^ 5 / 50 + 4e-14 * (0.368 / (0.9 * N))) := by gcongr
    _ = 2.461 * 21.1 / 50 / 0.9 ^ 5 / N ^ 4 + 2.461 * 4e-14 * 0.368 / 0.9 := by
        field_simp
    _ ≤ 1.8 / N ^ 4 + 5e-14 := by
        have : (2.461 * 21.1 / 50 / 0.9 ^ 5 : ℝ) ≤ 1.8 := by norm_num
        have h7 : (2.461 * 21.1 / 50 / 0.9 ^ 5 : ℝ) / N ^ 4 ≤ 1.8 / N ^ 4 := by gcongr
        have h8 : (2.461 * 4e-14 * 0.368 / 0.9 : ℝ) ≤ 5e-14 := by norm_num
        linarith

/-- the fast components. -/
theorem damped_pow {p x : ℝ} (h : |p| ≤ 0.97) (h1 : 1 < x) (N : ℕ) :
    |p ^ N - Real.exp (-(N * x))| ≤ 2 * 0.97 ^ N := by
  have e1 : Real.exp (-(N * x)) = Real.exp (-x) ^ N := by
    rw [← Real.exp_nat_mul]; congr 1; ring
  have h2 : Real.exp (-x) ≤ 0.97 := by
    have h6 : Real.exp (-x) ≤ Real.exp (-1) := Real.exp_le_exp.2 (by linarith)
    linarith [exp_neg_one_le]
  have h3 := pow_le_pow_left₀ (abs_nonneg p) h N
  have h4 := pow_le_pow_left₀ (Real.exp_pos (-x)).le h2 N
  rw [e1]
  refine (abs_sub _ _).trans ?_
  rw [abs_pow, abs_pow, abs_of_pos (Real.exp_pos (-x))]
  linarith

/-- the last step, after `N` steps not longer than `1/1.01` of it. -/
theorem last_err {p x u : ℝ} (h : NearAt p u) (hp : |p| ≤ 1) (h0 : 0 ≤ u) (hu : u ≤ 1.01 * x) {N : ℕ}
    (hN : 1 ≤ N) :
    Real.exp (-(N * x)) * |p - Real.exp (-u)| ≤ 0.45 / N ^ 4 + 2 * 0.97 ^ N + 2e-14 := by
  have hN' : (1 : ℝ) ≤ N := by exact_mod_cast hN
  have hx : u / 1.01 ≤ x := by rw [div_le_iff₀ (by norm_num)]; linarith
  have hE : Real.exp (-(N * x)) ≤ Real.exp (-(N / 1.01 * u)) := by
    refine Real.exp_le_exp.2 (neg_le_neg ?_)
    have e : (N : ℝ) / 1.01 * u = N * (u / 1.01) := by ring
    rw [e]
    gcongr
  have p97 : (0 : ℝ) < 0.97 ^ N := by positivity
  have pN : (0 : ℝ) < 0.45 / N ^ 4 := by positivity
  rcases le_or_gt u 1 with h1 | h1
  · have hd := h.le h0 h1
    have hc : (0 : ℝ) < N / 1.01 := by positivity
    have h5 := quint_exp_le hc h0
    have h6 := lin_exp_le hc u
    set E := Real.exp (-(N / 1.01 * u)) with hEd
    have hE0 : 0 < E := Real.exp_pos _
    have : Real.exp (-(N * x)) * |p - Real.exp (-u)| ≤ 0.45 / N ^ 4 + 2e-14 := by
      calc Real.exp (-(N * x)) * |p - Real.exp (-u)| ≤ E * (u ^ 5 / 50 + 4e-14 * u) := by gcongr
        _ = u ^ 5 * E / 50 + 4e-14 * (u * E) := by ring
        _ ≤ 21.1 / (N / 1.01) ^ 5 / 50 + 4e-14 * (0.368 / (N / 1.01)) := by gcongr
        _ = 21.1 * 1.01 ^ 5 / 50 / N ^ 4 / N + 4e-14 * 0.368 * 1.01 / N := by field_simp
        _ ≤ 0.45 / N ^ 4 + 2e-14 := by
          have a1 : (21.1 * 1.01 ^ 5 / 50 : ℝ) ≤ 0.45 := by norm_num
          have a2 : (21.1 * 1.01 ^ 5 / 50 : ℝ) / N ^ 4 / N ≤ 0.45 / N ^ 4 / 1 := by gcongr
          have a3 : (4e-14 * 0.368 * 1.01 : ℝ) / N ≤ 4e-14 * 0.368 * 1.01 / 1 := by gcongr
          have a4 : (4e-14 * 0.368 * 1.01 : ℝ) ≤ 2e-14 := by norm_num
          rw [div_one] at a2 a3
          linarith
    linarith
  · have h2 : |p - Real.exp (-u)| ≤ 2 := by
      refine (abs_sub _ _).trans ?_
      rw [abs_of_pos (Real.exp_pos _)]
      have : Real.exp (-u) ≤ 1 := Real.exp_le_one_iff.2 (by linarith)
      linarith
    have h3 : Real.exp (-(N * x)) ≤ 0.97 ^ N := by
      have e1 : Real.exp (-(N * x)) = Real.exp (-x) ^ N := by
        rw [← Real.exp_nat_mul]; congr 1; ring
      rw [e1]
      refine pow_le_pow_left₀ (Real.exp_pos _).le ?_ N
      have hx1 : (0.9 : ℝ) ≤ x := by nlinarith
      have := lin_exp_le (c := 1) one_pos x
      rw [one_mul, div_one] at this
      nlinarith [Real.exp_pos (-x)]
    have := mul_le_mul h3 h2 (abs_nonneg _) p97.le
    linarith

/-- `N` steps and a last one. -/
theorem rough_mode {p p' x u : ℝ} (h : NearAt p x) (hx : 0 ≤ x) (hq : 1 < x → |p| ≤ 0.97)
    (h' : NearAt p' u) (hu0 : 0 ≤ u) (hp' : |p'| ≤ 1) (hu : u ≤ 1.01 * x) {N : ℕ} (hN : 1 ≤ N) :
    |p' * p ^ N - Real.exp (-(N * x + u))| ≤ 2.25 / N ^ 4 + 4 * 0.97 ^ N + 1e-13 := by
  have h1 : |p ^ N - Real.exp (-(N * x))| ≤ 1.8 / N ^ 4 + 2 * 0.97 ^ N + 5e-14 := by
    have pN : (0 : ℝ) < 1.8 / N ^ 4 := by
      have : (0 : ℝ) < N := by exact_mod_cast hN
      positivity
    have p97 : (0 : ℝ) < 0.97 ^ N := by positivity
    rcases le_or_gt x 1 with h1 | h1
    · have := h.pow hx h1 hN
      linarith
    · have := damped_pow (hq h1) h1 N
      linarith
  have h2 := last_err h' hp' hu0 hu hN
  have e : p' * p ^ N - Real.exp (-(N * x + u))
      = p' * (p ^ N - Real.exp (-(N * x))) + Real.exp (-(N * x)) * (p' - Real.exp (-u)) := by
    rw [neg_add, Real.exp_add]; ring
  rw [e]
  refine (abs_add_le _ _).trans ?_
  rw [abs_mul, abs_mul, abs_of_pos (Real.exp_pos _)]
  have h3 := mul_le_mul hp' h1 (abs_nonneg _) zero_le_one
  have e3 : (2.25 : ℝ) / N ^ 4 = 1.8 / N ^ 4 + 0.45 / N ^ 4 := by rw [← add_div]; norm_num
  rw [e3]
  linarith

end Odes
