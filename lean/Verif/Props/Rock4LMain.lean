import Verif.Lemmas.Rock4LMain
import Verif.Lemmas.HessMat
import Mathlib.Analysis.SpecialFunctions.Trigonometric.Bounds

/-!
# C107: the program Rock4-L/test/main.cpp
-/

namespace Odes.Rock4L.Main

open Matrix Finset Test
open Spec.Rock4LMain (wt printed growth norm2)

/-! ### `rho()` of the program -/

theorem foldl_max_ge (f : ℕ → ℝ) : ∀ (l : List ℕ) (r : ℝ),
    r ≤ l.foldl (fun R i => max (f i) R) r ∧ ∀ i ∈ l, f i ≤ l.foldl (fun R i => max (f i) R) r
  | [], r => ⟨le_rfl, fun _ h => by simp at h⟩
  | x :: l, r => by
    obtain ⟨h1, h2⟩ := foldl_max_ge f l (max (f x) r)
    rw [List.foldl_cons]
    refine ⟨(le_max_right _ _).trans h1, fun i hi => ?_⟩
    rcases List.mem_cons.1 hi with rfl | hi
    · exact (le_max_left _ _).trans h1
    · exact h2 i hi

theorem mesh_eq : mesh ℝ 98 = 1 / 99 := by unfold mesh; norm_num

theorem lap_spec98 : SymSpec (wt 98) (lap ℝ 98) 39204 := by
  have h := lap_spec 98
  rw [mesh_eq] at h
  norm_num at h
  exact h

/-- `rho()` is not the spectral radius, which is 39204. -/
theorem rho_bounds : 39194 ≤ rho 98 ∧ rho 98 < 39204 := by
  constructor
  · have h := (foldl_max_ge (fun i : ℕ => |2 / (mesh ℝ 98 * mesh ℝ 98) *
      (Real.cos ((i : ℝ) * 3.14159265359 / (98 + 2 : ℕ)) - 1)|) (List.range (98 + 2)) 0).2 99
      (List.mem_range.2 (by norm_num))
    refine le_trans ?_ h
    simp only [mesh_eq]
    set x : ℝ := Real.pi - ((99 : ℕ) : ℝ) * 3.14159265359 / (98 + 2 : ℕ) with hx
    have e : ((99 : ℕ) : ℝ) * 3.14159265359 / (98 + 2 : ℕ) = Real.pi - x := by rw [hx]; ring
    rw [e, Real.cos_pi_sub]
    have p1 := Real.pi_gt_d20
    have p2 := Real.pi_lt_d20
    have x1 : 0 < x ∧ x < 0.031416 := by
      rw [hx]
      push_cast
      constructor <;> norm_num at p1 p2 ⊢ <;> linarith
    have c := Real.one_sub_sq_div_two_le_cos (x := x)
    have x2 : x ^ 2 ≤ 0.031416 ^ 2 := pow_le_pow_left₀ x1.1.le x1.2.le 2
    rw [abs_of_nonpos (mul_nonpos_of_nonneg_of_nonpos (by norm_num) (by linarith [Real.neg_one_le_cos x]))]
    norm_num at x2 ⊢
    linarith
  · have h := (rock4l_test_rho_small 98 (by norm_num)).2
    rw [mesh_eq] at h
    norm_num at h
    exact h

/-! ### the step sizes -/

theorem need_of {a b k d : ℕ} (hb : 0 < b) (ok : okStep a b k d = true) {ρ : ℝ} (h1 : 39194 ≤ ρ)
    (h2 : ρ ≤ 39204) : need ρ ((a : ℝ) / b) = k := by
  simp only [okStep, Bool.and_eq_true, decide_eq_true_eq] at ok
  obtain ⟨⟨k1, k2, k3, -⟩, -⟩ := ok
  have hb' : (0 : ℝ) < b := by exact_mod_cast hb
  have ha : (0 : ℝ) ≤ a := Nat.cast_nonneg a
  have hk : ((k - 1 : ℕ) : ℝ) = (k : ℝ) - 1 := by push_cast [Nat.cast_sub k1]; ring
  have hk1 : (1 : ℝ) ≤ k := by exact_mod_cast k1
  have c2 : (353 : ℝ) * ((k : ℝ) - 1) ^ 2 * b ≤ 3000 * b + 39194000 * a := by
    rw [← hk]; exact_mod_cast k2
  have c3 : (3000 : ℝ) * b + 39204000 * a < 353 * (k : ℝ) ^ 2 * b := by exact_mod_cast k3
  have e : (3 + (a : ℝ) / b * ρ) / 0.353 = (3000 * b + 1000 * (a * ρ)) / (353 * b) := by
    field_simp
    ring
  have m1 := mul_le_mul_of_nonneg_left h1 ha
  have m2 := mul_le_mul_of_nonneg_left h2 ha
  unfold need
  rw [Int.floor_eq_iff, e]
  constructor
  · have : (k : ℝ) - 1 ≤ √((3000 * b + 1000 * (a * ρ)) / (353 * b)) := by
      apply Real.le_sqrt_of_sq_le
      rw [le_div_iff₀ (by positivity)]
      nlinarith
    push_cast
    linarith
  · have : √((3000 * b + 1000 * (a * ρ)) / (353 * b)) < k := by
      rw [Real.sqrt_lt' (by linarith), div_lt_iff₀ (by positivity)]
      nlinarith
    push_cast
    linarith

theorem deg_of {a b k d : ℕ} (hb : 0 < b) (ok : okStep a b k d = true) {ρ : ℝ} (h1 : 39194 ≤ ρ)
    (h2 : ρ ≤ 39204) {x y z : ℤ} (hc : Chosen ρ ((a : ℝ) / b) x y z) : x = d := by
  have hn := need_of hb ok h1 h2
  obtain ⟨c1, c2, c3⟩ := hc
  rw [hn] at c2 c3
  simp only [okStep, Bool.and_eq_true, decide_eq_true_eq, List.all_eq_true] at ok
  obtain ⟨⟨-, -, -, k4, k5, -⟩, k6⟩ := ok
  have := c3 d k4 (by exact_mod_cast k5)
  have := k6 x (Sel.mem c1) c2
  omega

/-- the formula chosen is that for the true spectral radius. -/
theorem chosen_true {a b k d : ℕ} (hb : 0 < b) (ok : okStep a b k d = true) {x y z : ℤ}
    (hc : Chosen (rho 98) ((a : ℝ) / b) x y z) : Chosen 39204 ((a : ℝ) / b) x y z := by
  obtain ⟨c1, c2, c3⟩ := hc
  have h1 := need_of hb ok rho_bounds.1 rho_bounds.2.le
  have h2 := need_of hb ok (ρ := 39204) (by norm_num) le_rfl
  rw [h1] at c2 c3
  refine ⟨c1, ?_, ?_⟩
  · rw [h2]; exact c2
  · rw [h2]; exact c3

theorem row_facts {l : ℕ} {r : ℕ × ℕ × ℕ × ℕ × ℕ} (ok : okRow l r = true) :
    fullSteps (tinteg - 0) (dt l) = r.1 ∧
    lastStep (tinteg - 0) (dt l) = ((5 ^ (l + 1) - 2 * r.1 * 4 ^ l : ℕ) : ℝ) / (2 * 5 ^ (l + 1) : ℕ) := by
  simp only [okRow, Bool.and_eq_true, decide_eq_true_eq] at ok
  obtain ⟨⟨⟨o1, o2, o3⟩, -⟩, -⟩ := ok
  have ha : (0 : ℝ) < (4 ^ l : ℕ) := by positivity
  have hb : (0 : ℝ) < (5 ^ (l + 1) : ℕ) := by positivity
  have c1 : (100 * (r.1 : ℝ) + 1) * (2 * (4 ^ l : ℕ)) < 100 * (5 ^ (l + 1) : ℕ) := by exact_mod_cast o1
  have c2 : 100 * ((5 ^ (l + 1) : ℕ) : ℝ) ≤ (100 * (r.1 : ℝ) + 101) * (2 * (4 ^ l : ℕ)) := by
    exact_mod_cast o2
  have h1 : fullSteps (tinteg - 0) (dt l) = r.1 := by
    unfold fullSteps tinteg
    rw [dt_eq]
    generalize ((4 ^ l : ℕ) : ℝ) = A at *
    generalize ((5 ^ (l + 1) : ℕ) : ℝ) = B at *
    have e : (0.5 - 0) / (A / B) - 1.01 = (50 * B - 101 * A) / (100 * A) := by
      field_simp
      ring
    rw [e]
    rcases Nat.eq_zero_or_pos r.1 with h0 | h0
    · rw [h0, Nat.ceil_eq_zero]
      rw [h0] at c2
      refine div_nonpos_of_nonpos_of_nonneg ?_ (by positivity)
      push_cast at c2
      linarith
    · rw [Nat.ceil_eq_iff h0.ne', lt_div_iff₀ (by positivity), div_le_iff₀ (by positivity)]
      rw [Nat.cast_sub h0]
      push_cast
      constructor <;> nlinarith
  refine ⟨h1, ?_⟩
  unfold lastStep
  rw [h1, dt_eq, Nat.cast_sub o3.le]
  unfold tinteg
  push_cast
  field_simp
  ring

/-- a call: the steps made, and the formulas chosen, which are those for the true spectral radius. -/
theorem main_run (l : ℕ) (hl : l < 30) (o : St 100) (hu : o.uround = 1.0e-16) (p q : ℕ) (hp : 4 ≤ p)
    (hq : 4 ≤ q) (y : Fin 100 → ℝ) (hy : o.heap p = up y) :
    ∃ s' a b c a' b' c', Returns body (first o p q l) s' ∧ s'.t = X.fin tinteg ∧
      s'.heap p = up (Spec.Gen.step (formulaOf shipped a' b' c') (fun v => lap ℝ 98 *ᵥ v)
        (lastStep (tinteg - 0) (dt l)) ((Spec.Gen.step (formulaOf shipped a b c)
          (fun v => lap ℝ 98 *ᵥ v) (dt l))^[fullSteps (tinteg - 0) (dt l)] y)) ∧
      s'.nsteps = (printed.getD l (0, 0)).1 ∧ s'.nstagesmax = (printed.getD l (0, 0)).2 ∧
      fullSteps (tinteg - 0) (dt l) = (rows.getD l (0, 0, 0, 0, 0)).1 ∧
      a = (rows.getD l (0, 0, 0, 0, 0)).2.2.1 ∧ a' = (rows.getD l (0, 0, 0, 0, 0)).2.2.2.2 ∧
      Chosen 39204 (dt l) a b c ∧ Chosen 39204 (lastStep (tinteg - 0) (dt l)) a' b' c' ∧
      0 < dt l ∧ 0 < fullSteps (tinteg - 0) (dt l) ∧ 0 < lastStep (tinteg - 0) (dt l) := by
  have ok := rows_ok ⟨l, hl⟩
  have hpr := printed_ok ⟨l, hl⟩
  simp only at ok hpr
  set r := rows.getD l (0, 0, 0, 0, 0) with hr
  obtain ⟨hF, hLs⟩ := row_facts ok
  have hdt := dt_eq l
  have ok' := ok
  simp only [okRow, Bool.and_eq_true] at ok'
  obtain ⟨⟨-, okA⟩, okB⟩ := ok'
  have pA : 0 < 5 ^ (l + 1) := by positivity
  have pB : 0 < 2 * 5 ^ (l + 1) := by positivity
  have hdpos : 0 < dt l := by rw [hdt]; positivity
  have hdle : dt l ≤ 0.2 := by
    rw [hdt, div_le_iff₀ (by positivity)]
    push_cast
    have := pow_le_pow_left₀ (by norm_num : (0 : ℝ) ≤ 4) (by norm_num : (4 : ℝ) ≤ 5) l
    rw [pow_succ]
    linarith
  have hdge : 1e-5 ≤ dt l := by
    rw [hdt, le_div_iff₀ (by positivity)]
    have h1 : (4 / 5 : ℝ) ^ 30 ≤ (4 / 5) ^ l :=
      pow_le_pow_of_le_one (by norm_num) (by norm_num) hl.le
    have h2 : ((4 ^ l : ℕ) : ℝ) = (4 / 5) ^ l * 5 ^ l := by push_cast; rw [div_pow]; field_simp
    rw [h2]
    push_cast
    rw [pow_succ]
    have h3 : (0 : ℝ) < 5 ^ l := by positivity
    norm_num at h1
    nlinarith
  obtain ⟨rl, ru⟩ := rho_bounds
  have hlast := lastStep_bounds (L := tinteg - 0) hdpos (by unfold tinteg; norm_num)
  have hN : 0 < fullSteps (tinteg - 0) (dt l) := by
    rw [hF]
    have : ∀ l : Fin 30, 0 < (rows.getD l (0, 0, 0, 0, 0)).1 := by decide +kernel
    exact this ⟨l, hl⟩
  have nA : need (rho 98) (dt l) ≤ 152 := by
    rw [hdt, need_of pA okA rl ru.le]
    simp only [okStep, Bool.and_eq_true, decide_eq_true_eq] at okA
    exact_mod_cast okA.1.2.2.2.2.2
  have nB : need (rho 98) (lastStep (tinteg - 0) (dt l)) ≤ 152 := by
    rw [hLs, need_of pB okB rl ru.le]
    simp only [okStep, Bool.and_eq_true, decide_eq_true_eq] at okB
    exact_mod_cast okB.1.2.2.2.2.2
  obtain ⟨s', a, b1, c, a', b1', c', r1, r2, r3, r4, r5, r6, -, -, -, r10⟩ :=
    rock4l_run (operX_ok false 98) (te := tinteg) (t0 := 0) (by unfold tinteg; norm_num) hdpos
      (ρ := rho 98) (by linarith) (by nlinarith) o hu p q hp hq y y hy (by simp)
      (fun _ => ⟨by linarith, nA⟩) (by linarith [hlast.2.2.1 hN]) nB
  have cA := r2 hN
  rw [hdt] at cA
  have cB := r3
  rw [hLs] at cB
  have dA : a = r.2.2.1 := deg_of pA okA rl ru.le cA
  have dB : a' = r.2.2.2.2 := deg_of pB okB rl ru.le cB
  have tA := chosen_true pA okA cA
  have tB := chosen_true pB okB cB
  rw [← hdt] at tA
  rw [← hLs] at tB
  have hrhs : rhs false (lap ℝ 98) y = fun v => lap ℝ 98 *ᵥ v := by funext v; simp [rhs]
  rw [hrhs] at r6
  refine ⟨s', a, b1, c, a', b1', c', r1, r4, r6, ?_, ?_, hF, dA, dB, tA, tB, hdpos, hN, hlast.1⟩
  · rw [r5, hF, hpr]; push_cast; rfl
  · rw [r10, if_neg hN.ne', hpr, dA, dB, max_add_add_right]

/-- **C107** (the 30 calls of Rock4L, in exact arithmetic): each of them returns at `Tinteg` exactly;
the numbers of steps and of stages it prints are those of the table `printed`; the mean value of the
solution is conserved exactly; and its weighted norm does not increase, except by at most 2.01% in the
first call and 15% in the eighth.  That `rho()` is too small does no harm: the formulas chosen are
those for the true spectral radius. -/
theorem rock4l_main (l : ℕ) (hl : l < 30) (o : St 100) (hu : o.uround = 1.0e-16) (p q : ℕ) (hp : 4 ≤ p)
    (hq : 4 ≤ q) (y : Fin 100 → ℝ) (hy : o.heap p = up y) :
    ∃ s' y', Returns body (first o p q l) s' ∧ s'.t = X.fin tinteg ∧ s'.heap p = up y' ∧
      s'.nsteps = (printed.getD l (0, 0)).1 ∧ s'.nstagesmax = (printed.getD l (0, 0)).2 ∧
      ∑ i, wt 98 i * y' i = ∑ i, wt 98 i * y i ∧
      √(∑ i, wt 98 i * y' i ^ 2) ≤ growth l * √(∑ i, wt 98 i * y i ^ 2) := by
  obtain ⟨s', a, b1, c, a', b1', c', r1, r4, r6, r5, r10, hF, dA, dB, tA, tB, hdpos, hN, hlp⟩ :=
    main_run l hl o hu p q hp hq y hy
  refine ⟨s', _, r1, r4, r6, r5, r10, ?_, ?_⟩
  · rw [step_mean]
    generalize fullSteps (tinteg - 0) (dt l) = N
    induction N with
    | zero => rfl
    | succ N ih => rw [Function.iterate_succ_apply', step_mean, ih]
  · have h1 := rock4l_steps_stable lap_spec98 hdpos.le (fullSteps (tinteg - 0) (dt l)) (fun _ => tA) y
    have h2 := rock4l_step_stable lap_spec98 hlp.le tB
      ((Spec.Gen.step (formulaOf shipped a b1 c) (fun v => lap ℝ 98 *ᵥ v) (dt l))^[fullSteps (tinteg - 0)
        (dt l)] y)
    have h3 := h2.trans (mul_le_mul_of_nonneg_left h1 (sq_nonneg _))
    rw [hF] at h3 ⊢
    set r := rows.getD l (0, 0, 0, 0, 0) with hr
    have hg : betD a' ^ 2 * (betD a ^ 2) ^ r.1 ≤ growth l ^ 2 := by
      rw [dA, dB]
      by_cases h0 : l = 0
      · subst h0
        have : r = (2, 150, 148, 106, 105) := rfl
        rw [this]
        norm_num [betD, growth]
      · by_cases h7 : l = 7
        · subst h7
          have : r = (11, 69, 67, 66, 63) := rfl
          rw [this]
          norm_num [betD, growth]
        · have hgood : ∀ l : Fin 30, l.1 ≠ 0 → l.1 ≠ 7 →
              (rows.getD l (0, 0, 0, 0, 0)).2.2.1 ∉ [63, 129, 148] ∧
              (rows.getD l (0, 0, 0, 0, 0)).2.2.2.2 ∉ [63, 129, 148] := by decide +kernel
          obtain ⟨g1, g2⟩ := hgood ⟨l, hl⟩ h0 h7
          simp only [← hr, List.mem_cons, List.not_mem_nil, or_false, not_or] at g1 g2
          have e : ∀ d : ℕ, (¬d = 63 ∧ ¬d = 129 ∧ ¬d = 148) → betD d = 1 := by
            intro d hd
            unfold betD
            rw [if_neg (by omega), if_neg (by omega)]
          rw [e _ g1, e _ g2]
          unfold growth
          rw [if_neg h0, if_neg h7]
          norm_num
    have hg0 : 0 ≤ growth l := by unfold growth; split_ifs <;> norm_num
    have hw : 0 ≤ ∑ i, wt 98 i * y i ^ 2 :=
      sum_nonneg fun i _ => mul_nonneg (lap_spec98.pos i).le (sq_nonneg _)
    rw [← Real.sqrt_sq hg0, ← Real.sqrt_mul (sq_nonneg _)]
    refine Real.sqrt_le_sqrt (h3.trans ?_)
    rw [← mul_assoc]
    exact mul_le_mul_of_nonneg_right hg hw

/-- C107 (the initial value of the program): its mean value. -/
theorem rock4l_main_init : ∑ i, wt 98 i * init 100 i = 50.5 * 0.9999999 := by
  have h : ∀ i : Fin (98 + 2), wt 98 i * init 100 i
      = (fun k : ℕ => (if k = 0 ∨ k = 99 then (1 / 2 : ℝ) else 1) * if k ≤ 50 then 0.9999999 else 0) i.1 :=
    fun i => rfl
  rw [sum_congr rfl fun i _ => h i, Fin.sum_univ_eq_sum_range
    (fun k : ℕ => (if k = 0 ∨ k = 99 then (1 / 2 : ℝ) else 1) * if k ≤ 50 then 0.9999999 else 0)]
  simp only [sum_range_succ, sum_range_zero]
  norm_num

/-! ### the printed error -/

theorem normdiff_last (n : ℕ) (x y : ℕ → ℝ) :
    normdiff n x y = if n = 0 then 0 else |x (n - 1) - y (n - 1)| := by
  unfold normdiff
  cases n with
  | zero => simp
  | succ n =>
    rw [List.range_succ, List.foldl_append]
    simp [Real.sqrt_sq_eq_abs]

/-- C107 (the part that holds): the number printed as the error is never larger than the error. -/
theorem normdiff_partial (n : ℕ) (x y : ℕ → ℝ) : normdiff n x y ≤ norm2 n x y := by
  rw [normdiff_last]
  unfold norm2
  split_ifs with h
  · exact Real.sqrt_nonneg _
  · rw [← Real.sqrt_sq_eq_abs]
    refine Real.sqrt_le_sqrt ?_
    exact single_le_sum (f := fun i => (x i - y i) ^ 2) (fun i _ => sq_nonneg _)
      (mem_range.2 (by omega))

/-- C107 (negation): it is the difference of the last components only; the error may be as large as
one likes while 0 is printed. -/
theorem normdiff_wrong (n : ℕ) (hn : 2 ≤ n) (E : ℝ) (hE : 0 ≤ E) :
    ∃ x y, normdiff n x y = 0 ∧ norm2 n x y = E := by
  refine ⟨fun i => if i = 0 then E else 0, fun _ => 0, ?_, ?_⟩
  · rw [normdiff_last, if_neg (by omega)]
    simp only [sub_zero, abs_eq_zero]
    rw [if_neg (by omega)]
  · unfold norm2
    rw [sum_eq_single 0]
    · simp [hE]
    · intro i _ hi
      simp [hi]
    · intro h
      exact absurd (mem_range.2 (by omega)) h

/-! ### the tolerances of Radau5 -/

theorem search_run (attempt : ℕ → Bool) (k : ℕ) (hk : ∀ j < k, attempt j = false) (a r : ℝ) :
    run (search attempt) k ⟨a, r, 0⟩ = .next ⟨a * 2 ^ k, r * 2 ^ k, k⟩ := by
  induction k with
  | zero => simp [run]
  | succ k ih =>
    rw [run_add k 1, ih fun j hj => hk j (by omega)]
    simp [run, search, hk k (by omega), pow_succ, mul_assoc]

/-- C107 (the reference solution): the loop ends if and only if some call of Radau5 succeeds, and then
both tolerances are `1e-8 * 2^k` where `k` is the number of calls that failed. -/
theorem search_spec (attempt : ℕ → Bool) :
    (∀ s, Returns (search attempt) ⟨1e-8, 1e-8, 0⟩ s → ∃ k, attempt k = true ∧
      (∀ j < k, attempt j = false) ∧ s = ⟨1e-8 * 2 ^ k, 1e-8 * 2 ^ k, k + 1⟩) ∧
    ((∃ k, attempt k = true) → ∃ s, Returns (search attempt) ⟨1e-8, 1e-8, 0⟩ s) ∧
    ((∀ k, attempt k = false) → Diverges (search attempt) ⟨1e-8, 1e-8, 0⟩) := by
  have hret : ∀ k, attempt k = true → (∀ j < k, attempt j = false) →
      run (search attempt) (k + 1) ⟨1e-8, 1e-8, 0⟩ = .ret ⟨1e-8 * 2 ^ k, 1e-8 * 2 ^ k, k + 1⟩ := by
    intro k h1 h2
    rw [run_add k 1, search_run attempt k h2]
    simp [run, search, h1]
  refine ⟨?_, ?_, fun h k => ⟨_, search_run attempt k (fun j _ => h j) _ _⟩⟩
  · rintro s ⟨m, hm⟩
    by_cases hex : ∃ k, attempt k = true
    · classical
      have h1 := Nat.find_spec hex
      have h2 : ∀ j < Nat.find hex, attempt j = false := fun j hj => by
        have := Nat.find_min hex hj
        simpa using this
      refine ⟨Nat.find hex, h1, h2, ?_⟩
      exact Odes.Hess.Returns.det ⟨m, hm⟩ ⟨_, hret _ h1 h2⟩
    · exfalso
      push Not at hex
      have := search_run attempt m (fun j _ => by simpa using hex j) 1e-8 1e-8
      rw [this] at hm
      cases hm
  · intro hex
    classical
    have h1 := Nat.find_spec hex
    have h2 : ∀ j < Nat.find hex, attempt j = false := fun j hj => by
      have := Nat.find_min hex hj
      simpa using this
    exact ⟨_, _, hret _ h1 h2⟩

/-- a memory as the program leaves it before a call: the hypotheses of `rock4l_main` are met. -/
example : ∃ o : St 100, o.uround = 1.0e-16 ∧ o.heap 4 = up (init 100) :=
  ⟨⟨fun _ => up (init 100), 0, 0, 0, 0, 0, 0, 0, 0, 0, X.nan, X.nan, X.nan, 1.0e-16, 0⟩, rfl, rfl⟩

end Odes.Rock4L.Main
