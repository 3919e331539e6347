import Verif.Props.SympFloat
import Mathlib.Analysis.SpecialFunctions.Exp
import Mathlib.Analysis.Normed.Group.Constructions

/-!
# Rounding errors of the sums of SymplecticRK
-/

namespace Odes.Symp

open Odes.Mem Spec Finset

variable {F : FP} {n : ℕ}

/-- unit roundoff. -/
noncomputable def FP.eps (F : FP) : ℝ := 1 / 2 ^ F.p

theorem FP.eps_pos (F : FP) : 0 < F.eps := by unfold FP.eps; positivity

theorem FP.eps_le (F : FP) : F.eps ≤ 1 / 2 := by
  unfold FP.eps
  refine one_div_le_one_div_of_le (by norm_num) ?_
  calc (2 : ℝ) = 2 ^ 1 := by norm_num
    _ ≤ 2 ^ F.p := pow_le_pow_right₀ (by norm_num) F.hp

theorem FP.err (F : FP) (x : ℝ) : |F.rnd x - x| ≤ F.eps * |x| := by
  have := F.rn.rel F.hp x
  rw [abs_sub_comm]
  refine this.trans_eq ?_
  unfold FP.eps; ring

theorem FP.abs_rnd (F : FP) (x : ℝ) : |F.rnd x| ≤ (1 + F.eps) * |x| := by
  have h := F.err x
  have : F.rnd x = x + (F.rnd x - x) := by ring
  rw [this]
  exact (abs_add_le _ _).trans (by linarith)

theorem FP.mul_val (x y : F.T) : (x * y).1 = F.rnd (x.1 * y.1) := rfl

/-- a sum from left to right. -/
theorem sumL_err (g : ℕ → F.T) (init : F.T) (k : ℕ) :
    |(sumL g init k).1 - (init.1 + ∑ i ∈ range k, (g i).1)| ≤
      ((1 + F.eps) ^ k - 1) * (|init.1| + ∑ i ∈ range k, |(g i).1|) := by
  have he := F.eps_pos
  induction k with
  | zero => simp [sumL]
  | succ k ih =>
    set S := sumL g init k with hS
    set B := |init.1| + ∑ i ∈ range k, |(g i).1| with hB
    set X := init.1 + ∑ i ∈ range k, (g i).1 with hX
    have h1 : (sumL g init (k + 1)).1 = F.rnd (S.1 + (g k).1) := rfl
    rw [h1, sum_range_succ, sum_range_succ, ← add_assoc, ← add_assoc, ← hX, ← hB]
    have h2 := F.err (S.1 + (g k).1)
    have h3 : |X| ≤ B := (abs_add_le _ _).trans (by
      rw [hB]; gcongr; exact abs_sum_le_sum_abs _ _)
    have h4 : |S.1 + (g k).1| ≤ |S.1 - X| + B + |(g k).1| := by
      have : S.1 + (g k).1 = (S.1 - X) + X + (g k).1 := by ring
      rw [this]
      exact (abs_add_le _ _).trans (add_le_add_left ((abs_add_le _ _).trans (by linarith)) _)
    have h5 : F.rnd (S.1 + (g k).1) - (X + (g k).1) =
        (F.rnd (S.1 + (g k).1) - (S.1 + (g k).1)) + (S.1 - X) := by ring
    rw [h5]
    refine (abs_add_le _ _).trans ?_
    have h6 : F.eps * |S.1 + (g k).1| ≤ F.eps * (|S.1 - X| + B + |(g k).1|) :=
      mul_le_mul_of_nonneg_left h4 he.le
    have h7 : 1 ≤ (1 + F.eps) ^ k := one_le_pow₀ (by linarith)
    have h8 : 0 ≤ ((1 + F.eps) ^ k * (1 + F.eps) - 1 - F.eps) * |(g k).1| :=
      mul_nonneg (by nlinarith) (abs_nonneg _)
    rw [pow_succ]
    nlinarith [mul_le_mul_of_nonneg_left ih (by linarith : 0 ≤ 1 + F.eps)]

/-- a sum from left to right of terms computed with a relative error. -/
theorem sumL_err3 {g : ℕ → F.T} {x : ℕ → ℝ} {k : ℕ}
    (hg : ∀ i, i < k → |(g i).1 - x i| ≤ ((1 + F.eps) ^ 3 - 1) * |x i|) (init : F.T) :
    |(sumL g init k).1 - (init.1 + ∑ i ∈ range k, x i)| ≤
      ((1 + F.eps) ^ (k + 3) - 1) * (|init.1| + ∑ i ∈ range k, |x i|) := by
  have he := F.eps_pos
  have h1 := sumL_err g init k
  have h0 : 1 ≤ (1 + F.eps) ^ k := one_le_pow₀ (by linarith)
  have h03 : 1 ≤ (1 + F.eps) ^ 3 := one_le_pow₀ (by linarith)
  have h2 : ∑ i ∈ range k, |(g i).1| ≤ (1 + F.eps) ^ 3 * ∑ i ∈ range k, |x i| := by
    rw [mul_sum]
    refine sum_le_sum fun i hi => ?_
    have := hg i (mem_range.1 hi)
    have e : (g i).1 = x i + ((g i).1 - x i) := by ring
    rw [e]
    exact (abs_add_le _ _).trans (by linarith)
  have h3 : |∑ i ∈ range k, (g i).1 - ∑ i ∈ range k, x i| ≤
      ((1 + F.eps) ^ 3 - 1) * ∑ i ∈ range k, |x i| := by
    rw [← sum_sub_distrib, mul_sum]
    exact (abs_sum_le_sum_abs _ _).trans (sum_le_sum fun i hi => hg i (mem_range.1 hi))
  have h4 : (sumL g init k).1 - (init.1 + ∑ i ∈ range k, x i) =
      ((sumL g init k).1 - (init.1 + ∑ i ∈ range k, (g i).1)) +
      (∑ i ∈ range k, (g i).1 - ∑ i ∈ range k, x i) := by ring
  rw [h4]
  refine (abs_add_le _ _).trans ?_
  have hi : |init.1| ≤ (1 + F.eps) ^ 3 * |init.1| := le_mul_of_one_le_left (abs_nonneg _) h03
  have h5 : ((1 + F.eps) ^ k - 1) * (|init.1| + ∑ i ∈ range k, |(g i).1|) ≤
      ((1 + F.eps) ^ k - 1) * ((1 + F.eps) ^ 3 * (|init.1| + ∑ i ∈ range k, |x i|)) :=
    mul_le_mul_of_nonneg_left (by rw [mul_add]; linarith) (by linarith)
  have h6 : 0 ≤ ((1 + F.eps) ^ 3 - 1) * |init.1| := mul_nonneg (by linarith) (abs_nonneg _)
  rw [pow_add]
  nlinarith

/-- the term `fl(fl(a h) K)`, `a` being `A` rounded. -/
theorem term_err {a h K : F.T} {A : ℝ} (ha : |a.1 - A| ≤ F.eps * |A|) :
    |(a * h * K).1 - A * h.1 * K.1| ≤ ((1 + F.eps) ^ 3 - 1) * |A * h.1 * K.1| := by
  have he := F.eps_pos
  have h1 := F.err (a.1 * h.1)
  have h2 := F.err ((a * h).1 * K.1)
  rw [← FP.mul_val] at h1 h2
  have ha' : |a.1| ≤ (1 + F.eps) * |A| := by
    have : a.1 = A + (a.1 - A) := by ring
    rw [this]; exact (abs_add_le _ _).trans (by linarith)
  have e1 : |(a * h).1 - A * h.1| ≤ ((1 + F.eps) ^ 2 - 1) * |A * h.1| := by
    have : (a * h).1 - A * h.1 = ((a * h).1 - a.1 * h.1) + (a.1 - A) * h.1 := by ring
    rw [this]
    refine (abs_add_le _ _).trans ?_
    rw [abs_mul (a.1 - A)]
    rw [abs_mul] at h1
    rw [abs_mul]
    have := mul_le_mul_of_nonneg_right ha' (abs_nonneg h.1)
    have := mul_le_mul_of_nonneg_right ha (abs_nonneg h.1)
    nlinarith
  have e2 : |(a * h).1| ≤ (1 + F.eps) ^ 2 * |A * h.1| := by
    have : (a * h).1 = A * h.1 + ((a * h).1 - A * h.1) := by ring
    rw [this]; exact (abs_add_le _ _).trans (by linarith)
  have : (a * h * K).1 - A * h.1 * K.1 = ((a * h * K).1 - (a * h).1 * K.1) +
      ((a * h).1 - A * h.1) * K.1 := by ring
  rw [this]
  refine (abs_add_le _ _).trans ?_
  rw [abs_mul ((a * h).1 - A * h.1), abs_mul (A * h.1)]
  rw [abs_mul] at h2
  have := mul_le_mul_of_nonneg_right e1 (abs_nonneg K.1)
  have := mul_le_mul_of_nonneg_left (mul_le_mul_of_nonneg_right e2 (abs_nonneg K.1)) he.le
  nlinarith

/-- `u' = fl(u+e1)`, `e' = fl(e1 + fl(u-u'))`, without any condition: what is lost is of the order of
one relative error of `e1`; `e'` is of the order of one relative error of `u`. -/
theorem comp_err (u e1 : F.T) :
    |(u + e1).1 + (e1 + (u - (u + e1))).1 - (u.1 + e1.1)| ≤ 5 * F.eps * |e1.1| ∧
    |(e1 + (u - (u + e1))).1| ≤ F.eps * (|u.1| + 6 * |e1.1|) := by
  have he := F.eps_pos
  have he2 := F.eps_le
  have h1 := F.err (u.1 + e1.1)
  rw [← FP.add_val] at h1
  set u' := u + e1 with hu'
  have hab : |u.1 + e1.1| ≤ |u.1| + |e1.1| := abs_add_le _ _
  have key : |u'.1 + (e1 + (u - u')).1 - (u.1 + e1.1)| ≤ 5 * F.eps * |e1.1| := by
    by_cases hle : |e1.1| ≤ |u.1|
    · obtain ⟨f1, f2⟩ := F.rn.fastTwoSum F.hp u.2 e1.2 hle
      have e0 : u'.1 = F.rnd (u.1 + e1.1) := rfl
      rw [← e0] at f1 f2
      have e2 : (u - u').1 = u.1 - u'.1 := by rw [FP.sub_val, F.rn.exact f1]
      have e3 : (e1 + (u - u')).1 = e1.1 + (u.1 - u'.1) := by
        rw [FP.add_val, e2, F.rn.exact f2]
      rw [e3, show u'.1 + (e1.1 + (u.1 - u'.1)) - (u.1 + e1.1) = 0 by ring, abs_zero]
      positivity
    · push Not at hle
      have h2 := F.err (u.1 - u'.1)
      rw [← FP.sub_val] at h2
      have h3 := F.err (e1.1 + (u - u').1)
      rw [← FP.add_val] at h3
      have b1 : |u.1 + e1.1 - u'.1| ≤ F.eps * (2 * |e1.1|) := by
        rw [abs_sub_comm]
        exact h1.trans (mul_le_mul_of_nonneg_left (by linarith) he.le)
      have b2 : |u.1 - u'.1| ≤ (1 + 2 * F.eps) * |e1.1| := by
        have : u.1 - u'.1 = (u.1 + e1.1 - u'.1) - e1.1 := by ring
        rw [this]
        exact (abs_sub _ _).trans (by linarith)
      have b3 : |(u - u').1 - (u.1 - u'.1)| ≤ F.eps * ((1 + 2 * F.eps) * |e1.1|) :=
        h2.trans (mul_le_mul_of_nonneg_left b2 he.le)
      have b4 : |e1.1 + (u - u').1| ≤ F.eps * ((3 + 2 * F.eps) * |e1.1|) := by
        have : e1.1 + (u - u').1 = (u.1 + e1.1 - u'.1) + ((u - u').1 - (u.1 - u'.1)) := by ring
        rw [this]
        exact (abs_add_le _ _).trans (by linarith)
      have b5 : |(e1 + (u - u')).1 - (e1.1 + (u - u').1)| ≤ F.eps * (F.eps * ((3 + 2 * F.eps) * |e1.1|)) :=
        h3.trans (mul_le_mul_of_nonneg_left b4 he.le)
      have : u'.1 + (e1 + (u - u')).1 - (u.1 + e1.1) =
          ((e1 + (u - u')).1 - (e1.1 + (u - u').1)) + ((u - u').1 - (u.1 - u'.1)) := by ring
      rw [this]
      refine (abs_add_le _ _).trans ((add_le_add b5 b3).trans ?_)
      have q : F.eps * (3 + 2 * F.eps) + (1 + 2 * F.eps) ≤ 5 := by nlinarith
      have := mul_le_mul_of_nonneg_left q (mul_nonneg he.le (abs_nonneg e1.1))
      nlinarith
  refine ⟨key, ?_⟩
  have : (e1 + (u - u')).1 = (u'.1 + (e1 + (u - u')).1 - (u.1 + e1.1)) - (u'.1 - (u.1 + e1.1)) := by ring
  rw [this]
  refine (abs_sub _ _).trans ?_
  have := mul_le_mul_of_nonneg_left hab he.le
  linarith

/-- the sum of squares of `Ftest` bounds all its terms. -/
theorem sqSum_ge (x y : Fin n → F.T) (t : F.T) (ht : 0 ≤ t.1) :
    t.1 ≤ (sqSum x y t).1 ∧ ∀ l, ((x l - y l) * (x l - y l)).1 ≤ (sqSum x y t).1 := by
  unfold sqSum
  have main : ∀ (L : List (Fin n)) (t : F.T), 0 ≤ t.1 →
      t.1 ≤ (L.foldl (fun t l => t + (x l - y l) * (x l - y l)) t).1 ∧
      ∀ l ∈ L, ((x l - y l) * (x l - y l)).1 ≤ (L.foldl (fun t l => t + (x l - y l) * (x l - y l)) t).1 := by
    intro L
    induction L with
    | nil => intro t _; simp
    | cons a L ih =>
      intro t ht
      have hsq : 0 ≤ ((x a - y a) * (x a - y a)).1 := by
        rw [FP.mul_val]
        exact F.rn.ge Flt.zero (mul_self_nonneg _)
      have g1 : t.1 ≤ (t + (x a - y a) * (x a - y a)).1 := by
        rw [FP.add_val]
        exact F.rn.ge t.2 (by linarith)
      have g2 : ((x a - y a) * (x a - y a)).1 ≤ (t + (x a - y a) * (x a - y a)).1 := by
        rw [FP.add_val]
        exact F.rn.ge ((x a - y a) * (x a - y a)).2 (by linarith)
      obtain ⟨i1, i2⟩ := ih (t + (x a - y a) * (x a - y a)) (ht.trans g1)
      refine ⟨g1.trans i1, fun l hl => ?_⟩
      rcases List.mem_cons.1 hl with rfl | hl
      · exact g2.trans i1
      · exact i2 l hl
  obtain ⟨h1, h2⟩ := main (List.finRange n) t ht
  exact ⟨h1, fun l => h2 l (List.mem_finRange l)⟩

theorem resid_ge (Z Y : ℕ → Fin n → F.T) (k : ℕ) :
    0 ≤ (resid Z Y k).1 ∧ ∀ i, i < k → ∀ l, ((Z i l - Y i l) * (Z i l - Y i l)).1 ≤ (resid Z Y k).1 := by
  induction k with
  | zero => exact ⟨le_rfl, fun i hi => by omega⟩
  | succ k ih =>
    obtain ⟨h1, h2⟩ := sqSum_ge (Z k) (Y k) (resid Z Y k) ih.1
    refine ⟨ih.1.trans h1, fun i hi l => ?_⟩
    rcases Nat.lt_succ_iff_lt_or_eq.1 hi with hlt | rfl
    · exact (ih.2 i hlt l).trans h1
    · exact h2 l

/-- two numbers with a small computed square of the difference. -/
theorem sq_small {x y : F.T} {θ : ℝ} (hθ : 0 ≤ θ) (h : ((x - y) * (x - y)).1 ≤ θ ^ 2) :
    |x.1 - y.1| ≤ 4 * θ := by
  have he := F.eps_pos
  have he2 := F.eps_le
  have h1 := F.err ((x - y).1 * (x - y).1)
  have h2 := F.err (x.1 - y.1)
  rw [← FP.mul_val] at h1
  rw [← FP.sub_val] at h2
  have h3 : |(x - y).1| ≤ 2 * θ := by
    refine abs_le_of_sq_le_sq' ?_ (by linarith) |> fun h => abs_le.2 h
    have := (abs_le.1 h1).1
    rw [abs_mul_self] at this
    nlinarith [mul_self_nonneg (x - y).1]
  have h4 : |x.1 - y.1| ≤ |(x - y).1| + F.eps * |x.1 - y.1| := by
    have : x.1 - y.1 = (x - y).1 - ((x - y).1 - (x.1 - y.1)) := by ring
    calc |x.1 - y.1| = |(x - y).1 - ((x - y).1 - (x.1 - y.1))| := by rw [← this]
      _ ≤ _ := (abs_sub _ _).trans (by linarith)
  nlinarith [abs_nonneg (x.1 - y.1)]

/-- constant of the rounding errors of the sums. -/
theorem gamma_le {x : ℝ} (h0 : 0 ≤ x) (hx : x ≤ 1 / 1024) {k : ℕ} (hk : k ≤ 16) :
    (1 + x) ^ (k + 3) - 1 ≤ 20 * x := by
  have h1 : (1 + x) ^ (k + 3) ≤ (1 + x) ^ 19 := pow_le_pow_right₀ (by linarith) (by omega)
  have h2 : (1 + x) ^ 19 ≤ Real.exp (19 * x) := by
    have : 1 + x ≤ Real.exp x := by linarith [Real.add_one_le_exp x]
    calc (1 + x) ^ 19 ≤ Real.exp x ^ 19 := pow_le_pow_left₀ (by linarith) this _
      _ = Real.exp (19 * x) := by rw [← Real.exp_nat_mul]; norm_num
  have h3 := (abs_le.1 (Real.abs_exp_sub_one_sub_id_le (x := 19 * x)
    (by rw [abs_of_nonneg (by positivity)]; linarith))).2
  nlinarith

end Odes.Symp
