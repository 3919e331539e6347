import Mathlib.Analysis.Convex.SpecificFunctions.Basic
import Mathlib.Analysis.Convex.Slope
import Mathlib.Algebra.Polynomial.Roots
import Mathlib.Algebra.Polynomial.Splits
import Mathlib.Topology.Algebra.Polynomial
import Mathlib.Topology.Order.IntermediateValue
import Mathlib.Tactic.Linarith
import Mathlib.Tactic.Positivity

/-!
# Real polynomials with as many sign changes as their degree

`locate`: if a polynomial of degree at most `m` changes its sign `m` times along an increasing
list of points, all its roots are real and simple, one in each interval of the list with a
sign change, none in the others.  `logConcave`: between two roots the logarithm of the absolute
value is concave; consequences `left_le`, `left_sq`, `right_le`, `right_sq` bound the
polynomial beyond two points by its values there.
-/

namespace Odes.RealRooted

open Polynomial Set

/-! ### concavity -/

theorem concave_log_sub {a d r : ℝ} (h : r ∉ Icc a d) :
    ConcaveOn ℝ (Icc a d) fun t => Real.log (t - r) := by
  refine ⟨convex_Icc a d, fun x hx y hy u v hu hv huv => ?_⟩
  rcases lt_or_ge r a with h1 | h1
  · have := strictConcaveOn_log_Ioi.concaveOn.2 (show x - r ∈ Ioi (0 : ℝ) by
      simp only [mem_Ioi]; linarith [hx.1]) (show y - r ∈ Ioi (0 : ℝ) by
      simp only [mem_Ioi]; linarith [hy.1]) hu hv huv
    have e : u • (x - r) + v • (y - r) = u • x + v • y - r := by
      simp only [smul_eq_mul]; linear_combination (-r) * huv
    rwa [e] at this
  · have h2 : d < r := by
      by_contra h3; exact h ⟨h1, not_lt.1 h3⟩
    have := strictConcaveOn_log_Iio.concaveOn.2 (show x - r ∈ Iio (0 : ℝ) by
      simp only [mem_Iio]; linarith [hx.2]) (show y - r ∈ Iio (0 : ℝ) by
      simp only [mem_Iio]; linarith [hy.2]) hu hv huv
    have e : u • (x - r) + v • (y - r) = u • x + v • y - r := by
      simp only [smul_eq_mul]; linear_combination (-r) * huv
    rwa [e] at this

theorem concave_prod {a d : ℝ} (s : Multiset ℝ) : (∀ r ∈ s, r ∉ Icc a d) →
    ConcaveOn ℝ (Icc a d) fun t => Real.log ((s.map fun r => t - r).prod) := by
  induction s using Multiset.induction with
  | empty => intro _; simpa using concaveOn_const (0 : ℝ) (convex_Icc a d)
  | cons r s ih =>
    intro h
    have h1 := concave_log_sub (h r (Multiset.mem_cons_self r s))
    have h2 := ih fun r' hr' => h r' (Multiset.mem_cons_of_mem hr')
    refine (h1.add h2).congr fun t ht => ?_
    simp only [Pi.add_apply, Multiset.map_cons, Multiset.prod_cons]
    rw [Real.log_mul]
    · intro e
      exact h r (Multiset.mem_cons_self r s) (by rwa [← sub_eq_zero.1 e])
    · refine Multiset.prod_ne_zero ?_
      · intro e
        obtain ⟨r', hr', e'⟩ := Multiset.mem_map.1 e
        exact h r' (Multiset.mem_cons_of_mem hr') (by rwa [← sub_eq_zero.1 e'])

/-- a polynomial with all its roots real is log-concave between two roots. -/
theorem logConcave {q : ℝ[X]} (hs : Multiset.card q.roots = q.natDegree) {a d : ℝ}
    (h : ∀ t ∈ Icc a d, q.eval t ≠ 0) : ConcaveOn ℝ (Icc a d) fun t => Real.log (q.eval t) := by
  rcases (Icc a d).eq_empty_or_nonempty with he | ⟨x, hx⟩
  · rw [he]; exact ⟨convex_empty, by simp⟩
  have hq : q ≠ 0 := by
    rintro rfl; exact h x hx (by simp)
  have hne : ∀ r ∈ q.roots, r ∉ Icc a d := fun r hr hr' => h r hr' (Polynomial.isRoot_of_mem_roots hr)
  have h1 := (concave_prod q.roots hne).add (concaveOn_const (Real.log q.leadingCoeff) (convex_Icc a d))
  refine h1.congr fun t ht => ?_
  have e : q.eval t = q.leadingCoeff * (q.roots.map fun r => t - r).prod := by
    conv_lhs => rw [← Polynomial.C_leadingCoeff_mul_prod_multiset_X_sub_C hs]
    rw [eval_mul, eval_C, eval_multiset_prod, Multiset.map_map]
    simp
  simp only [Pi.add_apply]
  rw [e, Real.log_mul (leadingCoeff_ne_zero.2 hq), add_comm]
  intro e0
  rw [e0, mul_zero] at e
  exact h t ht e

section
variable {q : ℝ[X]} (hs : Multiset.card q.roots = q.natDegree)
include hs

/-- beyond `b` the absolute value decreases if it does from `a` to `b`. -/
theorem left_le {a b z : ℝ} (hab : a < b) (hbz : b ≤ z) (h : ∀ t ∈ Icc a z, q.eval t ≠ 0)
    (hf : |q.eval b| ≤ |q.eval a|) : |q.eval z| ≤ |q.eval b| := by
  rcases hbz.eq_or_lt with rfl | hbz
  · exact le_rfl
  have hc := logConcave hs h
  have h1 := hc.slope_anti_adjacent (left_mem_Icc.2 (by linarith)) (right_mem_Icc.2 (by linarith)) hab hbz
  have pa := abs_pos.2 (h a ⟨le_rfl, by linarith⟩)
  have pb := abs_pos.2 (h b ⟨by linarith, by linarith⟩)
  have pz := abs_pos.2 (h z ⟨by linarith, le_rfl⟩)
  have h2 : Real.log (q.eval b) ≤ Real.log (q.eval a) := by
    rw [← Real.log_abs, ← Real.log_abs (q.eval a)]; exact Real.log_le_log pb hf
  have h3 : (Real.log (q.eval b) - Real.log (q.eval a)) / (b - a) ≤ 0 :=
    div_nonpos_of_nonpos_of_nonneg (by linarith) (by linarith)
  have h4 : Real.log (q.eval z) - Real.log (q.eval b) ≤ 0 := by
    by_contra h5
    have : 0 < (Real.log (q.eval z) - Real.log (q.eval b)) / (z - b) :=
      div_pos (by linarith) (by linarith)
    linarith
  rw [← Real.log_le_log_iff pz pb, Real.log_abs, Real.log_abs]; linarith

/-- at most as far from `b` as `a` is: `f(z) f(a) ≤ f(b)²` or `f(z) ≤ f(b)`. -/
theorem left_sq {a b z : ℝ} (hab : a < b) (hbz : b ≤ z) (hz : z - b ≤ b - a)
    (h : ∀ t ∈ Icc a z, q.eval t ≠ 0) {U : ℝ} (hU : |q.eval b| ≤ U)
    (hU2 : |q.eval b| ^ 2 ≤ U * |q.eval a|) : |q.eval z| ≤ U := by
  by_cases hf : |q.eval b| ≤ |q.eval a|
  · exact (left_le hs hab hbz h hf).trans hU
  rcases hbz.eq_or_lt with rfl | hbz
  · exact hU
  have hc := logConcave hs h
  have h1 := hc.slope_anti_adjacent (left_mem_Icc.2 (by linarith)) (right_mem_Icc.2 (by linarith)) hab hbz
  have pa := abs_pos.2 (h a ⟨le_rfl, by linarith⟩)
  have pb := abs_pos.2 (h b ⟨by linarith, by linarith⟩)
  have pz := abs_pos.2 (h z ⟨by linarith, le_rfl⟩)
  have h2 : Real.log (q.eval a) ≤ Real.log (q.eval b) := by
    rw [← Real.log_abs, ← Real.log_abs (q.eval b)]; exact Real.log_le_log pa (not_le.1 hf).le
  have h3 : Real.log (q.eval z) - Real.log (q.eval b) ≤ Real.log (q.eval b) - Real.log (q.eval a) := by
    rw [div_le_div_iff₀ (by linarith) (by linarith)] at h1
    have : (Real.log (q.eval b) - Real.log (q.eval a)) * (z - b)
        ≤ (Real.log (q.eval b) - Real.log (q.eval a)) * (b - a) :=
      mul_le_mul_of_nonneg_left hz (by linarith)
    nlinarith
  have h4 : |q.eval z| * |q.eval a| ≤ |q.eval b| ^ 2 := by
    rw [← Real.log_le_log_iff (by positivity) (by positivity), Real.log_mul pz.ne' pa.ne', Real.log_pow,
      Real.log_abs, Real.log_abs, Real.log_abs]
    push_cast; linarith
  exact le_of_mul_le_mul_right (h4.trans hU2) pa

/-- mirror image of `left_le`. -/
theorem right_le {c d z : ℝ} (hcd : c < d) (hzc : z ≤ c) (h : ∀ t ∈ Icc z d, q.eval t ≠ 0)
    (hf : |q.eval c| ≤ |q.eval d|) : |q.eval z| ≤ |q.eval c| := by
  rcases hzc.eq_or_lt with rfl | hzc
  · exact le_rfl
  have hc := logConcave hs h
  have h1 := hc.slope_anti_adjacent (left_mem_Icc.2 (by linarith)) (right_mem_Icc.2 (by linarith)) hzc hcd
  have pd := abs_pos.2 (h d ⟨by linarith, le_rfl⟩)
  have pc := abs_pos.2 (h c ⟨by linarith, by linarith⟩)
  have pz := abs_pos.2 (h z ⟨le_rfl, by linarith⟩)
  have h2 : Real.log (q.eval c) ≤ Real.log (q.eval d) := by
    rw [← Real.log_abs, ← Real.log_abs (q.eval d)]; exact Real.log_le_log pc hf
  have h3 : 0 ≤ (Real.log (q.eval d) - Real.log (q.eval c)) / (d - c) :=
    div_nonneg (by linarith) (by linarith)
  have h4 : 0 ≤ Real.log (q.eval c) - Real.log (q.eval z) := by
    by_contra h5
    have : (Real.log (q.eval c) - Real.log (q.eval z)) / (c - z) < 0 :=
      div_neg_of_neg_of_pos (by linarith) (by linarith)
    linarith
  rw [← Real.log_le_log_iff pz pc, Real.log_abs, Real.log_abs]; linarith

/-- mirror image of `left_sq`. -/
theorem right_sq {c d z : ℝ} (hcd : c < d) (hzc : z ≤ c) (hz : c - z ≤ d - c)
    (h : ∀ t ∈ Icc z d, q.eval t ≠ 0) {U : ℝ} (hU : |q.eval c| ≤ U)
    (hU2 : |q.eval c| ^ 2 ≤ U * |q.eval d|) : |q.eval z| ≤ U := by
  by_cases hf : |q.eval c| ≤ |q.eval d|
  · exact (right_le hs hcd hzc h hf).trans hU
  rcases hzc.eq_or_lt with rfl | hzc
  · exact hU
  have hc := logConcave hs h
  have h1 := hc.slope_anti_adjacent (left_mem_Icc.2 (by linarith)) (right_mem_Icc.2 (by linarith)) hzc hcd
  have pd := abs_pos.2 (h d ⟨by linarith, le_rfl⟩)
  have pc := abs_pos.2 (h c ⟨by linarith, by linarith⟩)
  have pz := abs_pos.2 (h z ⟨le_rfl, by linarith⟩)
  have h2 : Real.log (q.eval d) ≤ Real.log (q.eval c) := by
    rw [← Real.log_abs, ← Real.log_abs (q.eval c)]; exact Real.log_le_log pd (not_le.1 hf).le
  have h3 : Real.log (q.eval z) - Real.log (q.eval c) ≤ Real.log (q.eval c) - Real.log (q.eval d) := by
    rw [div_le_div_iff₀ (by linarith) (by linarith)] at h1
    have : (Real.log (q.eval c) - Real.log (q.eval d)) * (c - z)
        ≤ (Real.log (q.eval c) - Real.log (q.eval d)) * (d - c) :=
      mul_le_mul_of_nonneg_left hz (by linarith)
    nlinarith
  have h4 : |q.eval z| * |q.eval d| ≤ |q.eval c| ^ 2 := by
    rw [← Real.log_le_log_iff (by positivity) (by positivity), Real.log_mul pz.ne' pd.ne', Real.log_pow,
      Real.log_abs, Real.log_abs, Real.log_abs]
    push_cast; linarith
  exact le_of_mul_le_mul_right (h4.trans hU2) pd

end

/-! ### sign changes -/

/-- what is known of the interval between two consecutive points. -/
def Between (q : ℝ[X]) (x y : ℝ) : Prop :=
  x < y ∧ ((0 < q.eval x * q.eval y ∧ ∀ t ∈ Icc x y, q.eval t ≠ 0) ∨
    (q.eval x * q.eval y < 0 ∧ ∃ r ∈ Ioo x y, q.eval r = 0 ∧ ∀ t ∈ Icc x y, q.eval t = 0 → t = r))

open Classical in
/-- number of sign changes along `x :: l`. -/
noncomputable def changes (q : ℝ[X]) : ℝ → List ℝ → ℕ
  | _, [] => 0
  | x, y :: l => (if q.eval x * q.eval y < 0 then 1 else 0) + changes q y l

open Classical in
theorem locate_aux {q : ℝ[X]} (hq : q ≠ 0) : ∀ (l : List ℝ) (x : ℝ),
    (x :: l).IsChain (· < ·) → (∀ y ∈ x :: l, q.eval y ≠ 0) →
    changes q x l ≤ (q.roots.toFinset.filter (x < ·)).card ∧
    ((q.roots.toFinset.filter (x < ·)).card ≤ changes q x l → (x :: l).IsChain (Between q))
  | [], x, _, _ => ⟨by simp [changes], fun _ => by simp⟩
  | y :: l, x, hc, hne => by
    have hxy : x < y := (List.isChain_cons_cons.1 hc).1
    obtain ⟨ih1, ih2⟩ := locate_aux hq l y (List.isChain_cons_cons.1 hc).2
      fun z hz => hne z (List.mem_cons_of_mem _ hz)
    have hy := hne y (by simp)
    have hx := hne x (by simp)
    have hmem : ∀ t, t ∈ q.roots.toFinset ↔ q.eval t = 0 := fun t => by
      rw [Multiset.mem_toFinset, mem_roots hq]; rfl
    have hsplit : q.roots.toFinset.filter (x < ·)
        = q.roots.toFinset.filter (fun t => t ∈ Ioo x y) ∪ q.roots.toFinset.filter (y < ·) := by
      ext t
      simp only [Finset.mem_filter, Finset.mem_union, hmem, mem_Ioo]
      constructor
      · rintro ⟨h1, h2⟩
        rcases lt_trichotomy t y with h3 | h3 | h3
        · exact Or.inl ⟨h1, h2, h3⟩
        · exact absurd (h3 ▸ h1) hy
        · exact Or.inr ⟨h1, h3⟩
      · rintro (⟨h1, h2, h3⟩ | ⟨h1, h2⟩)
        · exact ⟨h1, h2⟩
        · exact ⟨h1, hxy.trans h2⟩
    have hdisj : Disjoint (q.roots.toFinset.filter (fun t => t ∈ Ioo x y))
        (q.roots.toFinset.filter (y < ·)) := by
      rw [Finset.disjoint_filter]
      intro t _ h1 h2
      exact absurd h1.2 (not_lt.2 h2.le)
    have hcard := Finset.card_union_of_disjoint hdisj
    rw [← hsplit] at hcard
    have hz : q.eval x * q.eval y < 0 → ∃ r ∈ Ioo x y, q.eval r = 0 := by
      intro hneg
      have hcont : ContinuousOn (fun t => q.eval t) (Icc x y) := q.continuous.continuousOn
      rcases mul_neg_iff.1 hneg with ⟨h1, h2⟩ | ⟨h1, h2⟩
      · have := intermediate_value_Ioo' hxy.le hcont (show (0 : ℝ) ∈ Ioo _ _ from ⟨h2, h1⟩)
        obtain ⟨r, hr, e⟩ := this
        exact ⟨r, hr, e⟩
      · have := intermediate_value_Ioo hxy.le hcont (show (0 : ℝ) ∈ Ioo _ _ from ⟨h1, h2⟩)
        obtain ⟨r, hr, e⟩ := this
        exact ⟨r, hr, e⟩
    have hge : (if q.eval x * q.eval y < 0 then 1 else 0)
        ≤ (q.roots.toFinset.filter (fun t => t ∈ Ioo x y)).card := by
      split_ifs with h
      · obtain ⟨r, hr, e⟩ := hz h
        exact Finset.card_pos.2 ⟨r, by simp only [Finset.mem_filter, hmem]; exact ⟨e, hr⟩⟩
      · exact Nat.zero_le _
    simp only [changes]
    refine ⟨by omega, fun hle => List.isChain_cons_cons.2 ⟨⟨hxy, ?_⟩, ih2 (by omega)⟩⟩
    have heq : (q.roots.toFinset.filter (fun t => t ∈ Ioo x y)).card
        ≤ (if q.eval x * q.eval y < 0 then 1 else 0) := by omega
    by_cases hneg : q.eval x * q.eval y < 0
    · right
      rw [if_pos hneg] at heq
      obtain ⟨r, hr, e⟩ := hz hneg
      refine ⟨hneg, r, hr, e, fun t ht et => ?_⟩
      have htx : t ≠ x := fun h => hx (h ▸ et)
      have hty : t ≠ y := fun h => hy (h ▸ et)
      refine Finset.card_le_one.1 heq t ?_ r ?_
      · simp only [Finset.mem_filter, hmem]
        exact ⟨et, lt_of_le_of_ne ht.1 htx.symm, lt_of_le_of_ne ht.2 hty⟩
      · simp only [Finset.mem_filter, hmem]; exact ⟨e, hr⟩
    · left
      rw [if_neg hneg] at heq
      refine ⟨lt_of_le_of_ne (not_lt.1 hneg) (mul_ne_zero hx hy).symm, fun t ht et => ?_⟩
      have htx : t ≠ x := fun h => hx (h ▸ et)
      have hty : t ≠ y := fun h => hy (h ▸ et)
      have : t ∈ q.roots.toFinset.filter (fun t => t ∈ Ioo x y) := by
        simp only [Finset.mem_filter, hmem]
        exact ⟨et, lt_of_le_of_ne ht.1 htx.symm, lt_of_le_of_ne ht.2 hty⟩
      have := Finset.card_pos.2 ⟨t, this⟩
      omega

/-- a polynomial of degree at most `m` with `m` sign changes: all roots are real, and each is
located. -/
theorem locate {q : ℝ[X]} {m : ℕ} (hdeg : q.natDegree ≤ m) (l : List ℝ) (x : ℝ)
    (hc : (x :: l).IsChain (· < ·)) (hne : ∀ y ∈ x :: l, q.eval y ≠ 0) (hm : changes q x l = m) :
    Multiset.card q.roots = q.natDegree ∧ (x :: l).IsChain (Between q) := by
  have hq : q ≠ 0 := by rintro rfl; exact hne x (by simp) (by simp)
  obtain ⟨h1, h2⟩ := locate_aux hq l x hc hne
  have h3 : (q.roots.toFinset.filter (x < ·)).card ≤ q.roots.toFinset.card := Finset.card_filter_le _ _
  have h4 := Multiset.toFinset_card_le q.roots
  have h5 := q.card_roots'
  exact ⟨by omega, h2 (by omega)⟩

end Odes.RealRooted
