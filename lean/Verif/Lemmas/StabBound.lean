import Verif.Lemmas.StabSound
import Mathlib.Tactic.GCongr

/-!
# The bound of a formula which passes the test of Lemmas/StabCheck
-/

namespace Odes.StabCheck

open Polynomial Set RealRooted

/-! ### the second factor -/

/-- `|x - y|` -/
theorem dist_cast (x y : ℕ) : (dist x y : ℝ) = |(x : ℝ) - y| := by
  unfold dist
  rcases le_total x y with h | h
  · rw [Nat.add_eq, Nat.sub_eq, Nat.sub_eq, Nat.sub_eq_zero_of_le h, Nat.zero_add, Nat.cast_sub h,
      abs_sub_comm, abs_of_nonneg]
    have : (x : ℝ) ≤ y := by exact_mod_cast h
    linarith
  · rw [Nat.add_eq, Nat.sub_eq, Nat.sub_eq, Nat.sub_eq_zero_of_le h, Nat.add_zero, Nat.cast_sub h,
      abs_of_nonneg]
    have : (y : ℝ) ≤ x := by exact_mod_cast h
    linarith

/-- the factor of the four finishing stages, times `c_0`. -/
def wv (c0 c1 c2 c3 c4 : ℕ) (t : ℝ) : ℝ := c0 - c1 * t + c2 * t ^ 2 - c3 * t ^ 3 + c4 * t ^ 4

theorem abs5 (a b c d e : ℝ) : |a - b + c + d + e| ≤ |a| + |b| + |c| + |d| + |e| := by
  have h1 := abs_add_le (a - b + c + d) e
  have h2 := abs_add_le (a - b + c) d
  have h3 := abs_add_le (a - b) c
  have h4 := abs_sub a b
  linarith

theorem wbound_sound (D c0 c1 c2 c3 c4 b c : ℕ) (hD : 0 < D) (hbc : b ≤ c) {t : ℝ}
    (h1 : (b : ℝ) / D ≤ t) (h2 : t ≤ (c : ℝ) / D) :
    1000 * (|wv c0 c1 c2 c3 c4 t| * (2 * D) ^ 4) ≤ (wbound D c0 c1 c2 c3 c4 b c : ℝ) := by
  have hD' : (0 : ℝ) < D := by exact_mod_cast hD
  rw [div_le_iff₀ hD'] at h1
  rw [le_div_iff₀ hD'] at h2
  unfold wbound
  simp only [Nat.cast_mul, Nat.cast_add, Nat.cast_pow, dist_cast, Nat.cast_ofNat, Nat.cast_sub hbc]
  refine mul_le_mul_of_nonneg_left ?_ (by norm_num)
  set V : ℝ := 2 * D with hV
  set U : ℝ := (b : ℝ) + c with hU
  set R : ℝ := (c : ℝ) - b with hR
  set θ : ℝ := t * V - U with hθ
  have hθR : |θ| ≤ R := by rw [abs_le]; constructor <;> (simp only [hθ, hV, hU, hR]; linarith)
  have hV0 : 0 < V := by positivity
  have e : wv c0 c1 c2 c3 c4 t * V ^ 4 =
      ((c0 * V ^ 4 + c2 * U ^ 2 * V ^ 2 + c4 * U ^ 4) - (c1 * U * V ^ 3 + c3 * U ^ 3 * V))
      - θ * ((c1 * V ^ 3 + 3 * c3 * U ^ 2 * V) - (2 * c2 * U * V ^ 2 + 4 * c4 * U ^ 3))
      + θ ^ 2 * ((c2 * V ^ 2 + 6 * c4 * U ^ 2) - 3 * c3 * U * V)
      + θ ^ 3 * (4 * c4 * U - c3 * V) + θ ^ 4 * c4 := by
    have : U = t * V - θ := by rw [hθ]; ring
    rw [this]; unfold wv; ring
  have hR0 : 0 ≤ R := (abs_nonneg θ).trans hθR
  have hc4 : |(c4 : ℝ)| = c4 := abs_of_nonneg c4.cast_nonneg
  calc |wv c0 c1 c2 c3 c4 t| * V ^ 4 = |wv c0 c1 c2 c3 c4 t * V ^ 4| := by
        rw [abs_mul, abs_of_pos (show 0 < V ^ 4 by positivity)]
    _ ≤ |(c0 * V ^ 4 + c2 * U ^ 2 * V ^ 2 + c4 * U ^ 4) - (c1 * U * V ^ 3 + c3 * U ^ 3 * V)|
      + |θ| * |(c1 * V ^ 3 + 3 * c3 * U ^ 2 * V) - (2 * c2 * U * V ^ 2 + 4 * c4 * U ^ 3)|
      + |θ| ^ 2 * |(c2 * V ^ 2 + 6 * c4 * U ^ 2) - 3 * c3 * U * V|
      + |θ| ^ 3 * |4 * c4 * U - c3 * V| + |θ| ^ 4 * c4 := by
        rw [e]
        have h5 := abs5 ((c0 * V ^ 4 + c2 * U ^ 2 * V ^ 2 + c4 * U ^ 4) - (c1 * U * V ^ 3 + c3 * U ^ 3 * V))
          (θ * ((c1 * V ^ 3 + 3 * c3 * U ^ 2 * V) - (2 * c2 * U * V ^ 2 + 4 * c4 * U ^ 3)))
          (θ ^ 2 * ((c2 * V ^ 2 + 6 * c4 * U ^ 2) - 3 * c3 * U * V)) (θ ^ 3 * (4 * c4 * U - c3 * V))
          (θ ^ 4 * c4)
        simpa only [abs_mul, abs_pow, hc4] using h5
    _ ≤ _ := by gcongr

/-! ### cells -/

section
variable {q : ℝ[X]} (hs : Multiset.card q.roots = q.natDegree)

theorem _root_.Odes.RealRooted.Between.clear {x y : ℝ} (h : Between q x y) (hp : 0 < q.eval x * q.eval y) :
    ∀ t ∈ Icc x y, q.eval t ≠ 0 := by
  rcases h.2 with h | h
  · exact h.2
  · exact absurd h.1 (not_lt.2 hp.le)

theorem clear_union {x y z : ℝ} (h1 : ∀ t ∈ Icc x y, q.eval t ≠ 0) (h2 : ∀ t ∈ Icc y z, q.eval t ≠ 0) :
    ∀ t ∈ Icc x z, q.eval t ≠ 0 := fun t ht => by
  rcases le_total t y with h | h
  · exact h1 t ⟨ht.1, h⟩
  · exact h2 t ⟨h, ht.2⟩

include hs

theorem cell_change {a b c d t U : ℝ} (hab : Between q a b) (hbc : Between q b c)
    (hcd : Between q c d) (h1 : 0 < q.eval a * q.eval b) (h2 : q.eval b * q.eval c < 0)
    (h3 : 0 < q.eval c * q.eval d) (fab : |q.eval b| ≤ |q.eval a|) (fcd : |q.eval c| ≤ |q.eval d|)
    (ub : |q.eval b| ≤ U) (uc : |q.eval c| ≤ U) (ht : t ∈ Icc b c) : |q.eval t| ≤ U := by
  rcases hbc.2 with h | ⟨_, r, hr, er, hu⟩
  · exact absurd h.1 (not_lt.2 h2.le)
  rcases lt_trichotomy t r with h | h | h
  · refine (left_le hs hab.1 ht.1 (clear_union (hab.clear h1) fun s hs' e => ?_) fab).trans ub
    have := hu s ⟨hs'.1, hs'.2.trans ht.2⟩ e
    linarith [hs'.2]
  · rw [h, er, abs_zero]; exact (abs_nonneg _).trans ub
  · refine (right_le hs hcd.1 ht.2 (clear_union (y := c) (fun s hs' e => ?_) (hcd.clear h3)) fcd).trans uc
    have := hu s ⟨ht.1.trans hs'.1, hs'.2⟩ e
    linarith [hs'.1]

end

/-- the sign and the absolute value of `q` at a point. -/
theorem Rep.abs {q : ℝ[X]} {D S : ℕ} (hS : 0 < S) {v : V} (h : Rep q D S v) :
    |q.eval ((v.p : ℝ) / D)| * S = v.g := by
  have hS' : (0 : ℝ) < S := by exact_mod_cast hS
  have : |q.eval ((v.p : ℝ) / D)| * S = |q.eval ((v.p : ℝ) / D) * S| := by
    rw [abs_mul, abs_of_pos hS']
  rw [this, h]
  split_ifs <;> simp

theorem Rep.sign {q : ℝ[X]} {D S : ℕ} (hS : 0 < S) {v : V} (h : Rep q D S v) (hg : 0 < v.g) :
    if v.s then 0 < q.eval ((v.p : ℝ) / D) else q.eval ((v.p : ℝ) / D) < 0 := by
  have hS' : (0 : ℝ) < S := by exact_mod_cast hS
  have hg' : (0 : ℝ) < v.g := by exact_mod_cast hg
  unfold Rep at h
  split_ifs with hv
  · rw [if_pos hv] at h
    by_contra hn
    have := mul_nonpos_of_nonpos_of_nonneg (not_lt.1 hn) hS'.le
    linarith
  · rw [if_neg hv] at h
    by_contra hn
    have := mul_nonneg (not_lt.1 hn) hS'.le
    linarith

theorem Rep.mul_pos {q : ℝ[X]} {D S : ℕ} (hS : 0 < S) {v w : V} (hv : Rep q D S v) (hw : Rep q D S w)
    (gv : 0 < v.g) (gw : 0 < w.g) (h : Bool.xor v.s w.s = false) :
    0 < q.eval ((v.p : ℝ) / D) * q.eval ((w.p : ℝ) / D) := by
  have h1 := hv.sign hS gv
  have h2 := hw.sign hS gw
  cases ev : v.s <;> cases ew : w.s <;> rw [ev] at h1 h <;> rw [ew] at h2 h <;> simp at h h1 h2
  · exact mul_pos_of_neg_of_neg h1 h2
  · exact _root_.mul_pos h1 h2

theorem Rep.mul_neg {q : ℝ[X]} {D S : ℕ} (hS : 0 < S) {v w : V} (hv : Rep q D S v) (hw : Rep q D S w)
    (gv : 0 < v.g) (gw : 0 < w.g) (h : Bool.xor v.s w.s = true) :
    q.eval ((v.p : ℝ) / D) * q.eval ((w.p : ℝ) / D) < 0 := by
  have h1 := hv.sign hS gv
  have h2 := hw.sign hS gw
  cases ev : v.s <;> cases ew : w.s <;> rw [ev] at h1 h <;> rw [ew] at h2 h <;> simp at h h1 h2
  · exact mul_neg_of_neg_of_pos h1 h2
  · exact mul_neg_of_pos_of_neg h1 h2

/-- `|q| ≤ T/W` on the cell. -/
theorem cell_sound {q : ℝ[X]} (hs : Multiset.card q.roots = q.natDegree) {D S W T : ℕ} (hD : 0 < D)
    (hS : 0 < S) (hW : 0 < W) {a b c d : V} (ra : Rep q D S a) (rb : Rep q D S b) (rc : Rep q D S c)
    (rd : Rep q D S d) (ga : 0 < a.g) (gb : 0 < b.g) (gc : 0 < c.g) (gd : 0 < d.g)
    (hab : Between q (a.p / D) (b.p / D)) (hbc : Between q (b.p / D) (c.p / D))
    (hcd : Between q (c.p / D) (d.p / D)) (h : cell S W T a b c d = true) {t : ℝ}
    (ht : t ∈ Icc ((b.p : ℝ) / D) (c.p / D)) : |q.eval t| ≤ (T : ℝ) / W := by
  have hS' : (0 : ℝ) < S := by exact_mod_cast hS
  have hW' : (0 : ℝ) < W := by exact_mod_cast hW
  have hD' : (0 : ℝ) < D := by exact_mod_cast hD
  have aa := ra.abs hS
  have ab := rb.abs hS
  have ac := rc.abs hS
  have ad := rd.abs hS
  have cmp : ∀ {v w : V}, Rep q D S v → Rep q D S w → Nat.ble v.g w.g = true →
      |q.eval ((v.p : ℝ) / D)| ≤ |q.eval ((w.p : ℝ) / D)| := by
    intro v w hv hw hl
    have := Nat.le_of_ble_eq_true hl
    have h' : (v.g : ℝ) ≤ w.g := by exact_mod_cast this
    rw [← hv.abs hS, ← hw.abs hS] at h'
    exact le_of_mul_le_mul_right h' hS'
  have upp : ∀ {v : V}, Rep q D S v → Nat.ble (v.g * W) (S * T) = true →
      |q.eval ((v.p : ℝ) / D)| ≤ (T : ℝ) / W := by
    intro v hv hl
    have := Nat.le_of_ble_eq_true hl
    have h' : (v.g : ℝ) * W ≤ S * T := by exact_mod_cast this
    rw [← hv.abs hS] at h'
    rw [le_div_iff₀ hW']
    refine le_of_mul_le_mul_right (a := (S : ℝ)) ?_ hS'
    linarith
  have sq : ∀ {v w : V}, Rep q D S v → Rep q D S w → Nat.ble (v.g * v.g * W) (S * T * w.g) = true →
      |q.eval ((v.p : ℝ) / D)| ^ 2 ≤ (T : ℝ) / W * |q.eval ((w.p : ℝ) / D)| := by
    intro v w hv hw hl
    have := Nat.le_of_ble_eq_true hl
    have h' : (v.g : ℝ) * v.g * W ≤ S * T * w.g := by exact_mod_cast this
    rw [← hv.abs hS, ← hw.abs hS] at h'
    rw [div_mul_eq_mul_div, le_div_iff₀ hW']
    refine le_of_mul_le_mul_right (a := (S : ℝ) * S) ?_ (by positivity)
    linarith
  unfold cell at h
  cases hx : Bool.xor b.s c.s with
  | true =>
    rw [hx] at h
    simp only [cond_true, Bool.and_eq_true, Bool.not_eq_true'] at h
    obtain ⟨⟨⟨⟨⟨h1, h2⟩, h3⟩, h4⟩, h5⟩, h6⟩ := h
    exact cell_change hs hab hbc hcd (ra.mul_pos hS rb ga gb h1) (rb.mul_neg hS rc gb gc hx)
      (rc.mul_pos hS rd gc gd h2) (cmp rb ra h3) (cmp rc rd h4) (upp rb h5) (upp rc h6) ht
  | false =>
    rw [hx] at h
    simp only [cond_false, Bool.and_eq_true, Bool.not_eq_true', Bool.or_eq_true] at h
    have cbc := hbc.clear (rb.mul_pos hS rc gb gc hx)
    rcases h with ((⟨⟨h1, h2⟩, h3⟩ | ⟨⟨⟨h1, h2⟩, h3⟩, h4⟩) | ⟨⟨h1, h2⟩, h3⟩) | ⟨⟨⟨h1, h2⟩, h3⟩, h4⟩
    · have cab := hab.clear (ra.mul_pos hS rb ga gb h1)
      exact (left_le hs hab.1 ht.1 (fun s hs' => clear_union cab cbc s ⟨hs'.1, hs'.2.trans ht.2⟩)
        (cmp rb ra h2)).trans (upp rb h3)
    · have cab := hab.clear (ra.mul_pos hS rb ga gb h1)
      refine left_sq hs hab.1 ht.1 ?_ (fun s hs' => clear_union cab cbc s ⟨hs'.1, hs'.2.trans ht.2⟩)
        (upp rb h4) (sq rb ra h3)
      have h' : (c.p : ℝ) + a.p ≤ b.p + b.p := by exact_mod_cast Nat.le_of_ble_eq_true h2
      have e : (c.p : ℝ) / D - b.p / D ≤ b.p / D - a.p / D := by
        rw [← sub_div, ← sub_div]; exact div_le_div_of_nonneg_right (by linarith) hD'.le
      linarith [ht.2]
    · have ccd := hcd.clear (rc.mul_pos hS rd gc gd h1)
      exact (right_le hs hcd.1 ht.2 (fun s hs' => clear_union cbc ccd s ⟨ht.1.trans hs'.1, hs'.2⟩)
        (cmp rc rd h2)).trans (upp rc h3)
    · have ccd := hcd.clear (rc.mul_pos hS rd gc gd h1)
      refine right_sq hs hcd.1 ht.2 ?_ (fun s hs' => clear_union cbc ccd s ⟨ht.1.trans hs'.1, hs'.2⟩)
        (upp rc h4) (sq rc rd h3)
      have h' : (c.p : ℝ) + c.p ≤ d.p + b.p := by exact_mod_cast Nat.le_of_ble_eq_true h2
      have e : (c.p : ℝ) / D - b.p / D ≤ d.p / D - c.p / D := by
        rw [← sub_div, ← sub_div]; exact div_le_div_of_nonneg_right (by linarith) hD'.le
      linarith [ht.1]

theorem guard_true {b r : Bool} (h : guard b r = true) : b = true ∧ r = true := by
  cases b
  · exact absurd h (by simp [guard])
  · exact ⟨rfl, h⟩

/-- position of a value. -/
noncomputable def pt (D : ℕ) (v : V) : ℝ := (v.p : ℝ) / D

theorem sorted_sound (D : ℕ) (hD : 0 < D) : ∀ (l : List V) (x : V), sorted l x = true →
    (pt D x :: l.map (pt D)).IsChain (· < ·) ∧ ∀ v ∈ x :: l, 0 < v.g
  | [], x, h => ⟨by simp, fun v hv => by
      have : v = x := by simpa using hv
      subst this
      exact Nat.le_of_ble_eq_true h⟩
  | y :: l, x, h => by
    have hD' : (0 : ℝ) < D := by exact_mod_cast hD
    have h0 : sorted (y :: l) x = guard (Nat.blt x.p y.p) (guard (Nat.blt 0 x.g) (sorted l y)) := rfl
    rw [h0] at h
    obtain ⟨h1, h2⟩ := guard_true h
    obtain ⟨h2, h3⟩ := guard_true h2
    obtain ⟨i1, i2⟩ := sorted_sound D hD l y h3
    have e1 : x.p < y.p := Nat.le_of_ble_eq_true h1
    have e2 : 0 < x.g := Nat.le_of_ble_eq_true h2
    refine ⟨List.isChain_cons_cons.2 ⟨div_lt_div_of_pos_right (by exact_mod_cast e1) hD', i1⟩, ?_⟩
    intro v hv
    rcases List.mem_cons.1 hv with rfl | hv
    · exact e2
    · exact i2 v hv

theorem count_sound {q : ℝ[X]} {D S : ℕ} (hS : 0 < S) : ∀ (l : List V) (x : V),
    (∀ v ∈ x :: l, Rep q D S v ∧ 0 < v.g) → changes q (pt D x) (l.map (pt D)) = count l x
  | [], x, _ => rfl
  | y :: l, x, h => by
    have h0 : count (y :: l) x = bump (Bool.xor x.s y.s) (count l y) := rfl
    have ih := count_sound hS l y fun v hv => h v (List.mem_cons_of_mem _ hv)
    obtain ⟨rx, gx⟩ := h x (by simp)
    obtain ⟨ry, gy⟩ := h y (by simp)
    rw [h0, List.map_cons, changes, ih]
    cases hx : Bool.xor x.s y.s with
    | true =>
      unfold pt
      rw [if_pos (rx.mul_neg hS ry gx gy hx)]; simp [bump, Nat.add_comm]
    | false =>
      unfold pt
      rw [if_neg (not_lt.2 (rx.mul_pos hS ry gx gy hx).le)]; simp [bump]

theorem cells_sound {q : ℝ[X]} (hs : Multiset.card q.roots = q.natDegree) {D S T L : ℕ} (hD : 0 < D)
    (hS : 0 < S) (wb : ℕ → ℕ → ℕ) : ∀ (l : List V) (a b c : V),
    (∀ v ∈ a :: b :: c :: l, Rep q D S v ∧ 0 < v.g) →
    ((a :: b :: c :: l).map (pt D)).IsChain (Between q) → cells S T L wb l a b c = true →
    ∀ t : ℝ, pt D b < t → t ≤ L / D → ∃ x y : ℕ, x ≤ y ∧ (x : ℝ) / D ≤ t ∧ t ≤ (y : ℝ) / D ∧
      (0 < wb x y → |q.eval t| ≤ (T : ℝ) / wb x y)
  | [], a, b, c, _, _, h, _, _, _ => by simp [cells] at h
  | d :: l, a, b, c, hv, hc, h, t, h1, h2 => by
    have hD' : (0 : ℝ) < D := by exact_mod_cast hD
    have h0 : cells S T L wb (d :: l) a b c = Bool.rec (guard (cell S (wb b.p c.p) T a b c d)
        (cells S T L wb l b c d)) true (Nat.ble L b.p) := by
      have : cells S T L wb (d :: l) a b c = Bool.rec (kforce (wb b.p c.p) fun W =>
        guard (cell S W T a b c d) (cells S T L wb l b c d)) true (Nat.ble L b.p) := rfl
      rw [this, kforce_eq]
    rw [h0] at h
    simp only [List.map_cons, List.isChain_cons_cons] at hc
    obtain ⟨hab, hbc, hcd, hrest⟩ := hc
    cases hL : Nat.ble L b.p with
    | true =>
      have : L ≤ b.p := Nat.le_of_ble_eq_true hL
      have h3 : (L : ℝ) / D ≤ pt D b := div_le_div_of_nonneg_right (by exact_mod_cast this) hD'.le
      linarith
    | false =>
      rw [hL] at h
      obtain ⟨g1, g2⟩ := guard_true h
      rcases le_or_gt t (pt D c) with htc | htc
      · refine ⟨b.p, c.p, ?_, h1.le, htc, fun hw => ?_⟩
        · have := hbc.1
          unfold pt at this
          rw [div_lt_div_iff_of_pos_right hD'] at this
          exact_mod_cast this.le
        · obtain ⟨ra, ga⟩ := hv a (by simp)
          obtain ⟨rb, gb⟩ := hv b (by simp)
          obtain ⟨rc, gc⟩ := hv c (by simp)
          obtain ⟨rd, gd⟩ := hv d (by simp)
          exact cell_sound hs hD hS hw ra rb rc rd ga gb gc gd hab hbc hcd g1 ⟨h1.le, htc⟩
      · refine cells_sound hs hD hS wb l b c d (fun v h' => hv v (List.mem_cons_of_mem _ h')) ?_ g2 t
          htc h2
        simp only [List.map_cons, List.isChain_cons_cons]
        exact ⟨hbc, hcd, hrest⟩

theorem valsOk_sound {q : ℝ[X]} {D S m L β c0 c1 c2 c3 c4 : ℕ} (hD : 0 < D) (hS : 0 < S)
    (h0 : 0 < c0) (hdeg : q.natDegree ≤ m) (hq0 : q.eval 0 = 1)
    (hneg : ∀ s : ℝ, 0 ≤ s → 1 ≤ q.eval (-s)) (vs : List V) (hv : ∀ v ∈ vs, Rep q D S v)
    (h : valsOk D S m L β c0 c1 c2 c3 c4 vs = true) {t : ℝ} (ht0 : 0 ≤ t) (htL : t ≤ L / D) :
    (t ≤ 1 ∧ |q.eval t| * |wv c0 c1 c2 c3 c4 t| ≤ c0) ∨
      |q.eval t| * |wv c0 c1 c2 c3 c4 t| ≤ c0 * (β / 1000) := by
  have hD' : (0 : ℝ) < D := by exact_mod_cast hD
  have h0' : (0 : ℝ) < c0 := by exact_mod_cast h0
  match vs, h with
  | x :: y :: z :: l, h =>
    simp only [valsOk, Bool.and_eq_true] at h
    obtain ⟨⟨⟨⟨⟨⟨⟨⟨hx, sx⟩, sy⟩, hsort⟩, hcount⟩, hw1⟩, hw2⟩, hβ⟩, hcells⟩ := h
    obtain ⟨hch, hg⟩ := sorted_sound D hD _ _ hsort
    have hall : ∀ v ∈ x :: y :: z :: l, Rep q D S v ∧ 0 < v.g := fun v h' => ⟨hv v h', hg v h'⟩
    have hne : ∀ p ∈ pt D x :: (y :: z :: l).map (pt D), q.eval p ≠ 0 := by
      intro p hp
      rw [← List.map_cons] at hp
      obtain ⟨v, hv', rfl⟩ := List.mem_map.1 hp
      have := (hall v hv').1.abs hS
      intro e
      unfold pt at e
      rw [e, abs_zero, zero_mul] at this
      have h1 := (hall v hv').2
      have h2 : v.g = 0 := by exact_mod_cast this.symm
      omega
    have hcnt := count_sound hS (y :: z :: l) x hall
    rw [Nat.eq_of_beq_eq_true hcount] at hcnt
    obtain ⟨hs, hbet⟩ := locate hdeg _ _ hch hne hcnt
    have hy1 : pt D y ≤ 1 := by
      have : (y.p : ℝ) ≤ D := by exact_mod_cast Nat.le_of_ble_eq_true hβ
      unfold pt
      exact (div_le_one hD').2 this
    have hx0 : pt D x = 0 := by
      unfold pt; rw [Nat.eq_of_beq_eq_true hx]; simp
    rcases le_or_gt t (pt D y) with hty | hty
    · -- first cell
      refine Or.inl ⟨hty.trans hy1, ?_⟩
      have hb : Between q 0 (pt D y) := by
        have := (List.isChain_cons_cons.1 hbet).1
        rwa [hx0] at this
      have hpos : 0 < q.eval 0 * q.eval (pt D y) := by
        have := (hall x (by simp)).1.mul_pos hS (hall y (by simp)).1 (hg x (by simp)) (hg y (by simp))
          (by rw [sx, sy]; rfl)
        have e : (x.p : ℝ) / D = 0 := hx0
        rwa [e] at this
      have hclear : ∀ s ∈ Icc (-1 : ℝ) t, q.eval s ≠ 0 := by
        intro s hs'
        rcases le_total s 0 with h' | h'
        · have := hneg (-s) (by linarith)
          rw [neg_neg] at this
          intro e; rw [e] at this; linarith
        · exact hb.clear hpos s ⟨h', hs'.2.trans hty⟩
      have hq1 : |q.eval t| ≤ 1 := by
        have := left_le hs (show (-1 : ℝ) < 0 by norm_num) ht0 hclear (by
          rw [hq0]
          have := hneg 1 (by norm_num)
          rw [abs_of_pos (by linarith : (0 : ℝ) < q.eval (-1)), abs_one]; exact this)
        rwa [hq0, abs_one] at this
      have e1 : (c2 : ℝ) * t + c4 * t ^ 3 ≤ c1 := by
        have h' : (c2 : ℝ) * y.p * D ^ 2 + c4 * y.p ^ 3 ≤ c1 * D ^ 3 := by
          exact_mod_cast Nat.le_of_ble_eq_true hw1
        have h2 : (c2 : ℝ) * pt D y + c4 * pt D y ^ 3 ≤ c1 := by
          unfold pt
          rw [div_pow, mul_div_assoc', mul_div_assoc', div_add_div _ _ hD'.ne' (by positivity),
            div_le_iff₀ (by positivity)]
          nlinarith
        refine le_trans ?_ h2
        gcongr
      have e2 : (c1 : ℝ) * t + c3 * t ^ 3 ≤ 2 * c0 := by
        have h' : (c1 : ℝ) * y.p * D ^ 2 + c3 * y.p ^ 3 ≤ 2 * c0 * D ^ 3 := by
          exact_mod_cast Nat.le_of_ble_eq_true hw2
        have h2 : (c1 : ℝ) * pt D y + c3 * pt D y ^ 3 ≤ 2 * c0 := by
          unfold pt
          rw [div_pow, mul_div_assoc', mul_div_assoc', div_add_div _ _ hD'.ne' (by positivity),
            div_le_iff₀ (by positivity)]
          nlinarith
        refine le_trans ?_ h2
        gcongr
      have hw : |wv c0 c1 c2 c3 c4 t| ≤ c0 := by
        have p1 : 0 ≤ (c2 : ℝ) * t ^ 2 := by positivity
        have p2 : 0 ≤ (c4 : ℝ) * t ^ 4 := by positivity
        have p3 : 0 ≤ (c3 : ℝ) * t ^ 3 := by positivity
        have p4 : t * ((c2 : ℝ) * t + c4 * t ^ 3) ≤ t * c1 := mul_le_mul_of_nonneg_left e1 ht0
        unfold wv
        rw [abs_le]
        constructor
        · nlinarith
        · nlinarith
      calc |q.eval t| * |wv c0 c1 c2 c3 c4 t| ≤ 1 * c0 :=
            mul_le_mul hq1 hw (abs_nonneg _) (by norm_num)
        _ = c0 := one_mul _
    · refine Or.inr ?_
      obtain ⟨u, v, huv, h1, h2, h3⟩ := cells_sound hs hD hS (wbound D c0 c1 c2 c3 c4) l x y z hall
        hbet hcells t hty htL
      have hw := wbound_sound D c0 c1 c2 c3 c4 u v hD huv h1 h2
      rcases Nat.eq_zero_or_pos (wbound D c0 c1 c2 c3 c4 u v) with hz | hz
      · rw [hz, Nat.cast_zero] at hw
        have : |wv c0 c1 c2 c3 c4 t| ≤ 0 := by
          have h4 : 0 < (2 * (D : ℝ)) ^ 4 := by positivity
          by_contra hn
          have := mul_pos (not_le.1 hn) h4
          linarith
        have e : |wv c0 c1 c2 c3 c4 t| = 0 := le_antisymm this (abs_nonneg _)
        rw [e, mul_zero]
        positivity
      · have hz' : (0 : ℝ) < wbound D c0 c1 c2 c3 c4 u v := by exact_mod_cast hz
        have h4 := h3 hz
        rw [le_div_iff₀ hz'] at h4
        push_cast at h4
        have h5 : 0 < (2 * (D : ℝ)) ^ 4 := by positivity
        have h6 : |q.eval t| * (1000 * (|wv c0 c1 c2 c3 c4 t| * (2 * D) ^ 4))
            ≤ c0 * (2 * D) ^ 4 * β := (mul_le_mul_of_nonneg_left hw (abs_nonneg _)).trans h4
        have h7 : (|q.eval t| * |wv c0 c1 c2 c3 c4 t|) * (1000 * (2 * (D : ℝ)) ^ 4)
            ≤ (c0 * (β / 1000)) * (1000 * (2 * (D : ℝ)) ^ 4) := by linarith
        exact le_of_mul_le_mul_right h7 (by positivity)
  | [], h => simp [valsOk] at h
  | [_], h => simp [valsOk] at h
  | [_, _], h => simp [valsOk] at h

theorem pos_sound {z : ℤ} {k : ℕ → Bool} (h : pos z k = true) : ∃ x : ℕ, (z : ℤ) = x ∧ k x = true := by
  match z, h with
  | .ofNat x, h =>
    have h' : kforce x k = true := h
    rw [kforce_eq] at h'
    exact ⟨x, rfl, h'⟩
  | .negSucc _, h => simp [pos] at h

theorem Q_zero (mu kap : ℕ → ℝ) : ∀ j, Q mu kap 0 j = 1
  | 0 => rfl
  | 1 => by simp [Q]
  | (j + 2) => by rw [Q, Q_zero mu kap (j + 1), Q_zero mu kap j]; ring

/-- the factor of the finishing stages at `-t`. -/
def wfac (a21 a31 a32 a41 a42 a43 b1 b2 b3 b4 t : ℝ) : ℝ :=
  1 - (b1 + b2 + b3 + b4) * t
      + (a21 * b2 + (a31 + a32) * b3 + (a41 + a42 + a43) * b4) * t ^ 2
      - (a21 * a32 * b3 + a21 * a42 * b4 + (a31 + a32) * a43 * b4) * t ^ 3
      + a21 * a32 * a43 * b4 * t ^ 4

/-- the computation of `formulaStable` with another test of the values. -/
noncomputable def formG (k : ℕ → ℕ → ℕ → ℕ → ℕ → ℕ → List V → Bool) (E D : ℕ) (m : ℕ) (l : List ℤ)
    (a b : ℕ → ℤ) (pts : List ℕ) : Bool :=
  match l with
  | .ofNat M :: l =>
    wcoef E a b fun c0 c1 c2 c3 c4 =>
    kforce (Nat.pow (Nat.mul E D) m) fun S =>
    rec E (fun c => spl D c m fun e o => evals e o (k S c0 c1 c2 c3 c4) pts [])
      (m - 1) l [1] [E, M]
  | _ => false

theorem formulaStable_eq (E D m : ℕ) (l : List ℤ) (a b : ℕ → ℤ) (L β : ℕ) (pts : List ℕ) :
    formulaStable E D m l a b L β pts
      = formG (fun S c0 c1 c2 c3 c4 => valsOk D S m L β c0 c1 c2 c3 c4) E D m l a b pts := by
  match l with
  | [] => rfl
  | .ofNat M :: l => rfl
  | .negSucc _ :: _ => rfl

/-- the coefficients computed. -/
theorem formG_coefs {k : ℕ → ℕ → ℕ → ℕ → ℕ → ℕ → List V → Bool} {E D m : ℕ} (hE : 0 < E)
    (hm : 1 ≤ m) (l : List ℤ) (a b : ℕ → ℤ) (pts : List ℕ) (mu kap : ℕ → ℝ)
    (h1 : ((l.getD 0 0 : ℤ) : ℝ) / E = mu 1)
    (h2 : ∀ q < m - 1, ((l.getD (2 * q + 1) 0 : ℤ) : ℝ) / E = mu (q + 2) ∧
      ((l.getD (2 * q + 2) 0 : ℤ) : ℝ) / E = kap (q + 2))
    {a21 a31 a32 a41 a42 a43 b1 b2 b3 b4 : ℝ} (ha1 : (a 1 : ℝ) / E = a21) (ha2 : (a 2 : ℝ) / E = a31)
    (ha3 : (a 3 : ℝ) / E = a32) (ha4 : (a 4 : ℝ) / E = a41) (ha5 : (a 5 : ℝ) / E = a42)
    (ha6 : (a 6 : ℝ) / E = a43) (hb1 : (b 1 : ℝ) / E = b1) (hb2 : (b 2 : ℝ) / E = b2)
    (hb3 : (b 3 : ℝ) / E = b3) (hb4 : (b 4 : ℝ) / E = b4)
    (h : formG k E D m l a b pts = true) :
    ∃ (c : List ℕ) (c0 c1 c2 c3 c4 : ℕ), 0 < c0 ∧ c.length = m + 1 ∧
      (∀ t, ev t c = (E : ℝ) ^ m * Q mu kap t m) ∧
      (spl D c m fun e o => evals e o (k (Nat.pow (Nat.mul E D) m) c0 c1 c2 c3 c4) pts []) = true ∧
      ∀ t, wv c0 c1 c2 c3 c4 t = c0 * wfac a21 a31 a32 a41 a42 a43 b1 b2 b3 b4 t := by
  have hE' : (0 : ℝ) < E := by exact_mod_cast hE
  have hEn : (E : ℝ) ≠ 0 := hE'.ne'
  match l, h with
  | .ofNat M :: l, h =>
    have h' : wcoef E a b (fun c0 c1 c2 c3 c4 => kforce (Nat.pow (Nat.mul E D) m) fun S =>
      rec E (fun c => spl D c m fun e o => evals e o (k S c0 c1 c2 c3 c4) pts [])
      (m - 1) l [1] [E, M]) = true := h
    simp only [wcoef, kforce_eq] at h'
    obtain ⟨c1, e1, h'⟩ := pos_sound h'
    obtain ⟨c2, e2, h'⟩ := pos_sound h'
    obtain ⟨c3, e3, h'⟩ := pos_sound h'
    obtain ⟨c4, e4, h'⟩ := pos_sound h'
    have hM : (M : ℝ) = E * mu 1 := by
      rw [← h1]
      simp only [List.getD_cons_zero, Int.ofNat_eq_natCast, Int.cast_natCast]
      field_simp
    obtain ⟨c, hk, hlen, hc⟩ := rec_sound E hE mu kap _ (m - 1) 0 l [1] [E, M] (fun q hq => by
        have := h2 q hq
        simp only [List.getD_cons_succ] at this
        have e : 0 + 2 + q = q + 2 := by omega
        rw [e]; exact this) (by simp) (fun t => by simp [ev, Q])
      (fun t => by simp only [ev, Q, hM]; ring) h'
    have hm' : 0 + 1 + (m - 1) = m := by omega
    rw [hm'] at hc
    have hlen' : c.length = m + 1 := by rw [hlen]; simp only [List.length_cons, List.length_nil]; omega
    have hc0 : ((Nat.pow E 4 : ℕ) : ℝ) = (E : ℝ) ^ 4 := by
      have : Nat.pow E 4 = E ^ 4 := rfl
      rw [this]; push_cast; rfl
    have f1 : (c1 : ℝ) = (E : ℝ) ^ 4 * (b1 + b2 + b3 + b4) := by
      have : ((c1 : ℤ) : ℝ) = ((b 1 + b 2 + b 3 + b 4 : ℤ) : ℝ) * (E : ℝ) ^ 3 := by
        rw [← e1]; push_cast; ring
      rw [← hb1, ← hb2, ← hb3, ← hb4]
      push_cast at this; rw [this]; field_simp
    have f2 : (c2 : ℝ) = (E : ℝ) ^ 4 * (a21 * b2 + (a31 + a32) * b3 + (a41 + a42 + a43) * b4) := by
      have : ((c2 : ℤ) : ℝ) = ((a 1 * b 2 + (a 2 + a 3) * b 3 + (a 4 + a 5 + a 6) * b 4 : ℤ) : ℝ)
          * (E : ℝ) ^ 2 := by rw [← e2]; push_cast; ring
      rw [← hb2, ← hb3, ← hb4, ← ha1, ← ha2, ← ha3, ← ha4, ← ha5, ← ha6]
      push_cast at this; rw [this]; field_simp
    have f3 : (c3 : ℝ) = (E : ℝ) ^ 4 * (a21 * a32 * b3 + a21 * a42 * b4 + (a31 + a32) * a43 * b4) := by
      have : ((c3 : ℤ) : ℝ) = ((a 1 * a 3 * b 3 + a 1 * a 5 * b 4 + (a 2 + a 3) * a 6 * b 4 : ℤ) : ℝ)
          * (E : ℝ) := by rw [← e3]; push_cast; ring
      rw [← hb3, ← hb4, ← ha1, ← ha2, ← ha3, ← ha5, ← ha6]
      push_cast at this; rw [this]; field_simp
    have f4 : (c4 : ℝ) = (E : ℝ) ^ 4 * (a21 * a32 * a43 * b4) := by
      have : ((c4 : ℤ) : ℝ) = ((a 1 * a 3 * a 6 * b 4 : ℤ) : ℝ) := by rw [← e4]
      rw [← hb4, ← ha1, ← ha3, ← ha6]
      push_cast at this; rw [this]; field_simp
    refine ⟨c, Nat.pow E 4, c1, c2, c3, c4, ?_, hlen', hc, hk, fun t => ?_⟩
    · have : Nat.pow E 4 = E ^ 4 := rfl
      rw [this]; positivity
    · unfold wv wfac; rw [hc0, f1, f2, f3, f4]; ring
  | [], h => simp [formG] at h
  | .negSucc _ :: _, h => simp [formG] at h

/-- the numbers computed. -/
theorem formG_sound {k : ℕ → ℕ → ℕ → ℕ → ℕ → ℕ → List V → Bool} {E D m : ℕ} (hE : 0 < E) (hD : 0 < D)
    (hm : 1 ≤ m) (l : List ℤ) (a b : ℕ → ℤ) (pts : List ℕ) (mu kap : ℕ → ℝ)
    (h1 : ((l.getD 0 0 : ℤ) : ℝ) / E = mu 1)
    (h2 : ∀ q < m - 1, ((l.getD (2 * q + 1) 0 : ℤ) : ℝ) / E = mu (q + 2) ∧
      ((l.getD (2 * q + 2) 0 : ℤ) : ℝ) / E = kap (q + 2))
    {a21 a31 a32 a41 a42 a43 b1 b2 b3 b4 : ℝ} (ha1 : (a 1 : ℝ) / E = a21) (ha2 : (a 2 : ℝ) / E = a31)
    (ha3 : (a 3 : ℝ) / E = a32) (ha4 : (a 4 : ℝ) / E = a41) (ha5 : (a 5 : ℝ) / E = a42)
    (ha6 : (a 6 : ℝ) / E = a43) (hb1 : (b 1 : ℝ) / E = b1) (hb2 : (b 2 : ℝ) / E = b2)
    (hb3 : (b 3 : ℝ) / E = b3) (hb4 : (b 4 : ℝ) / E = b4)
    (h : formG k E D m l a b pts = true) :
    ∃ (q : ℝ[X]) (S c0 c1 c2 c3 c4 : ℕ) (vs : List V), 0 < S ∧ 0 < c0 ∧
      (∀ t, q.eval t = Q mu kap t m) ∧ q.natDegree ≤ m ∧ (∀ s : ℝ, 0 ≤ s → 1 ≤ q.eval (-s)) ∧
      (∀ v ∈ vs, Rep q D S v) ∧ k S c0 c1 c2 c3 c4 vs = true ∧
      ∀ t, wv c0 c1 c2 c3 c4 t = c0 * wfac a21 a31 a32 a41 a42 a43 b1 b2 b3 b4 t := by
  have hE' : (0 : ℝ) < E := by exact_mod_cast hE
  have hEn : (E : ℝ) ≠ 0 := hE'.ne'
  obtain ⟨c, c0, c1, c2, c3, c4, h0, hlen', hc, hk, hw⟩ :=
    formG_coefs hE hm l a b pts mu kap h1 h2 ha1 ha2 ha3 ha4 ha5 ha6 hb1 hb2 hb3 hb4 h
  obtain ⟨e, o, hk, hspl⟩ := spl_sound D hD c m _ hlen'.le hk
  set q : ℝ[X] := C (1 / (E : ℝ) ^ m) * pol c with hq
  have hqe : ∀ s, q.eval s = Q mu kap s m := fun s => by
    rw [hq, eval_mul, eval_C, eval_pol, hc s]; field_simp
  have hdeg : q.natDegree ≤ m := by
    refine (natDegree_C_mul_le _ _).trans ?_
    match c, hlen' with
    | d :: c, hl => exact (natDegree_pol c d).trans (by simpa using hl.le)
  obtain ⟨vs, hvs, hrep⟩ := evals_sound q D (Nat.pow (Nat.mul E D) m) e o (fun p => by
      rw [hspl p, hq, eval_mul, eval_C, eval_pol]
      have : (Nat.pow (Nat.mul E D) m : ℕ) = (E * D) ^ m := rfl
      rw [this]; push_cast
      rw [mul_pow]
      field_simp) _ pts [] (by simp) hk
  have hneg : ∀ s : ℝ, 0 ≤ s → 1 ≤ q.eval (-s) := fun s hs => by
    have h3 := ev_zero_le hs c
    rw [hc 0, Q_zero, mul_one] at h3
    rw [hq, eval_mul, eval_C, eval_pol, div_mul_eq_mul_div, one_mul, le_div_iff₀ (by positivity),
      one_mul]
    exact h3
  refine ⟨q, Nat.pow (Nat.mul E D) m, c0, c1, c2, c3, c4, vs, ?_, h0, hqe, hdeg, hneg, hrep, hvs, hw⟩
  have : Nat.pow (Nat.mul E D) m = (E * D) ^ m := rfl
  rw [this]; positivity

/-- the bound proved by the test: `l` holds the coefficients of the recurrence, `a` and `b` those
of the finishing stages, with denominator `E`. -/
theorem formulaStable_sound {E D m L β : ℕ} (hE : 0 < E) (hD : 0 < D) (hm : 1 ≤ m) (l : List ℤ)
    (a b : ℕ → ℤ) (pts : List ℕ) (mu kap : ℕ → ℝ)
    (h1 : ((l.getD 0 0 : ℤ) : ℝ) / E = mu 1)
    (h2 : ∀ q < m - 1, ((l.getD (2 * q + 1) 0 : ℤ) : ℝ) / E = mu (q + 2) ∧
      ((l.getD (2 * q + 2) 0 : ℤ) : ℝ) / E = kap (q + 2))
    {a21 a31 a32 a41 a42 a43 b1 b2 b3 b4 : ℝ} (ha1 : (a 1 : ℝ) / E = a21) (ha2 : (a 2 : ℝ) / E = a31)
    (ha3 : (a 3 : ℝ) / E = a32) (ha4 : (a 4 : ℝ) / E = a41) (ha5 : (a 5 : ℝ) / E = a42)
    (ha6 : (a 6 : ℝ) / E = a43) (hb1 : (b 1 : ℝ) / E = b1) (hb2 : (b 2 : ℝ) / E = b2)
    (hb3 : (b 3 : ℝ) / E = b3) (hb4 : (b 4 : ℝ) / E = b4)
    (h : formulaStable E D m l a b L β pts = true) {t : ℝ} (ht0 : 0 ≤ t) (htL : t ≤ L / D) :
    (t ≤ 1 ∧ |Q mu kap t m * wfac a21 a31 a32 a41 a42 a43 b1 b2 b3 b4 t| ≤ 1) ∨
      |Q mu kap t m * wfac a21 a31 a32 a41 a42 a43 b1 b2 b3 b4 t| ≤ (β : ℝ) / 1000 := by
  rw [formulaStable_eq] at h
  obtain ⟨q, S, c0, c1, c2, c3, c4, vs, hS, h0, hqe, hdeg, hneg, hrep, hvs, hwv⟩ :=
    formG_sound hE hD hm l a b pts mu kap h1 h2 ha1 ha2 ha3 ha4 ha5 ha6 hb1 hb2 hb3 hb4 h
  have hc0 : (0 : ℝ) < c0 := by exact_mod_cast h0
  have hfin := valsOk_sound hD hS h0 hdeg (by rw [hqe, Q_zero]) hneg vs hrep hvs ht0 htL
  rw [hqe, ← abs_mul, hwv, mul_left_comm, abs_mul, abs_of_pos hc0] at hfin
  rcases hfin with ⟨h3, h4⟩ | h4
  · exact Or.inl ⟨h3, le_of_mul_le_mul_left (h4.trans_eq (mul_one _).symm) hc0⟩
  · exact Or.inr (le_of_mul_le_mul_left h4 hc0)

/-- the only point is `p/D`, and there the product exceeds 1 in absolute value. -/
def valsBig (D p S c0 c1 c2 c3 c4 : ℕ) (vs : List V) : Bool :=
  match vs with
  | [v] => Nat.beq v.p p && Nat.blt (S * c0 * D ^ 4)
      (v.g * dist (c0 * D ^ 4 + c2 * p ^ 2 * D ^ 2 + c4 * p ^ 4) (c1 * p * D ^ 3 + c3 * p ^ 3 * D))
  | _ => false

/-- the test that a formula is not stable at `t = p/D`. -/
noncomputable def formulaUnstable (E D m : ℕ) (l : List ℤ) (a b : ℕ → ℤ) (p : ℕ) : Bool :=
  formG (valsBig D p) E D m l a b [p]

theorem formulaUnstable_sound {E D m p : ℕ} (hE : 0 < E) (hD : 0 < D)
    (hm : 1 ≤ m) (l : List ℤ) (a b : ℕ → ℤ) (mu kap : ℕ → ℝ)
    (h1 : ((l.getD 0 0 : ℤ) : ℝ) / E = mu 1)
    (h2 : ∀ q < m - 1, ((l.getD (2 * q + 1) 0 : ℤ) : ℝ) / E = mu (q + 2) ∧
      ((l.getD (2 * q + 2) 0 : ℤ) : ℝ) / E = kap (q + 2))
    {a21 a31 a32 a41 a42 a43 b1 b2 b3 b4 : ℝ} (ha1 : (a 1 : ℝ) / E = a21) (ha2 : (a 2 : ℝ) / E = a31)
    (ha3 : (a 3 : ℝ) / E = a32) (ha4 : (a 4 : ℝ) / E = a41) (ha5 : (a 5 : ℝ) / E = a42)
    (ha6 : (a 6 : ℝ) / E = a43) (hb1 : (b 1 : ℝ) / E = b1) (hb2 : (b 2 : ℝ) / E = b2)
    (hb3 : (b 3 : ℝ) / E = b3) (hb4 : (b 4 : ℝ) / E = b4)
    (h : formulaUnstable E D m l a b p = true) :
    1 < |Q mu kap (p / D) m * wfac a21 a31 a32 a41 a42 a43 b1 b2 b3 b4 (p / D)| := by
  obtain ⟨q, S, c0, c1, c2, c3, c4, vs, hS, h0, hqe, -, -, hrep, hvs, hwv⟩ :=
    formG_sound hE hD hm l a b [p] mu kap h1 h2 ha1 ha2 ha3 ha4 ha5 ha6 hb1 hb2 hb3 hb4 h
  have hc0 : (0 : ℝ) < c0 := by exact_mod_cast h0
  have hS' : (0 : ℝ) < S := by exact_mod_cast hS
  have hD' : (0 : ℝ) < D := by exact_mod_cast hD
  match vs, hvs with
  | [v], hvs =>
    simp only [valsBig, Bool.and_eq_true] at hvs
    obtain ⟨e1, e2⟩ := hvs
    have e1 : v.p = p := Nat.eq_of_beq_eq_true e1
    have e2 : S * c0 * D ^ 4 < v.g * dist (c0 * D ^ 4 + c2 * p ^ 2 * D ^ 2 + c4 * p ^ 4)
      (c1 * p * D ^ 3 + c3 * p ^ 3 * D) := Nat.le_of_ble_eq_true e2
    have e3 : (S : ℝ) * c0 * D ^ 4 < v.g * |(c0 * D ^ 4 + c2 * p ^ 2 * D ^ 2 + c4 * p ^ 4 : ℝ) -
      (c1 * p * D ^ 3 + c3 * p ^ 3 * D)| := by
      have := (Nat.cast_lt (α := ℝ)).2 e2
      rw [Nat.cast_mul, Nat.cast_mul, Nat.cast_mul, dist_cast] at this
      push_cast at this
      push_cast
      exact this
    have e4 : (c0 * D ^ 4 + c2 * p ^ 2 * D ^ 2 + c4 * p ^ 4 : ℝ) - (c1 * p * D ^ 3 + c3 * p ^ 3 * D)
        = D ^ 4 * wv c0 c1 c2 c3 c4 (p / D) := by
      unfold wv; field_simp; ring
    have e5 := (hrep v (by simp)).abs hS
    rw [e1, hqe] at e5
    rw [e4, ← e5, hwv, abs_mul, abs_mul, abs_of_pos hc0, abs_of_pos (by positivity : (0 : ℝ) < D ^ 4)]
      at e3
    rw [abs_mul]
    refine lt_of_mul_lt_mul_left (a := (S : ℝ) * c0 * D ^ 4) ?_ (by positivity)
    linarith
  | [], h => simp [valsBig] at h
  | _ :: _ :: _, h => simp [valsBig] at h

end Odes.StabCheck
