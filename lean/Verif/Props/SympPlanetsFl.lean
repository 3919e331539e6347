import Verif.Model.PlanetsFl
import Verif.Props.SympPlanets
import Verif.Props.SympKepler

/-!
# C126: rounding errors of the right hand side of the planetary problems
-/

namespace Odes.Symp.Test

open Odes.Mem Odes.Symp Spec.NBody

/-- `a` is `b` up to `k` roundings of relative error `e`. -/
def Rel (e : ℝ) (k : ℕ) (a b : ℝ) : Prop := ∃ θ, (1 - e) ^ k ≤ θ ∧ θ * (1 - e) ^ k ≤ 1 ∧ a = b * θ

namespace Rel

variable {e a b c d : ℝ} {k m : ℕ}

theorem mono (h0 : 0 ≤ e) (h1 : e < 1) (h : Rel e k a b) (hkm : k ≤ m) : Rel e m a b := by
  obtain ⟨θ, p1, p2, p3⟩ := h
  have p : (1 - e) ^ m ≤ (1 - e) ^ k := pow_le_pow_of_le_one (by linarith) (by linarith) hkm
  have q : 0 < (1 - e) ^ k := pow_pos (by linarith) _
  exact ⟨θ, p.trans p1, (mul_le_mul_of_nonneg_left p (by linarith)).trans p2, p3⟩

theorem trans (h1 : e < 1) (h : Rel e k a b) (h' : Rel e m b c) : Rel e (k + m) a c := by
  obtain ⟨θ, p1, p2, p3⟩ := h
  obtain ⟨θ', q1, q2, q3⟩ := h'
  have q : 0 < (1 - e) ^ k := pow_pos (by linarith) _
  have q' : 0 < (1 - e) ^ m := pow_pos (by linarith) _
  refine ⟨θ' * θ, ?_, ?_, by rw [p3, q3]; ring⟩
  · rw [pow_add, mul_comm]; exact mul_le_mul q1 p1 q.le (q'.le.trans q1)
  · rw [pow_add, show θ' * θ * ((1 - e) ^ k * (1 - e) ^ m) = (θ' * (1 - e) ^ m) * (θ * (1 - e) ^ k) by ring]
    exact mul_le_one₀ q2 (mul_nonneg (q.le.trans p1) q.le) p2

theorem mul (h1 : e < 1) (h : Rel e k a b) (h' : Rel e m c d) : Rel e (k + m) (a * c) (b * d) := by
  obtain ⟨θ, p1, p2, p3⟩ := h
  obtain ⟨θ', q1, q2, q3⟩ := h'
  refine trans h1 (b := b * c) ⟨θ, p1, p2, by rw [p3]; ring⟩ ⟨θ', q1, q2, by rw [q3]; ring⟩

theorem inv (h1 : e < 1) (h : Rel e k a b) : Rel e k a⁻¹ b⁻¹ := by
  obtain ⟨θ, p1, p2, p3⟩ := h
  have q : 0 < (1 - e) ^ k := pow_pos (by linarith) _
  have t : 0 < θ := q.trans_le p1
  refine ⟨θ⁻¹, ?_, ?_, by rw [p3, mul_inv]⟩
  · rw [le_inv_comm₀ q t, ← one_div, le_div_iff₀ q]; exact p2
  · rw [inv_mul_le_iff₀ t, mul_one]; exact p1

theorem div (h1 : e < 1) (h : Rel e k a b) (h' : Rel e m c d) : Rel e (k + m) (a / c) (b / d) := by
  rw [div_eq_mul_inv, div_eq_mul_inv]; exact h.mul h1 (h'.inv h1)

theorem sqrt (h0 : 0 ≤ e) (h1 : e < 1) (hb : 0 ≤ b) (h : Rel e k a b) : Rel e k √a √b := by
  obtain ⟨θ, p1, p2, p3⟩ := h
  have q : 0 < (1 - e) ^ k := pow_pos (by linarith) _
  have q1 : (1 - e) ^ k ≤ 1 := pow_le_one₀ (by linarith) (by linarith)
  have t : 0 < θ := q.trans_le p1
  refine ⟨√θ, ?_, ?_, by rw [p3, Real.sqrt_mul hb]⟩
  · refine Real.le_sqrt_of_sq_le (le_trans ?_ p1); nlinarith
  · have s : √θ * √((1 - e) ^ k) ≤ 1 := by
      rw [← Real.sqrt_mul t.le]; exact Real.sqrt_le_one.2 p2
    refine le_trans (mul_le_mul_of_nonneg_left ?_ (Real.sqrt_nonneg _)) s
    refine Real.le_sqrt_of_sq_le ?_; nlinarith

/-- sums of numbers of one sign -/
theorem add (hb : 0 ≤ b) (hd : 0 ≤ d) (h : Rel e k a b) (h' : Rel e k c d) : Rel e k (a + c) (b + d) := by
  obtain ⟨θ, p1, p2, p3⟩ := h
  obtain ⟨θ', q1, q2, q3⟩ := h'
  rcases (add_nonneg hb hd).eq_or_lt with h0 | h0
  · have : b = 0 := by linarith
    have : d = 0 := by linarith
    exact ⟨θ, p1, p2, by rw [p3, q3, ‹b = 0›, ‹d = 0›]; ring⟩
  · refine ⟨(b * θ + d * θ') / (b + d), ?_, ?_, ?_⟩
    · rw [le_div_iff₀ h0]; nlinarith [mul_le_mul_of_nonneg_left p1 hb, mul_le_mul_of_nonneg_left q1 hd]
    · rw [div_mul_eq_mul_div, div_le_one h0]; nlinarith [mul_le_mul_of_nonneg_left p2 hb, mul_le_mul_of_nonneg_left q2 hd]
    · rw [mul_div_cancel₀ _ h0.ne', p3, q3]

theorem near (h1 : e < 1) (h : Rel e k a b) : |a - b| ≤ (((1 - e) ^ k)⁻¹ - 1) * |b| := by
  obtain ⟨θ, p1, p2, p3⟩ := h
  have q : 0 < (1 - e) ^ k := pow_pos (by linarith) _
  generalize (1 - e) ^ k = x at *
  have u : θ ≤ x⁻¹ := by rw [← one_div, le_div_iff₀ q]; exact p2
  have v : 2 ≤ x + x⁻¹ := by
    have : x * x⁻¹ = 1 := mul_inv_cancel₀ q.ne'
    nlinarith [sq_nonneg (x - 1), sq_nonneg (x⁻¹ - 1), inv_pos.2 q, sq_nonneg (x - x⁻¹)]
  rw [p3, show b * θ - b = (θ - 1) * b by ring, abs_mul]
  refine mul_le_mul_of_nonneg_right (abs_le.2 ⟨by linarith, by linarith⟩) (abs_nonneg _)

end Rel

variable {F : FP}

theorem rel_rnd (z : ℝ) : Rel F.eps 1 (F.rnd z) z := by
  have e0 := F.eps_pos
  have e1 := F.eps_le
  have h := F.err z
  rcases eq_or_ne z 0 with rfl | hz
  · refine ⟨1, by rw [pow_one]; linarith, by rw [pow_one]; linarith, ?_⟩
    simpa using h
  · refine ⟨F.rnd z / z, ?_, ?_, by field_simp⟩
    all_goals
      have ha : |F.rnd z / z - 1| ≤ F.eps := by
        rw [show F.rnd z / z - 1 = (F.rnd z - z) / z by field_simp, abs_div, div_le_iff₀ (abs_pos.2 hz)]; exact h
      have := abs_le.1 ha
      rw [pow_one]
    · linarith
    · nlinarith

theorem eps_1024 (hp : 10 ≤ F.p) : F.eps ≤ 1 / 1024 := by
  unfold FP.eps
  refine one_div_le_one_div_of_le (by norm_num) ?_
  calc (1024 : ℝ) = 2 ^ 10 := by norm_num
    _ ≤ 2 ^ F.p := pow_le_pow_right₀ (by norm_num) hp

/-- two units in the last place of error, a function of the library -/
theorem rel_pow {a b : ℝ} (hp : 10 ≤ F.p) (hb : 0 ≤ b) (h : |a - b| ≤ 2 * F.eps * b) : Rel F.eps 3 a b := by
  have e0 := F.eps_pos
  have e1 : F.eps ≤ 1 / 4 := by
    have := eps_1024 hp; linarith
  rcases hb.eq_or_lt with h0 | h0
  · subst h0
    refine ⟨1, pow_le_one₀ (by linarith) (by linarith), by rw [one_mul]; exact pow_le_one₀ (by linarith) (by linarith), ?_⟩
    simpa using h
  · have ha : |a / b - 1| ≤ 2 * F.eps := by
      rw [show a / b - 1 = (a - b) / b by field_simp, abs_div, abs_of_pos h0, div_le_iff₀ h0]; exact h
    have := abs_le.1 ha
    generalize F.eps = x at *
    have c1 : (1 - x) ^ 3 ≤ 1 - 2 * x := by nlinarith [mul_nonneg e0.le e0.le, mul_nonneg (mul_nonneg e0.le e0.le) e0.le]
    have c2 : (1 + 2 * x) * (1 - x) ^ 3 ≤ 1 := by
      have : (1 - x) ^ 3 ≤ 1 - 3 * x + 3 * x ^ 2 := by nlinarith [mul_nonneg (mul_nonneg e0.le e0.le) e0.le]
      nlinarith [mul_nonneg (mul_nonneg e0.le e0.le) e0.le, mul_nonneg e0.le e0.le]
    refine ⟨a / b, by linarith, le_trans (mul_le_mul_of_nonneg_right (by linarith) (pow_nonneg (by linarith) 3)) c2, by field_simp⟩

/-- a sum in floating point arithmetic, in the order of a list -/
theorem fold_near {ι : Type*} {t : ι → ℝ} {T : ι → F.T} {k : ℕ} (l : List ι) : ∀ {acc : F.T} {S A : ℝ} {K : ℕ}, k ≤ K → |S| ≤ A →
    |acc.1 - S| ≤ (((1 - F.eps) ^ K)⁻¹ - 1) * A → (∀ j ∈ l, Rel F.eps k (T j).1 (t j)) →
    |(l.foldl (fun a j => a + T j) acc).1 - (S + (l.map t).sum)| ≤
      (((1 - F.eps) ^ (K + l.length))⁻¹ - 1) * (A + (l.map fun j => |t j|).sum) ∧
    |S + (l.map t).sum| ≤ A + (l.map fun j => |t j|).sum := by
  have e0 := F.eps_pos
  have e1 := F.eps_le
  induction l with
  | nil => intro acc S A K hk hS hA _; simpa using ⟨hA, hS⟩
  | cons j l ih =>
    intro acc S A K hk hS hA hT
    have hj := (hT j (by simp)).mono e0.le (by linarith) hk |>.near (by linarith)
    have hSA : |S + t j| ≤ A + |t j| := (abs_add_le _ _).trans (by linarith)
    have key : |(acc + T j).1 - (S + t j)| ≤ (((1 - F.eps) ^ (K + 1))⁻¹ - 1) * (A + |t j|) := by
      have hr := F.err (acc.1 + (T j).1)
      have hq : 0 < (1 - F.eps) ^ K := pow_pos (by linarith) _
      obtain ⟨q, eq⟩ : ∃ q, q = ((1 - F.eps) ^ K)⁻¹ := ⟨_, rfl⟩
      rw [← eq] at hA hj
      have q0 : 0 < q := by rw [eq]; exact inv_pos.2 hq
      have hA0 : 0 ≤ A + |t j| := (abs_nonneg _).trans hSA
      have s1 : |acc.1 + (T j).1 - (S + t j)| ≤ (q - 1) * (A + |t j|) := by
        rw [show acc.1 + (T j).1 - (S + t j) = (acc.1 - S) + ((T j).1 - t j) by ring]
        refine (abs_add_le _ _).trans ?_; linarith
      have s2 : |acc.1 + (T j).1| ≤ q * (A + |t j|) := by
        have := abs_sub_abs_le_abs_sub (acc.1 + (T j).1) (S + t j)
        nlinarith
      have s3 : (1 + F.eps) * q ≤ ((1 - F.eps) ^ (K + 1))⁻¹ := by
        rw [pow_succ, mul_inv, ← eq, mul_comm]
        refine mul_le_mul_of_nonneg_left ?_ q0.le
        rw [← one_div, le_div_iff₀ (by linarith)]; nlinarith
      rw [FP.add_val, show F.rnd (acc.1 + (T j).1) - (S + t j) =
        (F.rnd (acc.1 + (T j).1) - (acc.1 + (T j).1)) + (acc.1 + (T j).1 - (S + t j)) by ring]
      refine (abs_add_le _ _).trans ?_
      have s4 := mul_le_mul_of_nonneg_left s2 e0.le
      have s5 := mul_le_mul_of_nonneg_right s3 hA0
      nlinarith
    have := ih (K := K + 1) (by omega) hSA key fun i hi => hT i (by simp [hi])
    simp only [List.foldl_cons, List.map_cons, List.sum_cons, List.length_cons, ← add_assoc] at this ⊢
    rw [show K + l.length + 1 = K + 1 + l.length by omega]
    exact this

theorem inv_pow_le {e : ℝ} {k : ℕ} (h0 : 0 ≤ e) (hk : k * e ≤ 1 / 2) (h1 : e ≤ 1) : ((1 - e) ^ k)⁻¹ - 1 ≤ 2 * k * e := by
  have b : 1 - k * e ≤ (1 - e) ^ k := by
    have := one_add_mul_le_pow (a := -e) (by linarith) k
    calc 1 - k * e = 1 + k * -e := by ring
      _ ≤ (1 + -e) ^ k := this
      _ = (1 - e) ^ k := by ring
  have hb : 0 < 1 - k * e := by linarith
  have h2 : ((1 - e) ^ k)⁻¹ ≤ (1 - k * e)⁻¹ := inv_anti₀ hb b
  have h3 : (1 - k * e)⁻¹ ≤ 1 + 2 * (k * e) := by
    have : 0 ≤ k * e := by positivity
    rw [inv_le_comm₀ hb (by linarith), ← one_div, div_le_iff₀ (by linarith)]; nlinarith
  linarith

variable {P : Planets}

/-- `c` has the masses and the constant of `P`; the functions of the library are exact to one unit in the last place. -/
structure Computes (c : PlanetsFl F P.nb) : Prop where
  mass : ∀ i, (c.masses i).1 = Test.mass P i
  G : c.G.1 = P.G
  pow2 : ∀ x : F.T, |(c.pow2 x).1 - x.1 ^ 2| ≤ 2 * F.eps * x.1 ^ 2
  pow3 : PowOk c.pow3

theorem posF_val {N : ℕ} (y : Fin (6 * N) → F.T) (i : Fin N) (s : Fin 3) : (posF y i s).1 = posOf (val y) i s := rfl

theorem momF_val {N : ℕ} (y : Fin (6 * N) → F.T) (i : Fin N) (s : Fin 3) : (momF y i s).1 = momOf (val y) i s := rfl

variable {c : PlanetsFl F P.nb}

theorem diff2_rel (hp : 10 ≤ F.p) (hc : Computes c) (y : Fin (6 * P.nb) → F.T) (k l : Fin P.nb) :
    Rel F.eps 8 (diff2Fl c y k l).1 (dist2 (posOf (val y) k) (posOf (val y) l)) := by
  have e0 := F.eps_pos
  have e1 := eps_1024 hp
  have e2 : F.eps < 1 := by linarith
  have sq : ∀ s, Rel F.eps 5 (c.pow2 (posF y k s - posF y l s)).1 ((posOf (val y) k s - posOf (val y) l s) ^ 2) := fun s => by
    have d : Rel F.eps 1 (posF y k s - posF y l s).1 (posOf (val y) k s - posOf (val y) l s) := rel_rnd _
    have := d.mul e2 d
    rw [← sq, ← sq] at this
    exact (rel_pow hp (sq_nonneg _) (hc.pow2 _)).trans e2 this
  have a0 : Rel F.eps 6 ((0 : F.T) + c.pow2 (posF y k 0 - posF y l 0)).1 ((posOf (val y) k 0 - posOf (val y) l 0) ^ 2) := by
    rw [FP.add_val, FP.zero_val, zero_add]; exact (rel_rnd _).trans e2 (sq 0)
  have a1 : Rel F.eps 7 ((0 : F.T) + c.pow2 (posF y k 0 - posF y l 0) + c.pow2 (posF y k 1 - posF y l 1)).1
      ((posOf (val y) k 0 - posOf (val y) l 0) ^ 2 + (posOf (val y) k 1 - posOf (val y) l 1) ^ 2) := by
    rw [FP.add_val]
    exact (rel_rnd _).trans e2 (a0.add (sq_nonneg _) (sq_nonneg _) ((sq 1).mono e0.le e2 (by norm_num)))
  have a2 : Rel F.eps 8 ((0 : F.T) + c.pow2 (posF y k 0 - posF y l 0) + c.pow2 (posF y k 1 - posF y l 1) +
      c.pow2 (posF y k 2 - posF y l 2)).1
      ((posOf (val y) k 0 - posOf (val y) l 0) ^ 2 + (posOf (val y) k 1 - posOf (val y) l 1) ^ 2 +
        (posOf (val y) k 2 - posOf (val y) l 2) ^ 2) := by
    rw [FP.add_val]
    exact (rel_rnd _).trans e2 (a1.add (by positivity) (sq_nonneg _) ((sq 2).mono e0.le e2 (by norm_num)))
  rw [dist2, Fin.sum_univ_three]
  exact a2

theorem cube_rel (hp : 10 ≤ F.p) (hc : Computes c) (y : Fin (6 * P.nb) → F.T) (k l : Fin P.nb) :
    Rel F.eps 30 (cubeFl c y k l).1 (sep (val y) k l ^ 3) := by
  have e0 := F.eps_pos
  have e1 := eps_1024 hp
  have e2 : F.eps < 1 := by linarith
  have r : Rel F.eps 9 (F.rnd √(diff2Fl c y k l).1) (sep (val y) k l) :=
    (rel_rnd _).trans e2 ((diff2_rel hp hc y k l).sqrt e0.le e2 (Finset.sum_nonneg fun _ _ => sq_nonneg _))
  have r3 : Rel F.eps 27 (F.rnd √(diff2Fl c y k l).1 ^ 3) (sep (val y) k l ^ 3) := by
    have := (r.mul e2 r).mul e2 r
    rw [← pow_two, ← pow_succ, ← pow_two, ← pow_succ] at this
    exact this
  have h0 : 0 ≤ F.rnd √(diff2Fl c y k l).1 := by
    obtain ⟨θ, t1, -, t3⟩ := r
    rw [t3]
    exact mul_nonneg (Real.sqrt_nonneg _) (le_trans (pow_nonneg (by linarith) _) t1)
  exact (rel_pow hp (pow_nonneg h0 3) (hc.pow3 ⟨_, F.rn.flt _⟩ h0)).trans e2 r3

theorem sep_comm (x : Fin (6 * P.nb) → ℝ) (i j : Fin P.nb) : sep x i j = sep x j i := by
  unfold sep dist2
  congr 1
  exact Finset.sum_congr rfl fun s _ => by ring

/-- no division by zero -/
theorem cube_ne (hp : 10 ≤ F.p) (hc : Computes c) (y : Fin (6 * P.nb) → F.T) (k l : Fin P.nb) (h0 : 0 < sep (val y) k l) :
    (cubeFl c y k l).1 ≠ 0 := by
  obtain ⟨θ, t1, -, t3⟩ := cube_rel hp hc y k l
  have := eps_1024 hp
  have : 0 < (1 - F.eps) ^ 30 := pow_pos (by linarith) _
  rw [t3]
  exact (mul_pos (pow_pos h0 3) (by linarith)).ne'

/-- the force of body `j` on body `i` -/
noncomputable def term (P : Planets) (x : Fin (6 * P.nb) → ℝ) (i : Fin P.nb) (s : Fin 3) (j : Fin P.nb) : ℝ :=
  P.G * mass P i * mass P j * ((posOf x i s - posOf x j s) / sep x i j ^ 3)

theorem term1 (hp : 10 ≤ F.p) (hc : Computes c) (y : Fin (6 * P.nb) → F.T) (i j : Fin P.nb) (s : Fin 3) (h0 : 0 < sep (val y) i j) :
    Rel F.eps 35 (term1Fl c y i j s).1 (term P (val y) i s j) := by
  rw [term1Fl, if_neg (cube_ne hp hc y i j h0)]
  have e2 : F.eps < 1 := by linarith [eps_1024 hp]
  have g : Rel F.eps 2 (c.G * c.masses i * c.masses j).1 (P.G * mass P i * mass P j) := by
    have g1 : Rel F.eps 1 (c.G * c.masses i).1 (P.G * mass P i) := by
      rw [← hc.G, ← hc.mass]; exact rel_rnd _
    refine (rel_rnd _).trans e2 (m := 1) ?_
    rw [← hc.mass j]
    obtain ⟨θ, t1, t2, t3⟩ := g1
    exact ⟨θ, t1, t2, by rw [t3]; ring⟩
  have q : Rel F.eps 33 (coef1 c y i j).1 (P.G * mass P i * mass P j / sep (val y) i j ^ 3) :=
    (rel_rnd _).trans e2 (g.div e2 (cube_rel hp hc y i j))
  have d : Rel F.eps 1 (posF y i s - posF y j s).1 (posOf (val y) i s - posOf (val y) j s) := rel_rnd _
  have := (rel_rnd _).trans e2 (q.mul e2 d)
  rw [show P.G * mass P i * mass P j / sep (val y) i j ^ 3 * (posOf (val y) i s - posOf (val y) j s) = term P (val y) i s j by
    unfold term; ring] at this
  exact this

theorem term2 (hp : 10 ≤ F.p) (hc : Computes c) (y : Fin (6 * P.nb) → F.T) (i j : Fin P.nb) (s : Fin 3) (h0 : 0 < sep (val y) i j) :
    Rel F.eps 35 (term2Fl c y i j s).1 (term P (val y) i s j) := by
  rw [term2Fl, if_neg (cube_ne hp hc y j i (by rwa [sep_comm]))]
  have e2 : F.eps < 1 := by linarith [eps_1024 hp]
  have g : Rel F.eps 2 (negG c * c.masses j * c.masses i).1 (-P.G * mass P j * mass P i) := by
    have g1 : Rel F.eps 1 (negG c * c.masses j).1 (-P.G * mass P j) := by
      rw [← hc.G, ← hc.mass]; exact rel_rnd _
    refine (rel_rnd _).trans e2 (m := 1) ?_
    rw [← hc.mass i]
    obtain ⟨θ, t1, t2, t3⟩ := g1
    exact ⟨θ, t1, t2, by rw [t3]; ring⟩
  have q : Rel F.eps 33 (coef2 c y i j).1 (-P.G * mass P j * mass P i / sep (val y) j i ^ 3) :=
    (rel_rnd _).trans e2 (g.div e2 (cube_rel hp hc y j i))
  have d : Rel F.eps 1 (posF y j s - posF y i s).1 (posOf (val y) j s - posOf (val y) i s) := rel_rnd _
  have := (rel_rnd _).trans e2 (q.mul e2 d)
  rw [show -P.G * mass P j * mass P i / sep (val y) j i ^ 3 * (posOf (val y) j s - posOf (val y) i s) = term P (val y) i s j by
    unfold term; rw [sep_comm (val y) i j]; ring] at this
  exact this

theorem sum_filter {ι : Type*} (p : ι → Bool) (t : ι → ℝ) (l : List ι) :
    ((l.filter p).map t).sum = (l.map fun j => if p j then t j else 0).sum := by
  induction l with
  | nil => rfl
  | cons j l ih => by_cases h : p j <;> simp [h, ih]

theorem sum_sides {n : ℕ} (i : Fin n) (t : Fin n → ℝ) (hi : t i = 0) :
    (((List.finRange n).filter (fun j => j < i)).map t).sum + (((List.finRange n).filter (fun j => i < j)).map t).sum = ∑ j, t j := by
  rw [sum_filter, sum_filter, ← Fin.sum_univ_def, ← Fin.sum_univ_def, ← Finset.sum_add_distrib]
  refine Finset.sum_congr rfl fun j _ => ?_
  rcases lt_trichotomy j i with h | h | h
  · simp [h, h.not_gt]
  · subst h; simp [hi]
  · simp [h, h.not_gt]

theorem length_sides {n : ℕ} (i : Fin n) :
    ((List.finRange n).filter (fun j => j < i)).length + ((List.finRange n).filter (fun j => i < j)).length ≤ n := by
  have h : ∀ l : List (Fin n), (l.filter (fun j => j < i)).length + (l.filter (fun j => i < j)).length ≤ l.length := fun l => by
    induction l with
    | nil => simp
    | cons j l ih =>
      rcases lt_trichotomy j i with h | h | h
      · simp [h, h.not_gt]; omega
      · subst h; simp; omega
      · simp [h, h.not_gt]; omega
  simpa using h (List.finRange n)

theorem planets_pos {N : ℕ} (c : PlanetsFl F N) (y : Fin (6 * N) → F.T) (i : Fin N) (s : Fin 3) :
    planetsFl c y ⟨3 * i + s, by have := i.2; have := s.2; omega⟩ = dqdtFl c y i s := by
  have hlt : 3 * (i : ℕ) + s < 3 * N := by have := i.2; have := s.2; omega
  unfold planetsFl
  rw [dif_pos (show ((⟨3 * i + s, by have := i.2; have := s.2; omega⟩ : Fin (6 * N)) : ℕ) < 3 * N from hlt)]
  congr 1 <;> apply Fin.ext
  · show (3 * (i : ℕ) + s) / 3 = i
    have := s.2; omega
  · show (3 * (i : ℕ) + s) % 3 = s
    have := s.2; omega

theorem planets_mom {N : ℕ} (c : PlanetsFl F N) (y : Fin (6 * N) → F.T) (i : Fin N) (s : Fin 3) :
    planetsFl c y ⟨3 * N + (3 * i + s), by have := i.2; have := s.2; omega⟩ = dpdtFl c y i s := by
  have hlt : ¬ 3 * N + (3 * (i : ℕ) + s) < 3 * N := by omega
  unfold planetsFl
  rw [dif_neg (show ¬ ((⟨3 * N + (3 * i + s), by have := i.2; have := s.2; omega⟩ : Fin (6 * N)) : ℕ) < 3 * N from hlt)]
  congr 1 <;> apply Fin.ext
  · show (3 * N + (3 * (i : ℕ) + s) - 3 * N) / 3 = i
    have := s.2; omega
  · show (3 * N + (3 * (i : ℕ) + s) - 3 * N) % 3 = s
    have := s.2; omega

/-- C126: error of the computed right hand side. -/
theorem planets_rounding (hp : 10 ≤ F.p) (hc : Computes c) (hN : (35 + P.nb : ℕ) * F.eps ≤ 1 / 2) {μ K a M : ℝ} (hS : Sizes P μ K)
    {y : Fin (6 * P.nb) → F.T} (ha : 0 < a) (hx : Far P (a / 2) (val y)) (hM : ‖val y‖ ≤ M) :
    ‖val (planetsFl c y) - field P (val y)‖ ≤ F.eps * (M / μ + 8 * (35 + P.nb) * K / a ^ 2) := by
  have e0 := F.eps_pos
  have e1 := eps_1024 hp
  have hμ := hS.pos
  have hK := hS.one
  have hM0 : 0 ≤ M := (norm_nonneg _).trans hM
  have p1 : 0 ≤ F.eps * (M / μ) := by positivity
  have p2 : 0 ≤ F.eps * (8 * (35 + P.nb) * K / a ^ 2) := by positivity
  refine field_comp (fun i s => ?_) (fun i s => ?_) (by positivity)
  · have e : posOf (val (planetsFl c y) - field P (val y)) i s = F.rnd (-(momOf (val y) i s) / mass P i) - -(momOf (val y) i s) / mass P i := by
      have h1 : posOf (val (planetsFl c y)) i s = F.rnd (-(momOf (val y) i s) / mass P i) := by
        have hm : (c.masses i).1 ≠ 0 := by
          rw [hc.mass]; exact abs_pos.1 (hμ.trans_le (hS.mass i))
        have hd : dqdtFl c y i s = ⟨F.rnd (-(momF y i s).1 / (c.masses i).1), F.rn.flt _⟩ := if_neg hm
        have := congrArg Subtype.val ((planets_pos c y i s).trans hd)
        rw [← hc.mass]; exact this
      have h2 := posOf_field P (val y) i s
      have h3 : posOf (val (planetsFl c y) - field P (val y)) i s = posOf (val (planetsFl c y)) i s - posOf (field P (val y)) i s := rfl
      rw [h3, h1, h2]; ring
    rw [e]
    have h := F.err (-(momOf (val y) i s) / mass P i)
    rw [abs_div, abs_neg] at h
    have : |momOf (val y) i s| / |mass P i| ≤ M / μ := div_le_div₀ hM0 ((mom_le (val y) i s).trans hM) hμ (hS.mass i)
    nlinarith
  · have h1 : momOf (val (planetsFl c y)) i s = (dpdtFl c y i s).1 := congrArg Subtype.val (planets_mom c y i s)
    have h3 : momOf (val (planetsFl c y) - field P (val y)) i s = momOf (val (planetsFl c y)) i s - momOf (field P (val y)) i s := rfl
    have h2 : momOf (field P (val y)) i s = ∑ j, term P (val y) i s j := field_mom (val y) i s
    have ti : term P (val y) i s i = 0 := by unfold term; rw [sub_self, zero_div, mul_zero]
    have hsep : ∀ j, i ≠ j → 0 < sep (val y) i j := fun j hij => lt_of_lt_of_le (by positivity) (hx i j hij)
    rw [h3, h1, h2]
    obtain ⟨a1, a2⟩ := fold_near (F := F) (t := term P (val y) i s) (T := fun j => term1Fl c y i j s) (k := 35)
      ((List.finRange P.nb).filter (fun j => j < i)) (acc := 0) (S := 0) (A := 0) (K := 35) le_rfl (by simp)
      (by rw [FP.zero_val]; simp) (fun j hj => term1 hp hc y i j s (hsep j (by simp at hj; omega)))
    obtain ⟨b1, -⟩ := fold_near (F := F) (t := term P (val y) i s) (T := fun j => term2Fl c y i j s) (k := 35)
      ((List.finRange P.nb).filter (fun j => i < j)) (by omega) a2 a1 (fun j hj => term2 hp hc y i j s (hsep j (by simp at hj; omega)))
    rw [zero_add, zero_add, sum_sides i (term P (val y) i s) ti, sum_sides i (fun j => |term P (val y) i s j|) (by simp [ti])] at b1
    have hb : ∑ j, |term P (val y) i s j| ≤ K * (4 / a ^ 2) := by
      refine le_trans (Finset.sum_le_sum fun j _ => ?_) (?_ : ∑ j, |P.G * mass P i * mass P j| * (4 / a ^ 2) ≤ _)
      · rw [term, abs_mul]
        refine mul_le_mul_of_nonneg_left ?_ (abs_nonneg _)
        by_cases hij : i = j
        · subst hij; rw [sub_self, zero_div, abs_zero]; positivity
        · have := pair_le (by positivity : 0 < a / 2) (hx i j hij) (diff_le (val y) i j s)
          rwa [show 1 / (a / 2) ^ 2 = 4 / a ^ 2 by field_simp; norm_num] at this
      · rw [← Finset.sum_mul]
        exact mul_le_mul_of_nonneg_right (hS.force i) (by positivity)
    have hl : 35 + ((List.finRange P.nb).filter (fun j => j < i)).length + ((List.finRange P.nb).filter (fun j => i < j)).length ≤
        35 + P.nb := by have := length_sides i; omega
    have hq : ((1 - F.eps) ^ (35 + ((List.finRange P.nb).filter (fun j => j < i)).length +
        ((List.finRange P.nb).filter (fun j => i < j)).length))⁻¹ - 1 ≤ 2 * (35 + P.nb : ℕ) * F.eps := by
      refine le_trans (sub_le_sub_right (inv_anti₀ (pow_pos (by linarith) _) ?_) 1) (inv_pow_le e0.le hN (by linarith))
      exact pow_le_pow_of_le_one (by linarith) (by linarith) hl
    have hs : 0 ≤ ∑ j, |term P (val y) i s j| := Finset.sum_nonneg fun _ _ => abs_nonneg _
    refine b1.trans ((mul_le_mul hq hb hs (by positivity)).trans ?_)
    have : 2 * ((35 + P.nb : ℕ) : ℝ) * F.eps * (K * (4 / a ^ 2)) = F.eps * (8 * (35 + P.nb) * K / a ^ 2) := by push_cast; ring
    rw [this, mul_add]; linarith

/-- C126: **order `2s` of the program on the problem of `N` bodies**, the right hand side being computed as in Outer.hpp (without
the writes beyond the array), as long as the solution has no collision. -/
theorem planets_program_partial {t : GTab} (ht : t ∈ gaussD) {y : ℝ → Fin (6 * P.nb) → ℝ} {T a M μ K ρ L V : ℝ} (hS : Sizes P μ K)
    (hT : 0 ≤ T) (hy : SolOn (field P) y 0 T) (ha : 0 < a) (hr : ∀ t ∈ Set.Icc 0 T, Far P a (y t)) (hM : ∀ t ∈ Set.Icc 0 T, ‖y t‖ ≤ M)
    (eρ : ρ = a / 8) (eL : L = 1 / μ + 112 * K / a ^ 3) (eV : V = (M + a / 8) / μ + 4 * K / a ^ 2) :
    ∃ h0 C : ℝ, 0 < h0 ∧ 0 ≤ C ∧
      ∀ (F : FP) (_ : 10 ≤ F.p) (_ : (35 + P.nb : ℕ) * F.eps ≤ 1 / 2) (itermax : ℤ) (c : PlanetsFl F P.nb) (_ : Computes c) (η : ℝ)
        (_ : η = F.eps * ((M + ρ) / μ + 8 * (35 + P.nb) * K / a ^ 2))
        (h : F.T) (_ : 0 < h.1) (_ : h.1 ≤ h0) (_ : h.1 * L ≤ 1 / 3)
        (junk st0 : St F.T (6 * P.nb)) (_ : construct (cfgFt F t itermax (planetsFl c)) junk = some (.ok st0))
        (u0 : Fin (6 * P.nb) → F.T) (e0 : ℝ) (_ : ‖val u0 - y 0‖ ≤ e0) (G κ r : ℝ) (_ : G = (ocst F 12 t.s η L ρ h.1 M V C).G)
        (_ : κ = (ocst F 12 t.s η L ρ h.1 M V C).κ) (_ : r = (ocst F 12 t.s η L ρ h.1 M V C).r)
        (_ : Real.exp (2 * (1 + 1 / 10 ^ 11) * L * T) * (e0 + T * G) + κ + h.1 * (1 + 1 / 10 ^ 10) * (V + η) + r ≤ ρ)
        (N : ℕ) (u : Fin (6 * P.nb) → F.T) (st : St F.T (6 * P.nb)) (_ : RunF (cfgFt F t itermax (planetsFl c)) h N u0 st0 u st)
        (_ : N * h.1 ≤ T),
        ‖val u - y (N * h.1)‖ ≤ Real.exp (2 * (1 + 1 / 10 ^ 11) * L * (N * h.1)) * (e0 + N * h.1 * G) + κ := by
  obtain ⟨h0, C, p1, p2, p3⟩ := planets_order_partial ht hS hT hy ha hr hM eρ eL eV
  refine ⟨h0, C, p1, p2, ?_⟩
  intro F hp hN itermax c hc η eη h hh hh0 hhL junk st0 hst u0 e0 he0 G κ r eG eκ er hρ N u st hrun hNT
  have hM0 : 0 ≤ M := (norm_nonneg _).trans (hM 0 ⟨le_rfl, hT⟩)
  have hρ0 : 0 < ρ := by rw [eρ]; positivity
  have hη : 0 ≤ η := by
    have := F.eps_pos
    have := hS.pos
    have := hS.one
    rw [eη]; positivity
  refine p3 F hp itermax (planetsFl c) η hη (fun x t ht hx => ?_) h hh hh0 hhL junk st0 hst u0 e0 he0 G κ r eG eκ er hρ N u st hrun hNT
  rw [eη]
  refine planets_rounding hp hc hN hS ha ((hr t ht).near (by rw [← eρ]; exact hx)) ?_
  calc ‖val x‖ = ‖y t + (val x - y t)‖ := by congr 1; abel
    _ ≤ ‖y t‖ + ‖val x - y t‖ := norm_add_le _ _
    _ ≤ M + ρ := add_le_add (hM t ht) hx

/-- the squares, correctly rounded. -/
noncomputable def square {F : FP} (x : F.T) : F.T := ⟨F.rnd (x.1 ^ 2), F.rn.flt _⟩

/-- every system of floating point masses is computed by a class of this kind: `Computes` is no restriction. -/
theorem computes_exists (m : Fin P.nb → F.T) (g : F.T) (hm : ∀ i, (m i).1 = mass P i) (hg : g.1 = P.G) (bad : F.T) :
    Computes (P := P) ⟨m, g, square, cube, bad⟩ where
  mass := hm
  G := hg
  pow2 x := by
    have h := F.err (x.1 ^ 2)
    have h2 : 0 ≤ x.1 ^ 2 := sq_nonneg _
    rw [abs_of_nonneg h2] at h
    refine h.trans (mul_le_mul_of_nonneg_right ?_ h2)
    linarith [F.eps_pos]
  pow3 := cube_ok

/-- the constants of the class as floating point numbers -/
noncomputable def rounded (F : FP) (P : Planets) : Planets :=
  ⟨P.nb, ⟨P.masses.size, fun i => F.rnd (P.masses.cell i)⟩, F.rnd P.G⟩

/-- the class with these constants, the functions of the library correctly rounded -/
noncomputable def classFl (F : FP) (P : Planets) : PlanetsFl F P.nb :=
  ⟨fun i => ⟨F.rnd (mass P i), F.rn.flt _⟩, ⟨F.rnd P.G, F.rn.flt _⟩, square, cube, 0⟩

theorem classFl_computes (F : FP) (P : Planets) : Computes (P := rounded F P) (classFl F P) :=
  computes_exists (P := rounded F P) _ _ (fun _ => rfl) rfl 0

theorem rounded_sizes (hp : 10 ≤ F.p) {μ K : ℝ} (h : Sizes P μ K) : Sizes (rounded F P) (μ / 2) (2 * K) := by
  have e0 := F.eps_pos
  have e1 := eps_1024 hp
  have up : ∀ z, |F.rnd z| ≤ (1 + F.eps) * |z| := fun z => by
    have := F.err z
    have := abs_sub_abs_le_abs_sub (F.rnd z) z
    linarith
  refine ⟨by linarith [h.pos], fun i => ?_, fun i => ?_, by linarith [h.one]⟩
  · show μ / 2 ≤ |F.rnd (mass P i)|
    have h1 := h.mass i
    have h2 := F.err (mass P i)
    have h3 := abs_sub_abs_le_abs_sub (mass P i) (F.rnd (mass P i))
    rw [abs_sub_comm] at h3
    nlinarith [abs_nonneg (mass P i)]
  · show ∑ j : Fin P.nb, |F.rnd P.G * F.rnd (mass P i) * F.rnd (mass P j)| ≤ 2 * K
    refine le_trans (Finset.sum_le_sum fun j _ => ?_) (?_ : ∑ j, 2 * |P.G * mass P i * mass P j| ≤ _)
    · rw [abs_mul, abs_mul, abs_mul, abs_mul]
      have h3 : (1 + F.eps) * (1 + F.eps) * (1 + F.eps) ≤ 2 := by
        have : 1 + F.eps ≤ 5 / 4 := by linarith
        calc (1 + F.eps) * (1 + F.eps) * (1 + F.eps) ≤ 5 / 4 * (5 / 4) * (5 / 4) := by gcongr
          _ ≤ 2 := by norm_num
      calc |F.rnd P.G| * |F.rnd (mass P i)| * |F.rnd (mass P j)|
          ≤ ((1 + F.eps) * |P.G|) * ((1 + F.eps) * |mass P i|) * ((1 + F.eps) * |mass P j|) := by
            gcongr <;> exact up _
        _ = (1 + F.eps) * (1 + F.eps) * (1 + F.eps) * (|P.G| * |mass P i| * |mass P j|) := by ring
        _ ≤ 2 * (|P.G| * |mass P i| * |mass P j|) := by gcongr
    · rw [← Finset.mul_sum]; exact mul_le_mul_of_nonneg_left (h.force i) (by norm_num)

/-- C126: the hypotheses of `planets_program_partial` are met by the shipped problems, with their constants rounded, from every
floating point state near the one of `init`. -/
theorem shipped_program : ∀ q ∈ shippedPlanets, ∀ U : Buf ℝ, U.size = 6 * q.1.nb → ∀ F : FP, 10 ≤ F.p → ∃ Z : Buf ℝ,
    init q.1 q.2 U = some Z ∧ ∀ u0 : Fin (6 * (rounded F q.1).nb) → F.T, ‖val u0 - stateOf (rounded F q.1).nb Z‖ ≤ 1 / 4 →
      ∃ (T : ℝ) (y : ℝ → Fin (6 * (rounded F q.1).nb) → ℝ), 0 < T ∧ y 0 = val u0 ∧ SolOn (field (rounded F q.1)) y 0 T ∧
        Sizes (rounded F q.1) (7e-9 / 2) (2 * (1 / 100)) ∧ Computes (P := rounded F q.1) (classFl F q.1) ∧
        ∀ t ∈ Set.Icc 0 T, Far (rounded F q.1) (5 / 2 / 2) (y t) ∧ ‖y t‖ ≤ 28 := by
  intro q hq U hU F hp
  obtain ⟨h0, Z, w, e, -, hw, hf, hn, -⟩ := planets_init q hq U hU
  refine ⟨Z, e, fun u0 hu => ?_⟩
  obtain ⟨w', hw'⟩ : ∃ w' : Fin (6 * (rounded F q.1).nb) → ℝ, w' = w := ⟨w, rfl⟩
  have hwZ : w' = stateOf (rounded F q.1).nb Z := by rw [hw']; exact funext fun k => hw k
  rw [← hwZ] at hu
  have hn : ‖w'‖ ≤ 26 := by rw [hw']; exact hn
  have hf : Far (rounded F q.1) 5 w' := by rw [hw']; exact hf
  have hS := rounded_sizes (F := F) hp (shipped_ok q hq).1.sizes
  have hf' : Far (rounded F q.1) (5 / 2) (val u0) := hf.near (hu.trans (by norm_num))
  have hn' : ‖val u0‖ ≤ ‖w'‖ + 1 / 4 := by
    calc ‖val u0‖ = ‖w' + (val u0 - w')‖ := by congr 1; abel
      _ ≤ ‖w'‖ + ‖val u0 - w'‖ := norm_add_le _ _
      _ ≤ ‖w'‖ + 1 / 4 := by linarith
  obtain ⟨y, y0, hy, hb⟩ := planets_exists hS (by norm_num) hf' (hn'.trans (add_le_add_left hn _)) rfl
  exact ⟨_, y, by norm_num, y0, hy, hS, classFl_computes F q.1, fun t ht => ⟨(hb t ht).1, (hb t ht).2.trans (by norm_num)⟩⟩

end Odes.Symp.Test
