import Verif.Props.Sdirkl
import Verif.Props.Lapl1d

/-! Stability of the shipped SDIRKL methods on dissipative operators. -/

namespace Odes.Sdirkl

open Finset Matrix Spec

variable {n : ℕ}

/-- numerators of the stage values, `d = 1 - γ z`, `x = - z`. -/
noncomputable def pN (m : Meth ℝ) (x d : ℝ) : ℕ → ℝ
  | i => -x * (m.S i * d ^ i + ∑ j : Fin i, m.A i j * (pN m x d j * d ^ (i - 1 - j)))

theorem pN_eq (m : Meth ℝ) (x d : ℝ) (i : ℕ) : pN m x d i
    = -x * (m.S i * d ^ i + ∑ j ∈ range i, m.A i j * (pN m x d j * d ^ (i - 1 - j))) := by
  rw [pN, Finset.sum_range]

theorem pN_0 (m : Meth ℝ) (x d : ℝ) : pN m x d 0 = -x * (m.S 0 * d ^ 0) := by
  rw [pN_eq]
  simp only [Finset.sum_range_succ, Finset.sum_range_zero, zero_add, add_zero, add_assoc]

theorem pN_1 (m : Meth ℝ) (x d : ℝ) : pN m x d 1 = -x * (m.S 1 * d ^ 1 + m.A 1 0 * (pN m x d 0 * d ^ 0)) := by
  rw [pN_eq]
  simp only [Finset.sum_range_succ, Finset.sum_range_zero, zero_add, add_zero, add_assoc]

theorem pN_2 (m : Meth ℝ) (x d : ℝ) : pN m x d 2 = -x * (m.S 2 * d ^ 2 + m.A 2 0 * (pN m x d 0 * d ^ 1) + m.A 2 1 * (pN m x d 1 * d ^ 0)) := by
  rw [pN_eq]
  simp only [Finset.sum_range_succ, Finset.sum_range_zero, zero_add, add_zero, add_assoc]

theorem pN_3 (m : Meth ℝ) (x d : ℝ) : pN m x d 3 = -x * (m.S 3 * d ^ 3 + m.A 3 0 * (pN m x d 0 * d ^ 2) + m.A 3 1 * (pN m x d 1 * d ^ 1) + m.A 3 2 * (pN m x d 2 * d ^ 0)) := by
  rw [pN_eq]
  simp only [Finset.sum_range_succ, Finset.sum_range_zero, zero_add, add_zero, add_assoc]

theorem pN_4 (m : Meth ℝ) (x d : ℝ) : pN m x d 4 = -x * (m.S 4 * d ^ 4 + m.A 4 0 * (pN m x d 0 * d ^ 3) + m.A 4 1 * (pN m x d 1 * d ^ 2) + m.A 4 2 * (pN m x d 2 * d ^ 1) + m.A 4 3 * (pN m x d 3 * d ^ 0)) := by
  rw [pN_eq]
  simp only [Finset.sum_range_succ, Finset.sum_range_zero, zero_add, add_zero, add_assoc]

theorem stage_pN (m : Meth ℝ) (z a : ℝ) (ζ : Fin m.nstage → ℝ)
    (h : ∀ i, ζ i = z * (m.S i * a + ∑ j, fullM m i j * ζ j)) :
    ∀ (k : ℕ) (hk : k < m.nstage),
      ζ ⟨k, hk⟩ * (1 - m.A 0 0 * z) ^ (k + 1) = pN m (-z) (1 - m.A 0 0 * z) k * a := by
  intro k
  induction k using Nat.strong_induction_on with
  | _ k ih =>
    intro hk
    set d := 1 - m.A 0 0 * z with hd
    let f : ℕ → ℝ := fun j => if hj : j < m.nstage then ζ ⟨j, hj⟩ else 0
    have hf : ∀ j : Fin m.nstage, ζ j = f j := fun j => by simp [f]
    have h1 := h ⟨k, hk⟩
    have h2 : ∑ j, fullM m ⟨k, hk⟩ j * ζ j
        = ∑ j ∈ range k, m.A k j * f j + m.A 0 0 * f k := by
      rw [Finset.sum_congr rfl fun j _ => by rw [hf j]]
      exact fullM_sum m ⟨k, hk⟩ f
    have hfk : f k = ζ ⟨k, hk⟩ := by simp [f, hk]
    rw [h2, hfk] at h1
    have h3 : ζ ⟨k, hk⟩ * d = z * (m.S k * a + ∑ j ∈ range k, m.A k j * f j) := by
      rw [hd]; linear_combination h1
    have h4 : (∑ j ∈ range k, m.A k j * f j) * d ^ k
        = (∑ j ∈ range k, m.A k j * (pN m (-z) d j * d ^ (k - 1 - j))) * a := by
      rw [Finset.sum_mul, Finset.sum_mul]
      refine Finset.sum_congr rfl fun j hj => ?_
      have hjk := Finset.mem_range.1 hj
      have := ih j hjk (hjk.trans hk)
      have e : d ^ k = d ^ (j + 1) * d ^ (k - 1 - j) := by
        rw [← pow_add]; congr 1; omega
      have hfj : f j = ζ ⟨j, hjk.trans hk⟩ := by simp [f, hjk.trans hk]
      rw [e, hfj]
      linear_combination m.A k j * d ^ (k - 1 - j) * this
    rw [pN_eq, pow_succ']
    linear_combination d ^ k * h3 + z * h4

/-- sufficient condition on the numerator of the stability function. -/
theorem stable_of (m : Meth ℝ) (hγ : 0 ≤ m.A 0 0)
    (H : ∀ x, 0 ≤ x →
      |(1 + m.A 0 0 * x) ^ m.nstage + ∑ i ∈ range m.nstage,
        m.D i * (pN m x (1 + m.A 0 0 * x) i * (1 + m.A 0 0 * x) ^ (m.nstage - 1 - i))|
        ≤ (1 + m.A 0 0 * x) ^ m.nstage) :
    StableNeg (fullM m) (fun i => m.S i) (fun i => m.D i) := by
  intro z a ζ hz h
  have hp := stage_pN m z a ζ h
  have hx := H (-z) (by linarith)
  have e : 1 + m.A 0 0 * -z = 1 - m.A 0 0 * z := by ring
  rw [e] at hx
  set d := 1 - m.A 0 0 * z with hd
  have hdp : 0 < d := by nlinarith
  have hq : 0 < d ^ m.nstage := pow_pos hdp _
  have key : (a + ∑ i : Fin m.nstage, m.D i * ζ i) * d ^ m.nstage = (d ^ m.nstage + ∑ i ∈ range m.nstage,
        m.D i * (pN m (-z) d i * d ^ (m.nstage - 1 - i))) * a := by
    rw [add_mul, add_mul, Finset.sum_mul, Finset.sum_mul, Finset.sum_range, mul_comm]
    congr 1
    refine Finset.sum_congr rfl fun i _ => ?_
    have e : d ^ m.nstage = d ^ (i.1 + 1) * d ^ (m.nstage - 1 - i) := by
      rw [← pow_add]; congr 1; omega
    rw [e]
    linear_combination m.D i * d ^ (m.nstage - 1 - i.1) * hp i i.2
  set P := d ^ m.nstage + ∑ i ∈ range m.nstage,
        m.D i * (pN m (-z) d i * d ^ (m.nstage - 1 - i)) with hP
  have h5 : ((a + ∑ i : Fin m.nstage, m.D i * ζ i) * d ^ m.nstage) ^ 2 ≤ (a * d ^ m.nstage) ^ 2 := by
    rw [key, mul_pow, mul_pow, mul_comm]
    exact mul_le_mul_of_nonneg_left (sq_le_sq' (by linarith [(abs_le.1 hx).1]) (abs_le.1 hx).2)
      (sq_nonneg _)
  rw [mul_pow, mul_pow] at h5
  exact le_of_mul_le_mul_right h5 (pow_pos hq 2)

theorem stable_eulerImp : StableNeg (fullM eulerImp) (fun i => eulerImp.S i) (fun i => eulerImp.D i) := by
  refine stable_of _ (by simp [eulerImp]) fun x hx => ?_
  rw [abs_le]
  constructor <;> rw [← sub_nonneg] <;>
    simp only [Finset.sum_range_succ, Finset.sum_range_zero, eulerImp] <;>
    simp only [pN_4, pN_3, pN_2, pN_1, pN_0] <;>
    ring_nf <;> positivity

theorem stable_crN : StableNeg (fullM crN) (fun i => crN.S i) (fun i => crN.D i) := by
  refine stable_of _ (by norm_num [crN]) fun x hx => ?_
  rw [abs_le]
  constructor <;> rw [← sub_nonneg] <;>
    simp only [Finset.sum_range_succ, Finset.sum_range_zero, crN] <;>
    simp only [pN_4, pN_3, pN_2, pN_1, pN_0] <;>
    ring_nf <;> positivity

theorem stable_rkRS : StableNeg (fullM rkRS) (fun i => rkRS.S i) (fun i => rkRS.D i) := by
  refine stable_of _ (by norm_num [rkRS]) fun x hx => ?_
  rw [abs_le]
  constructor <;> rw [← sub_nonneg] <;>
    simp only [Finset.sum_range_succ, Finset.sum_range_zero, rkRS] <;>
    simp only [pN_4, pN_3, pN_2, pN_1, pN_0] <;>
    ring_nf <;> positivity

theorem stable_rkMethod2 :
    StableNeg (fullM rkMethod2) (fun i => rkMethod2.S i) (fun i => rkMethod2.D i) := by
  refine stable_of _ (by norm_num [rkMethod2]) fun x hx => ?_
  rw [abs_le]
  constructor <;> rw [← sub_nonneg] <;>
    simp only [Finset.sum_range_succ, Finset.sum_range_zero, rkMethod2] <;>
    simp only [pN_4, pN_3, pN_2, pN_1, pN_0] <;>
    ring_nf <;> positivity

theorem stable_rkMethod1 :
    StableNeg (fullM rkMethod1) (fun i => rkMethod1.S i) (fun i => rkMethod1.D i) := by
  refine stable_of _ (by norm_num [rkMethod1]) fun x hx => ?_
  rw [abs_le]
  constructor <;> rw [← sub_nonneg] <;>
    simp only [Finset.sum_range_succ, Finset.sum_range_zero, rkMethod1, zero_mul, zero_add, one_mul] <;>
    simp only [pN_4, pN_3, pN_2, pN_1, pN_0] <;>
    norm_num only <;> ring_nf <;> positivity

/-- the method classes of SDIRKL/include. -/
def Shipped (m : Meth ℝ) : Prop :=
  m = rkMethod1 ∨ m = rkMethod2 ∨ m = rkRS ∨ m = eulerImp ∨ m = crN

theorem Shipped.stable {m : Meth ℝ} (h : Shipped m) :
    StableNeg (fullM m) (fun i => m.S i) (fun i => m.D i) := by
  rcases h with rfl | rfl | rfl | rfl | rfl
  exacts [stable_rkMethod1, stable_rkMethod2, stable_rkRS, stable_eulerImp, stable_crN]

theorem Shipped.diag {m : Meth ℝ} (h : Shipped m) : 0 < m.A 0 0 := by
  rcases h with rfl | rfl | rfl | rfl | rfl
  all_goals norm_num [rkMethod1, rkMethod2, rkRS, eulerImp, crN]

/-- C65: the row sums `S` of every shipped method, to 2e-14 (the literals are printed with 15
digits). -/
theorem sdirkl_row_sums {m : Meth ℝ} (h : Shipped m) (i : Fin m.nstage) :
    |m.S i - ∑ j, fullM m i j| ≤ 2e-14 := by
  have e := fullM_sum m i fun _ => 1
  simp only [mul_one] at e
  rw [e]
  obtain ⟨i, hi⟩ := i
  rcases h with rfl | rfl | rfl | rfl | rfl
  all_goals
    simp only [rkMethod1, rkMethod2, rkRS, eulerImp, crN] at hi ⊢
    interval_cases i <;> norm_num [Finset.sum_range_succ, abs_le]

/-- `k` calls of `step(x)`. -/
noncomputable def calls1 (o : Obj ℝ n) (x : ℕ) : ℕ → St ℝ n → Option (St ℝ n)
  | 0, s => some s
  | k + 1, s => (step1 o s x).bind (calls1 o x k)

/-- `k` calls of `step(x,phi)`. -/
noncomputable def calls2 (o : Obj ℝ n) (x phi : ℕ) : ℕ → St ℝ n → Option (St ℝ n)
  | 0, s => some s
  | k + 1, s => (step2 o s x phi).bind (calls2 o x phi k)

/-- `L` is dissipative for the weighted inner product. -/
def Dissipative (w : Fin n → ℝ) (L : Matrix (Fin n) (Fin n) ℝ) : Prop :=
  (∀ i, 0 < w i) ∧ (∀ i j, w i * L i j = w j * L j i) ∧
    ∀ v : Fin n → ℝ, ∑ i, w i * v i * (L *ᵥ v) i ≤ 0

/-- C82: **unconditional stability**: with each shipped method, for every step length, every
operator symmetric and dissipative for a weighted inner product, any number of calls, any contents
of the work arrays: the calls succeed and the weighted norm of the solution does not increase. -/
theorem sdirkl_energy (o : Obj ℝ n) (ho : Shipped o.rk) (hdt : 0 ≤ o.dt)
    (L : Matrix (Fin n) (Fin n) ℝ) (hL : Solves o L) (haff : o.affine = false) (w : Fin n → ℝ)
    (hw : Dissipative w L) (x : ℕ) (hx : o.rk.nstage + 2 ≤ x) (k : ℕ) (s : St ℝ n) :
    ∃ s', calls1 o x k s = some s' ∧ ∑ i, w i * s'.hp x i ^ 2 ≤ ∑ i, w i * s.hp x i ^ 2 := by
  induction k generalizing s with
  | zero => exact ⟨s, rfl, le_rfl⟩
  | succ k ih =>
    obtain ⟨t, h1, h2, -⟩ := sdirkl_step1 o L ho.diag.ne' hL haff s x hx
    obtain ⟨s', h3, h4⟩ := ih t
    refine ⟨s', by rw [calls1, h1]; exact h3, h4.trans ?_⟩
    exact IsZStep.energy (A := fullM o.rk) ho.stable hdt w hw.1 hw.2.1 hw.2.2 h2

/-- C82, with a forcing term: the distance of two solutions does not increase. -/
theorem sdirkl_contractive (o : Obj ℝ n) (ho : Shipped o.rk) (hdt : 0 ≤ o.dt)
    (L : Matrix (Fin n) (Fin n) ℝ) (hL : Solves o L) (haff : o.affine = true) (w : Fin n → ℝ)
    (hw : Dissipative w L) (x phi : ℕ) (hx : o.rk.nstage + 2 ≤ x) (hphi : o.rk.nstage + 2 ≤ phi)
    (hne : phi ≠ x) (k : ℕ) (s t : St ℝ n) (hst : s.hp phi = t.hp phi) :
    ∃ s' t', calls2 o x phi k s = some s' ∧ calls2 o x phi k t = some t' ∧
      ∑ i, w i * (s'.hp x i - t'.hp x i) ^ 2 ≤ ∑ i, w i * (s.hp x i - t.hp x i) ^ 2 := by
  induction k generalizing s t with
  | zero => exact ⟨s, t, rfl, rfl, le_rfl⟩
  | succ k ih =>
    obtain ⟨s1, h1, h2, h3⟩ := sdirkl_step2 o L ho.diag.ne' hL haff s x phi hx hphi
    obtain ⟨t1, g1, g2, g3⟩ := sdirkl_step2 o L ho.diag.ne' hL haff t x phi hx hphi
    obtain ⟨s', t', h4, g4, h5⟩ := ih s1 t1 (by rw [h3 phi hphi hne, g3 phi hphi hne, hst])
    refine ⟨s', t', by rw [calls2, h1]; exact h4, by rw [calls2, g1]; exact g4, h5.trans ?_⟩
    have h6 := h2.comb 1 (-1) g2
    rw [hst, one_smul, neg_one_smul, add_neg_cancel] at h6
    have h7 := IsZStep.energy (A := fullM o.rk) ho.stable hdt w hw.1 hw.2.1 hw.2.2 h6
    simpa [one_smul, neg_one_smul, ← sub_eq_add_neg] using h7

/-- a dissipative operator has a solver for every step length: the hypotheses can be met. -/
theorem Dissipative.unit {w : Fin n → ℝ} {L : Matrix (Fin n) (Fin n) ℝ} (h : Dissipative w L)
    {c : ℝ} (hc : 0 ≤ c) : IsUnit (1 - c • L) := by
  rw [← Matrix.mulVec_injective_iff_isUnit]
  suffices H : ∀ v : Fin n → ℝ, (1 - c • L) *ᵥ v = 0 → v = 0 by
    intro a b hab
    have := H (a - b) (by rw [Matrix.mulVec_sub]; exact sub_eq_zero.2 hab)
    exact sub_eq_zero.1 this
  intro v hv
  rw [Matrix.sub_mulVec, Matrix.one_mulVec, Matrix.smul_mulVec] at hv
  have h1 : ∑ i, w i * v i * v i ≤ 0 := by
    have : ∑ i, w i * v i * v i = c * ∑ i, w i * v i * (L *ᵥ v) i := by
      rw [Finset.mul_sum]
      refine Finset.sum_congr rfl fun i _ => ?_
      have := congrFun (sub_eq_zero.1 hv) i
      rw [Pi.smul_apply, smul_eq_mul] at this
      linear_combination w i * v i * this
    rw [this]
    exact mul_nonpos_of_nonneg_of_nonpos hc (h.2.2 v)
  have h2 : ∀ i ∈ Finset.univ, 0 ≤ w i * v i * v i := fun i _ => by
    rw [mul_assoc]; exact mul_nonneg (h.1 i).le (mul_self_nonneg _)
  have h3 := (Finset.sum_eq_zero_iff_of_nonneg h2).1 (le_antisymm h1 (Finset.sum_nonneg h2))
  funext i
  have := h3 i (Finset.mem_univ i)
  rw [mul_assoc] at this
  exact mul_self_eq_zero.1 ((mul_eq_zero.1 this).resolve_left (h.1 i).ne')

/-! ### the example operator -/

/-- the weights of the trapezoidal rule. -/
noncomputable def trap (n : ℕ) (i : Fin n) : ℝ := if i.1 = 0 ∨ i.1 + 1 = n then 1 / 2 else 1

theorem trap_lap (n : ℕ) (hn : 2 ≤ n) (i j : Fin n) :
    trap n i * (lap1 n : Matrix (Fin n) (Fin n) ℝ) i j = (n - 1 : ℝ) ^ 2 *
      ((if (j : ℤ) = i - 1 then 1 else 0) + (if (j : ℤ) = i + 1 then 1 else 0)
        - (if j = i then (if (i : ℤ) = 0 ∨ (i : ℤ) = n - 1 then 1 else 2) else 0)) := by
  have hi := i.2
  have hj := j.2
  unfold trap lap1 mirror
  have hij : (j = i) ↔ (j : ℤ) = i := by rw [Fin.ext_iff]; omega
  simp only [hij]
  split_ifs <;> first | (exfalso; omega) | ring

theorem by_parts (G v : ℕ → ℝ) (h0 : G 0 = 0) (m : ℕ) :
    ∑ i ∈ range (m + 1), v i * (G (i + 1) - G i)
      = v m * G (m + 1) - ∑ i ∈ range m, G (i + 1) * (v (i + 1) - v i) := by
  induction m with
  | zero => simp [h0]
  | succ m ih =>
    rw [Finset.sum_range_succ, ih, Finset.sum_range_succ _ m]
    ring

theorem lap1_dissipative (n : ℕ) (hn : 2 ≤ n) : Dissipative (trap n) (lap1 n) := by
  refine ⟨fun i => ?_, fun i j => ?_, fun v => ?_⟩
  · unfold trap; split_ifs <;> norm_num
  · rw [trap_lap n hn, trap_lap n hn]
    have hi := i.2
    have hj := j.2
    have hij : (j = i) ↔ (j : ℤ) = i := by rw [Fin.ext_iff]; omega
    have hji : (i = j) ↔ (j : ℤ) = i := by rw [Fin.ext_iff]; omega
    simp only [hij, hji]
    split_ifs <;> first | (exfalso; omega) | ring
  · obtain ⟨m, rfl⟩ : ∃ m, n = m + 1 := ⟨n - 1, by omega⟩
    let u : ℕ → ℝ := fun i => if h : i < m + 1 then v ⟨i, h⟩ else 0
    have hu : ∀ i : Fin (m + 1), v i = u i := fun i => by
      show v i = if h : i.1 < m + 1 then v ⟨i.1, h⟩ else 0
      rw [dif_pos i.2]
    let G : ℕ → ℝ := fun i => if 1 ≤ i ∧ i ≤ m then u i - u (i - 1) else 0
    have key : ∀ i : Fin (m + 1), trap (m + 1) i * ((lap1 (m + 1) : Matrix _ _ ℝ) *ᵥ v) i
        = (((m + 1 : ℕ) : ℝ) - 1) ^ 2 * (G (i + 1) - G i) := by
      intro i
      rw [Matrix.mulVec, dotProduct, Finset.mul_sum]
      have e1 : ∀ j : Fin (m + 1), trap (m + 1) i * ((lap1 (m + 1) : Matrix _ _ ℝ) i j * v j)
          = (((m + 1 : ℕ) : ℝ) - 1) ^ 2 * ((if (j : ℤ) = i - 1 then u j else 0)
            + (if (j : ℤ) = i + 1 then u j else 0)
            - (if (j : ℤ) = i then (if (i : ℤ) = 0 ∨ (i : ℤ) = (m + 1 : ℕ) - 1 then 1 else 2) * u j
                else 0)) := by
        intro j
        rw [← mul_assoc, trap_lap (m + 1) hn, hu j]
        have hij : (j = i) ↔ (j : ℤ) = i := by rw [Fin.ext_iff]; omega
        simp only [hij]
        split_ifs <;> ring
      rw [Finset.sum_congr rfl fun j _ => e1 j, ← Finset.mul_sum]
      congr 1
      rw [Finset.sum_sub_distrib, Finset.sum_add_distrib]
      have hi := i.2
      have s1 : ∑ j : Fin (m + 1), (if (j : ℤ) = i - 1 then u j else 0)
          = if 1 ≤ i.1 then u (i - 1) else 0 := by
        split_ifs with h
        · rw [Finset.sum_eq_single (⟨i.1 - 1, by omega⟩ : Fin (m + 1))]
          · rw [if_pos (by simp only; omega)]
          · intro j _ hj
            rw [if_neg]
            intro hj'
            exact hj (Fin.ext (by simp only; omega))
          · intro h; exact absurd (Finset.mem_univ _) h
        · exact Finset.sum_eq_zero fun j _ => if_neg (by omega)
      have s2 : ∑ j : Fin (m + 1), (if (j : ℤ) = i + 1 then u j else 0)
          = if i.1 + 1 ≤ m then u (i + 1) else 0 := by
        split_ifs with h
        · rw [Finset.sum_eq_single (⟨i.1 + 1, by omega⟩ : Fin (m + 1))]
          · rw [if_pos (by simp only; omega)]
          · intro j _ hj
            rw [if_neg]
            intro hj'
            exact hj (Fin.ext (by simp only; omega))
          · intro h; exact absurd (Finset.mem_univ _) h
        · exact Finset.sum_eq_zero fun j _ => if_neg (by have := j.2; omega)
      have s3 : ∑ j : Fin (m + 1), (if (j : ℤ) = i then
          (if (i : ℤ) = 0 ∨ (i : ℤ) = (m + 1 : ℕ) - 1 then 1 else 2) * u j else 0)
          = (if (i : ℤ) = 0 ∨ (i : ℤ) = (m + 1 : ℕ) - 1 then 1 else 2) * u i := by
        rw [Finset.sum_eq_single i]
        · rw [if_pos rfl]
        · intro j _ hj
          rw [if_neg]
          intro hj'
          exact hj (Fin.ext (by omega))
        · intro h; exact absurd (Finset.mem_univ _) h
      rw [s1, s2, s3]
      simp only [G, Nat.add_sub_cancel]
      split_ifs <;> first | (exfalso; omega) | ring
    have e2 : ∑ i, trap (m + 1) i * v i * ((lap1 (m + 1) : Matrix _ _ ℝ) *ᵥ v) i
        = (((m + 1 : ℕ) : ℝ) - 1) ^ 2 * ∑ i ∈ range (m + 1), u i * (G (i + 1) - G i) := by
      rw [Finset.sum_range, Finset.mul_sum]
      refine Finset.sum_congr rfl fun i _ => ?_
      have := key i
      rw [hu i]
      linear_combination u i * this
    rw [e2, by_parts G u (by simp [G])]
    refine mul_nonpos_of_nonneg_of_nonpos (sq_nonneg _) ?_
    have e3 : G (m + 1) = 0 := by simp [G]
    rw [e3, mul_zero, zero_sub, neg_nonpos]
    refine Finset.sum_nonneg fun i hi => ?_
    have : G (i + 1) = u (i + 1) - u i := by
      simp only [G, Nat.add_sub_cancel]
      rw [if_pos ⟨by omega, by have := Finset.mem_range.1 hi; omega⟩]
    rw [this]
    exact mul_self_nonneg _

/-- C82 for the example program: the discrete heat equation with `n` points, any step length
`dt ≥ 0` and any shipped method, with an `apply` that solves the system of `lapl_arrays`. -/
theorem sdirkl_heat (n : ℕ) (hn : 2 ≤ n) (m : Meth ℝ) (hm : Shipped m) (dt : ℝ) (hdt : 0 ≤ dt)
    (apply : (Fin n → ℝ) → Fin n → ℝ)
    (hap : ∀ w, (1 - (dt * m.A 0 0) • lap1 n) *ᵥ apply w = w) (x : ℕ) (hx : m.nstage + 2 ≤ x)
    (k : ℕ) (s : St ℝ n) :
    ∃ s', calls1 ⟨m, dt, false, apply⟩ x k s = some s' ∧
      ∑ i, trap n i * s'.hp x i ^ 2 ≤ ∑ i, trap n i * s.hp x i ^ 2 :=
  sdirkl_energy ⟨m, dt, false, apply⟩ hm hdt (lap1 n) hap rfl (trap n) (lap1_dissipative n hn) x hx k s

/-- such an `apply` exists. -/
example (n : ℕ) (hn : 2 ≤ n) (m : Meth ℝ) (hm : Shipped m) (dt : ℝ) (hdt : 0 ≤ dt) :
    ∃ apply : (Fin n → ℝ) → Fin n → ℝ, ∀ w, (1 - (dt * m.A 0 0) • lap1 n) *ᵥ apply w = w := by
  have h := (lap1_dissipative n hn).unit (mul_nonneg hdt hm.diag.le)
  exact ⟨fun w => (1 - (dt * m.A 0 0) • lap1 n)⁻¹ *ᵥ w, fun w => by
    rw [Matrix.mulVec_mulVec, Matrix.mul_nonsing_inv _ ((Matrix.isUnit_iff_isUnit_det _).1 h),
      Matrix.one_mulVec]⟩

/-- dissipativity is needed: for `u' = u` the norm grows. -/
example : ∃ (o : Obj ℝ 1) (s s' : St ℝ 1), Shipped o.rk ∧ 0 ≤ o.dt ∧ Solves o 1 ∧
    calls1 o 3 1 s = some s' ∧ s.hp 3 0 ^ 2 < s'.hp 3 0 ^ 2 := by
  let o : Obj ℝ 1 := ⟨eulerImp, 1 / 2, false, fun w => (2 : ℝ) • w⟩
  have hL : Solves o 1 := by
    intro w
    have : o.dt * o.diag = 1 / 2 := by show (1 / 2 : ℝ) * 1 = _; norm_num
    rw [this, Matrix.sub_mulVec, Matrix.smul_mulVec, Matrix.one_mulVec]
    show (2 : ℝ) • w - (1 / 2 : ℝ) • (2 : ℝ) • w = w
    module
  obtain ⟨s', h1, ⟨Z, hZ, hu⟩, -⟩ := sdirkl_step1 o 1 one_ne_zero hL rfl
    ⟨fun _ _ => 1, fun _ => 0, fun _ => 0⟩ 3 le_rfl
  refine ⟨o, _, s', by simp [Shipped, o], by norm_num [o], hL, by rw [calls1, h1]; rfl, ?_⟩
  have e : s'.hp 3 0 = 2 := by
    have z := hZ (0 : Fin 1)
    have hz := congrFun z 0
    have hu0 := congrFun hu 0
    rw [Matrix.one_mulVec] at hz
    have e1 : Z (0 : Fin 1) 0 = (1 / 2) * (1 * 1 + 1 * Z (0 : Fin 1) 0) + (1 / 2 * 1) * 0 := by
      refine hz.trans ?_
      show (1 / 2 : ℝ) * (1 * 1 + (∑ j : Fin 1, full o (0 : Fin 1) j • Z j) 0) + _ = _
      rw [Fin.sum_univ_one]
      rfl
    have e2 : s'.hp 3 0 = 1 + Z (0 : Fin 1) 0 := by
      refine hu0.trans ?_
      show (1 : ℝ) + (∑ j : Fin 1, (1 : ℝ) • Z j) 0 = _
      rw [Fin.sum_univ_one, one_smul]
    linarith
  rw [e]
  norm_num

end Odes.Sdirkl
