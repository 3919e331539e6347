import Verif.Lemmas.AmpPoly
import Mathlib.Analysis.SpecialFunctions.ExpDeriv
import Mathlib.Analysis.Calculus.Deriv.MeanValue
import Mathlib.Analysis.Calculus.Deriv.Pow
import Mathlib.Algebra.BigOperators.Field

/-!
# Distance between the amplification factor and the exponential
-/

namespace Odes

open Polynomial StabCheck Rock4Check
open Spec
open Rock4 (Sel)

/-! ### the exponential -/

theorem le_of_deriv {f f' : ℝ → ℝ} (h0 : 0 ≤ f 0) (hf : ∀ t, HasDerivAt f (f' t) t)
    (h' : ∀ t, 0 ≤ t → 0 ≤ f' t) {t : ℝ} (ht : 0 ≤ t) : 0 ≤ f t := by
  have hm : MonotoneOn f (Set.Ici 0) := monotoneOn_of_deriv_nonneg (convex_Ici 0)
    (fun x _ => (hf x).continuousAt.continuousWithinAt)
    (fun x _ => (hf x).differentiableAt.differentiableWithinAt) (fun x hx => by
      rw [interior_Ici] at hx
      rw [(hf x).deriv]
      exact h' x hx.le)
  exact h0.trans (hm Set.self_mem_Ici ht ht)

/-- the partial sums of the series of `exp(-t)` enclose it. -/
theorem exp_enclosed {t : ℝ} (ht : 0 ≤ t) :
    Real.exp (-t) ≤ 1 - t + t ^ 2 / 2 - t ^ 3 / 6 + t ^ 4 / 24 ∧
    1 - t + t ^ 2 / 2 - t ^ 3 / 6 + t ^ 4 / 24 - t ^ 5 / 120 ≤ Real.exp (-t) := by
  have he : ∀ t : ℝ, HasDerivAt (fun t => Real.exp (-t)) (-Real.exp (-t)) t := fun t => by
    have := (hasDerivAt_neg t).exp
    rw [mul_neg_one] at this
    exact this
  have hp : ∀ (k : ℕ) (c t : ℝ), HasDerivAt (fun t : ℝ => t ^ (k + 1) / c) ((k + 1 : ℕ) * t ^ k / c) t :=
    fun k c t => by
      have := (hasDerivAt_pow (k + 1) t).div_const c
      exact this
  have h0 : ∀ t : ℝ, 0 ≤ t → Real.exp (-t) ≤ 1 := fun t ht => Real.exp_le_one_iff.2 (by linarith)
  have h1 : ∀ t : ℝ, 0 ≤ t → 1 - t ≤ Real.exp (-t) := fun t _ => by
    have := Real.add_one_le_exp (-t); linarith
  have h2 : ∀ t : ℝ, 0 ≤ t → Real.exp (-t) ≤ 1 - t + t ^ 2 / 2 := fun t ht => by
    have := le_of_deriv (f := fun t => 1 - t + t ^ 2 / 2 - Real.exp (-t))
      (f' := fun t => 0 - 1 + ((2 : ℕ) * t ^ 1 / 2) - -Real.exp (-t)) (by simp)
      (fun t => (((hasDerivAt_const t (1 : ℝ)).sub (hasDerivAt_id t)).add (hp 1 2 t)).sub (he t))
      (fun t ht => by have := h1 t ht; push_cast; linarith) ht
    linarith
  have h3 : ∀ t : ℝ, 0 ≤ t → 1 - t + t ^ 2 / 2 - t ^ 3 / 6 ≤ Real.exp (-t) := fun t ht => by
    have := le_of_deriv (f := fun t => Real.exp (-t) - (1 - t + t ^ 2 / 2 - t ^ 3 / 6))
      (f' := fun t => -Real.exp (-t) - (0 - 1 + ((2 : ℕ) * t ^ 1 / 2) - ((3 : ℕ) * t ^ 2 / 6))) (by simp)
      (fun t => (he t).sub ((((hasDerivAt_const t (1 : ℝ)).sub (hasDerivAt_id t)).add (hp 1 2 t)).sub
        (hp 2 6 t)))
      (fun t ht => by have := h2 t ht; push_cast; linarith) ht
    linarith
  have h4 : ∀ t : ℝ, 0 ≤ t → Real.exp (-t) ≤ 1 - t + t ^ 2 / 2 - t ^ 3 / 6 + t ^ 4 / 24 :=
    fun t ht => by
    have := le_of_deriv (f := fun t => 1 - t + t ^ 2 / 2 - t ^ 3 / 6 + t ^ 4 / 24 - Real.exp (-t))
      (f' := fun t => 0 - 1 + ((2 : ℕ) * t ^ 1 / 2) - ((3 : ℕ) * t ^ 2 / 6) + ((4 : ℕ) * t ^ 3 / 24)
        - -Real.exp (-t)) (by simp)
      (fun t => (((((hasDerivAt_const t (1 : ℝ)).sub (hasDerivAt_id t)).add (hp 1 2 t)).sub
        (hp 2 6 t)).add (hp 3 24 t)).sub (he t))
      (fun t ht => by have := h3 t ht; push_cast; linarith) ht
    linarith
  refine ⟨h4 t ht, ?_⟩
  have := le_of_deriv
    (f := fun t => Real.exp (-t) - (1 - t + t ^ 2 / 2 - t ^ 3 / 6 + t ^ 4 / 24 - t ^ 5 / 120))
    (f' := fun t => -Real.exp (-t) - (0 - 1 + ((2 : ℕ) * t ^ 1 / 2) - ((3 : ℕ) * t ^ 2 / 6)
      + ((4 : ℕ) * t ^ 3 / 24) - ((5 : ℕ) * t ^ 4 / 120))) (by simp)
    (fun t => (he t).sub ((((((hasDerivAt_const t (1 : ℝ)).sub (hasDerivAt_id t)).add (hp 1 2 t)).sub
      (hp 2 6 t)).add (hp 3 24 t)).sub (hp 4 120 t)))
    (fun t ht => by have := h4 t ht; push_cast; linarith) ht
  linarith

/-- `(exp z - 1) / z`. -/
noncomputable def phi1 (z : ℝ) : ℝ := if z = 0 then 1 else (Real.exp z - 1) / z

theorem phi1_mul (z : ℝ) : z * phi1 z = Real.exp z - 1 := by
  unfold phi1
  split_ifs with h
  · simp [h]
  · field_simp

theorem phi1_near {z : ℝ} (hz : z ≤ 0) :
    |phi1 z - (1 + z / 2 + z ^ 2 / 6 + z ^ 3 / 24)| ≤ |z| ^ 4 / 120 := by
  by_cases h0 : z = 0
  · subst h0; simp [phi1]
  have hz' : 0 < |z| := abs_pos.2 h0
  have e : z * (phi1 z - (1 + z / 2 + z ^ 2 / 6 + z ^ 3 / 24))
      = Real.exp z - (1 - (-z) + (-z) ^ 2 / 2 - (-z) ^ 3 / 6 + (-z) ^ 4 / 24) := by
    rw [mul_sub, phi1_mul]; ring
  obtain ⟨h1, h2⟩ := exp_enclosed (t := -z) (by linarith)
  rw [neg_neg] at h1 h2
  refine le_of_mul_le_mul_left ?_ hz'
  rw [← abs_mul, e, abs_le, abs_of_nonpos hz]
  constructor
  · have : (-z) * ((-z) ^ 4 / 120) = (-z) ^ 5 / 120 := by ring
    rw [this]; linarith
  · have : 0 ≤ (-z) * ((-z) ^ 4 / 120) := by
      have : 0 ≤ -z := by linarith
      positivity
    linarith

/-! ### polynomials with coefficients of one sign -/

/-- the terms of degree at least four. -/
theorem tail_le (p : ℝ[X]) (hp : ∀ k, 0 ≤ p.coeff k) {z s : ℝ} (hs : 0 < s) (hz : |z| ≤ s) :
    |p.eval z - (p.coeff 0 + p.coeff 1 * z + p.coeff 2 * z ^ 2 + p.coeff 3 * z ^ 3)| ≤
      |z| ^ 4 * ((p.eval s - (p.coeff 0 + p.coeff 1 * s + p.coeff 2 * s ^ 2 + p.coeff 3 * s ^ 3)) / s ^ 4) := by
  have hN : p.natDegree < 4 + (p.natDegree + 1) := by omega
  have h : ∀ x : ℝ, p.eval x - (p.coeff 0 + p.coeff 1 * x + p.coeff 2 * x ^ 2 + p.coeff 3 * x ^ 3)
      = ∑ j ∈ Finset.range (p.natDegree + 1), p.coeff (4 + j) * x ^ (4 + j) := by
    intro x
    rw [eval_eq_sum_range' hN, Finset.sum_range_add]
    simp only [Finset.sum_range_succ, Finset.sum_range_zero]
    ring
  rw [h, h]
  refine (Finset.abs_sum_le_sum_abs _ _).trans ?_
  rw [Finset.sum_div, Finset.mul_sum]
  refine Finset.sum_le_sum fun j _ => ?_
  rw [abs_mul, abs_of_nonneg (hp _), abs_pow, pow_add, pow_add]
  have h1 : |z| ^ j ≤ s ^ j := pow_le_pow_left₀ (abs_nonneg _) hz j
  have e : |z| ^ 4 * (p.coeff (4 + j) * (s ^ 4 * s ^ j) / s ^ 4)
      = p.coeff (4 + j) * (|z| ^ 4 * s ^ j) := by
    have := hs.ne'
    field_simp
  rw [e]
  exact mul_le_mul_of_nonneg_left (mul_le_mul_of_nonneg_left h1 (by positivity)) (hp _)

/-! ### the value at 3 -/

/-- `E^m` times the recurrence at `z = 3`. -/
noncomputable def rec3 (E : ℕ) (k : ℕ → Bool) (m : ℕ) : List ℤ → ℕ → ℕ → Bool :=
  Nat.rec (fun _ _ a => k a)
    (fun _ ih l b a =>
      match l with
      | .ofNat M :: .ofNat K :: l' =>
        Bool.rec false (nforce ((E + K + 3 * M) * a - E * K * b) fun c => ih l' a c)
          (Nat.ble (E * K * b) ((E + K + 3 * M) * a))
      | _ => false) m

/-- `1000 R(3) ≤ 18805`. -/
noncomputable def ampSmall (E m : ℕ) (l : List ℤ) (a b : ℕ → ℤ) : Bool :=
  match l with
  | .ofNat M :: l =>
    wcoef E a b fun c0 c1 c2 c3 c4 =>
    rec3 E (fun c => Nat.ble (1000 * (c * (c0 + 3 * c1 + 9 * c2 + 27 * c3 + 81 * c4)))
      (18805 * (E ^ m * c0))) (m - 1) l 1 (E + 3 * M)
  | _ => false

theorem rec3_cons (E : ℕ) (k : ℕ → Bool) (m M K : ℕ) (l : List ℤ) (b a : ℕ) :
    rec3 E k (m + 1) (.ofNat M :: .ofNat K :: l) b a
      = Bool.rec false (rec3 E k m l a ((E + K + 3 * M) * a - E * K * b))
          (Nat.ble (E * K * b) ((E + K + 3 * M) * a)) := by
  have h1 : rec3 E k (m + 1) (.ofNat M :: .ofNat K :: l) b a
      = Bool.rec false (nforce ((E + K + 3 * M) * a - E * K * b) fun c => rec3 E k m l a c)
          (Nat.ble (E * K * b) ((E + K + 3 * M) * a)) := rfl
  rw [h1, nforce_eq]

theorem rec3_sound (E : ℕ) (hE : 0 < E) (mu kap : ℕ → ℝ) (k : ℕ → Bool) :
    ∀ (m j : ℕ) (l : List ℤ) (b a : ℕ),
    (∀ q < m, ((l.getD (2 * q) 0 : ℤ) : ℝ) / E = mu (j + 2 + q) ∧
      ((l.getD (2 * q + 1) 0 : ℤ) : ℝ) / E = kap (j + 2 + q)) →
    (b : ℝ) = (E : ℝ) ^ j * Q mu kap (-3) j → (a : ℝ) = (E : ℝ) ^ (j + 1) * Q mu kap (-3) (j + 1) →
    rec3 E k m l b a = true →
    ∃ c : ℕ, k c = true ∧ (c : ℝ) = (E : ℝ) ^ (j + 1 + m) * Q mu kap (-3) (j + 1 + m)
  | 0, j, l, b, a, _, _, ha, h => ⟨a, h, ha⟩
  | m + 1, j, l, b, a, hl, hb, ha, h => by
    have hE' : (E : ℝ) ≠ 0 := by exact_mod_cast hE.ne'
    match l, h with
    | .ofNat M :: .ofNat K :: l', h =>
      rw [rec3_cons] at h
      have hle : Nat.ble (E * K * b) ((E + K + 3 * M) * a) = true := by
        cases hh : Nat.ble (E * K * b) ((E + K + 3 * M) * a) with
        | true => rfl
        | false => rw [hh] at h; exact absurd h (by simp)
      rw [hle] at h
      have hle' := Nat.le_of_ble_eq_true hle
      have h0 := hl 0 (by omega)
      simp only [Nat.mul_zero, List.getD_cons_zero, Nat.zero_add, List.getD_cons_succ, Nat.add_zero,
        Int.ofNat_eq_natCast, Int.cast_natCast] at h0
      have hM : (M : ℝ) = E * mu (j + 2) := by rw [← h0.1]; field_simp
      have hK : (K : ℝ) = E * kap (j + 2) := by rw [← h0.2]; field_simp
      have hr : (((E + K + 3 * M) * a - E * K * b : ℕ) : ℝ)
          = (E : ℝ) ^ (j + 1 + 1) * Q mu kap (-3) (j + 1 + 1) := by
        rw [Nat.cast_sub hle', Q]
        push_cast
        rw [hM, hK, ha, hb]
        ring
      obtain ⟨c, c1, c3⟩ := rec3_sound E hE mu kap k m (j + 1) l' a _ (fun q hq => by
          have := hl (q + 1) (by omega)
          have e1 : 2 * (q + 1) = 2 * q + 1 + 1 := by ring
          have e2 : 2 * (q + 1) + 1 = 2 * q + 1 + 1 + 1 := by ring
          rw [e2, e1] at this
          simp only [List.getD_cons_succ] at this
          have e3 : j + 1 + 2 + q = j + 2 + (q + 1) := by omega
          rw [e3]; exact this) ha hr h
      exact ⟨c, c1, by rw [c3]; congr 2 <;> omega⟩
    | [], h => simp [rec3] at h
    | [_], h => simp [rec3] at h
    | .negSucc _ :: _ :: _, h => simp [rec3] at h
    | .ofNat _ :: .negSucc _ :: _, h => simp [rec3] at h

theorem Row.amp3 {R : Gen.Formula ℝ} {m : ℕ} {l : List ℤ} {a b : ℕ → ℤ} (r : Row R m l a b)
    (h : ampSmall scale19 m l a b = true) : amp R 3 ≤ 18.805 := by
  have hE : (0 : ℝ) < (scale19 : ℕ) := by exact_mod_cast scale19_pos
  obtain ⟨rdeg, rm, h1, h2, ha1, ha2, ha3, ha4, ha5, ha6, hb1, hb2, hb3, hb4⟩ := r
  generalize hEE : scale19 = E at *
  have hEn : (E : ℝ) ≠ 0 := hE.ne'
  match l, h with
  | .ofNat M :: l, h =>
    have h' : wcoef E a b (fun c0 c1 c2 c3 c4 => rec3 E (fun c =>
      Nat.ble (1000 * (c * (c0 + 3 * c1 + 9 * c2 + 27 * c3 + 81 * c4)))
      (18805 * (E ^ m * c0))) (m - 1) l 1 (E + 3 * M)) = true := h
    simp only [wcoef, kforce_eq] at h'
    obtain ⟨c1, e1, h'⟩ := pos_sound h'
    obtain ⟨c2, e2, h'⟩ := pos_sound h'
    obtain ⟨c3, e3, h'⟩ := pos_sound h'
    obtain ⟨c4, e4, h'⟩ := pos_sound h'
    have hM : (M : ℝ) = E * R.mu 1 := by
      rw [← h1]
      simp only [List.getD_cons_zero, Int.ofNat_eq_natCast, Int.cast_natCast]
      field_simp
    obtain ⟨c, hk, hc⟩ := rec3_sound E (by exact_mod_cast hE) R.mu R.kap _ (m - 1) 0 l 1 (E + 3 * M)
      (fun q hq => by
        have := h2 q hq
        simp only [List.getD_cons_succ] at this
        have e : 0 + 2 + q = q + 2 := by omega
        rw [e]; exact this) (by simp [Q])
      (by push_cast; simp only [Q, hM]; ring) h'
    have hm' : 0 + 1 + (m - 1) = m := by omega
    rw [hm'] at hc
    have hle := (Nat.cast_le (α := ℝ)).2 (Nat.le_of_ble_eq_true hk)
    have hc0 : ((Nat.pow E 4 : ℕ) : ℝ) = (E : ℝ) ^ 4 := by
      have : Nat.pow E 4 = E ^ 4 := rfl
      rw [this]; push_cast; rfl
    have f1 : (c1 : ℝ) = ((b 1 + b 2 + b 3 + b 4 : ℤ) : ℝ) * (E : ℝ) ^ 3 := by
      have : ((c1 : ℤ) : ℝ) = c1 := by push_cast; rfl
      rw [← this, ← e1]; push_cast; ring
    have f2 : (c2 : ℝ) = ((a 1 * b 2 + (a 2 + a 3) * b 3 + (a 4 + a 5 + a 6) * b 4 : ℤ) : ℝ)
          * (E : ℝ) ^ 2 := by
      have : ((c2 : ℤ) : ℝ) = c2 := by push_cast; rfl
      rw [← this, ← e2]; push_cast; ring
    have f3 : (c3 : ℝ) = ((a 1 * a 3 * b 3 + a 1 * a 5 * b 4 + (a 2 + a 3) * a 6 * b 4 : ℤ) : ℝ)
          * (E : ℝ) := by
      have : ((c3 : ℤ) : ℝ) = c3 := by push_cast; rfl
      rw [← this, ← e3]; push_cast; ring
    have f4 : (c4 : ℝ) = ((a 1 * a 3 * a 6 * b 4 : ℤ) : ℝ) := by
      have : ((c4 : ℤ) : ℝ) = c4 := by push_cast; rfl
      rw [← this, ← e4]
    have e : (3 : ℝ) = -(-3) := by ring
    rw [e, amp_eq, rdeg]
    push_cast at hle
    rw [hc, f1, f2, f3, f4] at hle
    push_cast at hle
    have hw : (E : ℝ) ^ 4 * wfac R.a21 R.a31 R.a32 R.a41 R.a42 R.a43 (R.b 0) (R.b 1) (R.b 2) (R.b 3) (-3)
        = (E : ℝ) ^ 4 + 3 * ((b 1 + b 2 + b 3 + b 4) * (E : ℝ) ^ 3)
          + 9 * ((a 1 * b 2 + (a 2 + a 3) * b 3 + (a 4 + a 5 + a 6) * b 4) * (E : ℝ) ^ 2)
          + 27 * ((a 1 * a 3 * b 3 + a 1 * a 5 * b 4 + (a 2 + a 3) * a 6 * b 4) * (E : ℝ))
          + 81 * (a 1 * a 3 * a 6 * b 4) := by
      rw [← ha1, ← ha2, ← ha3, ← ha4, ← ha5, ← ha6, ← hb1, ← hb2, ← hb3, ← hb4, wfac]
      field_simp
      ring
    have hE4 : (Nat.pow E 4 : ℝ) = (E : ℝ) ^ 4 := hc0
    have hle2 : (E : ℝ) ^ (m + 4) * (1000 * (Q R.mu R.kap (-3) m * wfac R.a21 R.a31 R.a32 R.a41 R.a42
        R.a43 (R.b 0) (R.b 1) (R.b 2) (R.b 3) (-3))) ≤ (E : ℝ) ^ (m + 4) * 18805 := by
      have hl : (E : ℝ) ^ (m + 4) * (1000 * (Q R.mu R.kap (-3) m * wfac R.a21 R.a31 R.a32 R.a41 R.a42
        R.a43 (R.b 0) (R.b 1) (R.b 2) (R.b 3) (-3))) = 1000 * ((E : ℝ) ^ m * Q R.mu R.kap (-3) m *
          ((E : ℝ) ^ 4 * wfac R.a21 R.a31 R.a32 R.a41 R.a42
            R.a43 (R.b 0) (R.b 1) (R.b 2) (R.b 3) (-3))) := by ring
      rw [hl, hw]
      have hr : (E : ℝ) ^ (m + 4) * 18805 = 18805 * ((E : ℝ) ^ m * (E : ℝ) ^ 4) := by ring
      rw [hr, ← hc0]
      exact hle
    have := le_of_mul_le_mul_left hle2 (by positivity)
    linarith
  | [], h => simp [ampSmall] at h
  | .negSucc _ :: _, h => simp [ampSmall] at h

theorem rock4_ampSmall : ∀ k : Fin 50, ampSmall scale19 (degs.getD k 0)
    (Tables.Rock4.recf.getD k []) (colRow Tables.Rock4.fpa k) (colRow Tables.Rock4.fpb k) = true := by
  decide +kernel

theorem rock4l_ampSmall : ∀ k : Fin 50, ampSmall scale19 (degs.getD k 0)
    (Tables.Rock4L.recf.getD k []) (rowRow Tables.Rock4L.fpa k) (rowRow Tables.Rock4L.fpb k) = true := by
  decide +kernel

/-! ### the distance -/

/-- what is used of a tabulated formula. -/
structure Fine (R : Gen.Formula ℝ) : Prop where
  near : Near4 (wStep R)
  nonneg : ∀ k, 0 ≤ (psi R).coeff k
  amp3 : amp R 3 ≤ 18.805

theorem Rock4.fine {d mz mr : ℤ} (hs : Sel d mz mr) : Fine (Rock4L.formulaOf Rock4.realTab d mz mr) := by
  obtain ⟨k, hk, -, r⟩ := Rock4.sel_row hs
  obtain ⟨pts, ok⟩ := StabCheck.Rock4.all_ok k hk
  exact ⟨(Rock4.order_tab hs).1, r.psi_nonneg ok, r.amp3 (rock4_ampSmall ⟨k, hk⟩)⟩

theorem Rock4L.fine {d mz mr : ℤ} (hs : Sel d mz mr) :
    Fine (Rock4L.formulaOf Rock4L.shipped d mz mr) := by
  obtain ⟨k, hk, -, r⟩ := Rock4L.sel_row hs
  obtain ⟨pts, ok⟩ := StabCheck.Rock4L.all_ok k hk
  exact ⟨(Rock4L.order_tab hs).1, r.psi_nonneg ok, r.amp3 (rock4l_ampSmall ⟨k, hk⟩)⟩

/-- the bound of the relative error of the increment. -/
noncomputable def dev (x : ℝ) : ℝ := 1e-14 * (1 + x + x ^ 2 + x ^ 3) + x ^ 4 / 50

theorem Fine.psi_near {R : Gen.Formula ℝ} (f : Fine R) {z : ℝ} (hz : z ≤ 0) (ha : |amp R z| ≤ 1.15) :
    |(psi R).eval z - phi1 z| ≤ dev |z| := by
  obtain ⟨⟨⟨n1, n2, -, n4⟩, -, -, -, n8⟩, hpos, h3⟩ := f
  obtain ⟨c0, c1, c2, c3⟩ := coeff_psi R
  rw [← c0] at n1
  rw [← c1] at n2
  rw [← c2] at n4
  rw [← c3] at n8
  have hx := abs_nonneg z
  rcases le_total |z| 3 with h | h
  · have h1 := tail_le (psi R) hpos (z := z) (by norm_num : (0 : ℝ) < 3) h
    have h2 := phi1_near hz
    rw [amp_psi] at h3
    have hK : ((psi R).eval 3 - ((psi R).coeff 0 + (psi R).coeff 1 * 3 + (psi R).coeff 2 * 3 ^ 2
        + (psi R).coeff 3 * 3 ^ 3)) / 3 ^ 4 ≤ 0.0101 := by
      rw [div_le_iff₀ (by norm_num)]
      have a1 := (abs_le.1 n1).1
      have a2 := (abs_le.1 n2).1
      have a3 := (abs_le.1 n4).1
      have a4 := (abs_le.1 n8).1
      norm_num at a1 a2 a3 a4 h3 ⊢
      linarith
    have h4 : |z| ^ 4 * (((psi R).eval 3 - ((psi R).coeff 0 + (psi R).coeff 1 * 3 + (psi R).coeff 2 * 3 ^ 2
        + (psi R).coeff 3 * 3 ^ 3)) / 3 ^ 4) ≤ |z| ^ 4 * 0.0101 :=
      mul_le_mul_of_nonneg_left hK (by positivity)
    have h5 : |((psi R).coeff 0 - 1) + ((psi R).coeff 1 - 1 / 2) * z + ((psi R).coeff 2 - 1 / 6) * z ^ 2
        + ((psi R).coeff 3 - 1 / 24) * z ^ 3| ≤ 1e-14 * (1 + |z| + |z| ^ 2 + |z| ^ 3) := by
      refine (abs_add_le _ _).trans ?_
      have b3 := abs_add_le (((psi R).coeff 0 - 1) + ((psi R).coeff 1 - 1 / 2) * z)
        (((psi R).coeff 2 - 1 / 6) * z ^ 2)
      have b2 := abs_add_le ((psi R).coeff 0 - 1) (((psi R).coeff 1 - 1 / 2) * z)
      rw [abs_mul] at b2 b3 ⊢
      rw [abs_pow] at b3 ⊢
      have d2 := mul_le_mul_of_nonneg_right n2 hx
      have d3 := mul_le_mul_of_nonneg_right n4 (pow_nonneg hx 2)
      have d4 := mul_le_mul_of_nonneg_right n8 (pow_nonneg hx 3)
      linarith
    have e : (psi R).eval z - phi1 z = ((psi R).eval z - ((psi R).coeff 0 + (psi R).coeff 1 * z
        + (psi R).coeff 2 * z ^ 2 + (psi R).coeff 3 * z ^ 3)) +
        (((psi R).coeff 0 - 1) + ((psi R).coeff 1 - 1 / 2) * z + ((psi R).coeff 2 - 1 / 6) * z ^ 2
        + ((psi R).coeff 3 - 1 / 24) * z ^ 3) - (phi1 z - (1 + z / 2 + z ^ 2 / 6 + z ^ 3 / 24)) := by ring
    rw [e]
    have t1 := abs_sub ((psi R).eval z - ((psi R).coeff 0 + (psi R).coeff 1 * z
        + (psi R).coeff 2 * z ^ 2 + (psi R).coeff 3 * z ^ 3) +
        (((psi R).coeff 0 - 1) + ((psi R).coeff 1 - 1 / 2) * z + ((psi R).coeff 2 - 1 / 6) * z ^ 2
        + ((psi R).coeff 3 - 1 / 24) * z ^ 3)) (phi1 z - (1 + z / 2 + z ^ 2 / 6 + z ^ 3 / 24))
    have t2 := abs_add_le ((psi R).eval z - ((psi R).coeff 0 + (psi R).coeff 1 * z
        + (psi R).coeff 2 * z ^ 2 + (psi R).coeff 3 * z ^ 3))
        (((psi R).coeff 0 - 1) + ((psi R).coeff 1 - 1 / 2) * z + ((psi R).coeff 2 - 1 / 6) * z ^ 2
        + ((psi R).coeff 3 - 1 / 24) * z ^ 3)
    unfold dev
    have hx4 : 0 ≤ |z| ^ 4 := by positivity
    linarith
  · have hz' : 0 < |z| := by linarith
    refine le_of_mul_le_mul_left ?_ hz'
    have e : z * ((psi R).eval z - phi1 z) = amp R z - Real.exp z := by
      rw [mul_sub, phi1_mul, amp_psi]; ring
    rw [← abs_mul, e]
    have h1 := abs_sub (amp R z) (Real.exp z)
    have h2 : |Real.exp z| ≤ 1 := by
      rw [abs_of_pos (Real.exp_pos _)]; exact Real.exp_le_one_iff.2 hz
    have h5 : (3 : ℝ) ^ 5 ≤ |z| ^ 5 := pow_le_pow_left₀ (by norm_num) h 5
    have h6 : |z| ^ 5 / 50 ≤ |z| * dev |z| := by
      unfold dev
      have : 0 ≤ |z| * (1e-14 * (1 + |z| + |z| ^ 2 + |z| ^ 3)) := by positivity
      have e : |z| * (1e-14 * (1 + |z| + |z| ^ 2 + |z| ^ 3) + |z| ^ 4 / 50)
        = |z| * (1e-14 * (1 + |z| + |z| ^ 2 + |z| ^ 3)) + |z| ^ 5 / 50 := by ring
      linarith
    norm_num at h5
    linarith

end Odes
