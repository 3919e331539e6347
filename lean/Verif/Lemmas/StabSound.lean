import Verif.Lemmas.StabCheck
import Verif.Lemmas.RealRooted

/-!
# The test of Lemmas/StabCheck is sound
-/

namespace Odes.StabCheck

open Polynomial Set RealRooted

/-! ### the polynomial -/

/-- the three-term recurrence for `y' = -t y`, step 1, started at 1. -/
def Q (mu kap : ℕ → ℝ) (t : ℝ) : ℕ → ℝ
  | 0 => 1
  | 1 => 1 - mu 1 * t
  | (j + 2) => ((1 + kap (j + 2)) - mu (j + 2) * t) * Q mu kap t (j + 1) - kap (j + 2) * Q mu kap t j

/-- `c_0 - c_1 t + c_2 t^2 - ...` -/
def ev (t : ℝ) : List ℕ → ℝ
  | [] => 0
  | c :: l => c - t * ev t l

noncomputable def pol : List ℕ → ℝ[X]
  | [] => 0
  | c :: l => C (c : ℝ) - Polynomial.X * pol l

theorem eval_pol (t : ℝ) : ∀ l, (pol l).eval t = ev t l
  | [] => by simp [pol, ev]
  | c :: l => by simp [pol, ev, eval_pol t l]

theorem natDegree_pol : ∀ (l : List ℕ) (c : ℕ), (pol (c :: l)).natDegree ≤ l.length
  | [], c => by simp [pol]
  | d :: l, c => by
    have ih := natDegree_pol l d
    rw [pol]
    refine (natDegree_sub_le _ _).trans (max_le (by simp) ?_)
    refine natDegree_mul_le.trans ?_
    have := natDegree_X_le (R := ℝ)
    simp only [List.length_cons]
    omega

theorem ev_neg_ge {s : ℝ} (hs : 0 ≤ s) : ∀ l, 0 ≤ ev (-s) l
  | [] => le_rfl
  | c :: l => by
    have := mul_nonneg hs (ev_neg_ge hs l)
    have hc : (0 : ℝ) ≤ c := c.cast_nonneg
    simp only [ev]; linarith

theorem ev_zero_le {s : ℝ} (hs : 0 ≤ s) : ∀ l, ev 0 l ≤ ev (-s) l
  | [] => le_rfl
  | c :: l => by
    have := mul_nonneg hs (ev_neg_ge hs l)
    simp only [ev]; linarith

/-! ### the computation of the coefficients -/

theorem nx_nil (K M B prev : ℕ) (b : List ℕ) (k : List ℕ → Bool) :
    nx K M B [] prev b k = k [M * prev] :=
  kforce_eq (M * prev) fun x => k [x]

theorem nx_cons_nil (K M B a prev : ℕ) (as : List ℕ) (k : List ℕ → Bool) :
    nx K M B (a :: as) prev [] k = nx K M B as a [] fun r => k ((K * a + M * prev) :: r) :=
  kforce_eq (K * a + M * prev) fun x => nx K M B as a [] fun r => k (x :: r)

theorem nx_cons_cons (K M B a prev b : ℕ) (as bs : List ℕ) (k : List ℕ → Bool) :
    nx K M B (a :: as) prev (b :: bs) k = Bool.rec false
      (nx K M B as a bs fun r => k ((K * a + M * prev - B * b) :: r))
      (Nat.ble (B * b) (K * a + M * prev)) := by
  have h1 : nx K M B (a :: as) prev (b :: bs) k = kforce (K * a + M * prev) fun x =>
        kforce (B * b) fun y =>
          Bool.rec false (kforce (Nat.sub x y) fun z => nx K M B as a bs fun r => k (z :: r)) (Nat.ble y x) := rfl
  rw [h1, kforce_eq, kforce_eq, kforce_eq]; rfl

theorem rec_cons (E : ℕ) (k : List ℕ → Bool) (m M K : ℕ) (l : List ℤ) (b a : List ℕ) :
    rec E k (m + 1) (.ofNat M :: .ofNat K :: l) b a
      = nx (E + K) M (E * K) a 0 b fun c => rec E k m l a c := by
  have h1 : rec E k (m + 1) (.ofNat M :: .ofNat K :: l) b a = kforce (E + K) fun K1 =>
    kforce (E * K) fun B => nx K1 M B a 0 b fun c => rec E k m l a c := rfl
  rw [h1, kforce_eq, kforce_eq]

theorem spl_cons (D c n : ℕ) (l : List ℕ) (k : List ℕ → List ℕ → Bool) :
    spl D (c :: l) n k = spl D l (n - 1) fun e o => k ((c * D ^ n) :: o) e :=
  kforce_eq (c * D ^ n) fun x => spl D l (n - 1) fun e o => k (x :: o) e

theorem nx_sound (K M B : ℕ) : ∀ (a : List ℕ) (prev : ℕ) (b : List ℕ) (k : List ℕ → Bool),
    b.length ≤ a.length → nx K M B a prev b k = true →
    ∃ r, k r = true ∧ r.length = a.length + 1 ∧
      ∀ t, ev t r = K * ev t a + M * (prev - t * ev t a) - B * ev t b
  | [], prev, b, k, hb, h => by
    have hb' : b = [] := by simpa using hb
    subst hb'
    rw [nx_nil] at h
    refine ⟨_, h, rfl, fun t => ?_⟩
    simp [ev]
  | a :: as, prev, [], k, _, h => by
    rw [nx_cons_nil] at h
    obtain ⟨r, h1, h2, h3⟩ := nx_sound K M B as a [] _ (Nat.zero_le _) h
    refine ⟨_, h1, by simp [h2], fun t => ?_⟩
    simp only [ev, h3 t]
    push_cast
    ring
  | a :: as, prev, b :: bs, k, hb, h => by
    rw [nx_cons_cons] at h
    have hle : Nat.ble (B * b) (K * a + M * prev) = true := by
      cases hh : Nat.ble (B * b) (K * a + M * prev) with
      | true => rfl
      | false => rw [hh] at h; exact absurd h (by simp)
    rw [hle] at h
    have hle' := Nat.le_of_ble_eq_true hle
    obtain ⟨r, h1, h2, h3⟩ := nx_sound K M B as a bs _ (by simpa using hb) h
    refine ⟨_, h1, by simp [h2], fun t => ?_⟩
    rw [ev, h3 t]
    simp only [ev]
    rw [Nat.cast_sub hle']
    push_cast
    ring

theorem rec_sound (E : ℕ) (hE : 0 < E) (mu kap : ℕ → ℝ) (k : List ℕ → Bool) :
    ∀ (m j : ℕ) (l : List ℤ) (b a : List ℕ),
    (∀ q < m, ((l.getD (2 * q) 0 : ℤ) : ℝ) / E = mu (j + 2 + q) ∧
      ((l.getD (2 * q + 1) 0 : ℤ) : ℝ) / E = kap (j + 2 + q)) →
    b.length ≤ a.length →
    (∀ t, ev t b = (E : ℝ) ^ j * Q mu kap t j) → (∀ t, ev t a = (E : ℝ) ^ (j + 1) * Q mu kap t (j + 1)) →
    rec E k m l b a = true →
    ∃ c, k c = true ∧ c.length = a.length + m ∧
      ∀ t, ev t c = (E : ℝ) ^ (j + 1 + m) * Q mu kap t (j + 1 + m)
  | 0, j, l, b, a, _, _, _, ha, h => ⟨a, h, rfl, ha⟩
  | m + 1, j, l, b, a, hl, hba, hb, ha, h => by
    have hE' : (E : ℝ) ≠ 0 := by exact_mod_cast hE.ne'
    match l, h with
    | .ofNat M :: .ofNat K :: l', h =>
      rw [rec_cons] at h
      obtain ⟨r, h1, h2, h3⟩ := nx_sound _ _ _ a 0 b _ hba h
      have h0 := hl 0 (by omega)
      simp only [Nat.mul_zero, List.getD_cons_zero, Nat.zero_add, List.getD_cons_succ, Nat.add_zero,
        Int.ofNat_eq_natCast, Int.cast_natCast] at h0
      have hM : (M : ℝ) = E * mu (j + 2) := by rw [← h0.1]; field_simp
      have hK : (K : ℝ) = E * kap (j + 2) := by rw [← h0.2]; field_simp
      have hr : ∀ t, ev t r = (E : ℝ) ^ (j + 1 + 1) * Q mu kap t (j + 1 + 1) := by
        intro t
        rw [h3 t, ha t, hb t, Q]
        push_cast
        rw [hM, hK]
        ring
      obtain ⟨c, c1, c2, c3⟩ := rec_sound E hE mu kap k m (j + 1) l' a r (fun q hq => by
          have := hl (q + 1) (by omega)
          have e1 : 2 * (q + 1) = 2 * q + 1 + 1 := by ring
          have e2 : 2 * (q + 1) + 1 = 2 * q + 1 + 1 + 1 := by ring
          rw [e2, e1] at this
          simp only [List.getD_cons_succ] at this
          have e3 : j + 1 + 2 + q = j + 2 + (q + 1) := by omega
          rw [e3]; exact this) (by omega) ha hr h1
      exact ⟨c, c1, by omega, fun t => by rw [c3 t]; congr 2 <;> omega⟩
    | [], h => simp [rec] at h
    | [_], h => simp [rec] at h
    | .negSucc _ :: _ :: _, h => simp [rec] at h
    | .ofNat _ :: .negSucc _ :: _, h => simp [rec] at h

theorem spl_sound (D : ℕ) (hD : 0 < D) : ∀ (l : List ℕ) (n : ℕ) (k : List ℕ → List ℕ → Bool),
    l.length ≤ n + 1 → spl D l n k = true →
    ∃ e o, k e o = true ∧ ∀ p : ℕ, (hor (Nat.mul p p) e : ℝ) - (Nat.mul p (hor (Nat.mul p p) o) : ℕ)
      = (D : ℝ) ^ n * ev ((p : ℝ) / D) l
  | [], n, k, _, h => ⟨[], [], h, fun p => by simp [hor, ev]⟩
  | c :: l, n, k, hl, h => by
    have hD' : (D : ℝ) ≠ 0 := by exact_mod_cast hD.ne'
    rw [spl_cons] at h
    match l, n, hl, h with
    | [], n, _, h =>
      refine ⟨_, _, h, fun p => ?_⟩
      simp [hor, ev, mul_comm]
    | d :: l, 0, hl, _ => simp at hl
    | d :: l, n + 1, hl, h =>
      obtain ⟨e, o, h1, h2⟩ := spl_sound D hD (d :: l) n _ (by simpa using hl) h
      refine ⟨_, _, h1, fun p => ?_⟩
      have := h2 p
      rw [ev]
      have e1 : hor (Nat.mul p p) (c * D ^ (n + 1) :: o)
          = c * D ^ (n + 1) + p * p * hor (Nat.mul p p) o := rfl
      rw [e1]
      have e2 : Nat.mul p (hor (Nat.mul p p) o) = p * hor (Nat.mul p p) o := rfl
      have e3 : Nat.mul p (hor (Nat.mul p p) e) = p * hor (Nat.mul p p) e := rfl
      rw [e2] at this
      rw [e3]
      push_cast at this ⊢
      rw [pow_succ]
      have e4 : (D : ℝ) ^ n * D * (c - p / D * ev (p / D) (d :: l))
          = (D : ℝ) ^ n * D * c - p * ((D : ℝ) ^ n * ev (p / D) (d :: l)) := by
        field_simp
      rw [e4, ← this]
      ring

/-- what a value says. -/
def Rep (q : ℝ[X]) (D S : ℕ) (v : V) : Prop :=
  q.eval ((v.p : ℝ) / D) * S = if v.s then (v.g : ℝ) else -v.g

theorem evals_cons (e o : List ℕ) (k : List V → Bool) (p : ℕ) (l : List ℕ) (acc : List V) :
    evals e o k (p :: l) acc = Bool.rec
      (evals e o k l (⟨p, false, Nat.sub (Nat.mul p (hor (Nat.mul p p) o)) (hor (Nat.mul p p) e)⟩ :: acc))
      (evals e o k l (⟨p, true, Nat.sub (hor (Nat.mul p p) e) (Nat.mul p (hor (Nat.mul p p) o))⟩ :: acc))
      (Nat.ble (Nat.mul p (hor (Nat.mul p p) o)) (hor (Nat.mul p p) e)) := by
  have h1 : evals e o k (p :: l) acc = Bool.rec
        (kforce (Nat.sub (Nat.mul p (hor (Nat.mul p p) o)) (hor (Nat.mul p p) e)) fun g =>
          evals e o k l (⟨p, false, g⟩ :: acc))
        (kforce (Nat.sub (hor (Nat.mul p p) e) (Nat.mul p (hor (Nat.mul p p) o))) fun g =>
          evals e o k l (⟨p, true, g⟩ :: acc))
        (Nat.ble (Nat.mul p (hor (Nat.mul p p) o)) (hor (Nat.mul p p) e)) := rfl
  rw [h1, kforce_eq, kforce_eq]

theorem evals_sound (q : ℝ[X]) (D S : ℕ) (e o : List ℕ)
    (hq : ∀ p : ℕ, q.eval ((p : ℝ) / D) * S
      = (hor (Nat.mul p p) e : ℝ) - (Nat.mul p (hor (Nat.mul p p) o) : ℕ)) (k : List V → Bool) :
    ∀ (l : List ℕ) (acc : List V), (∀ v ∈ acc, Rep q D S v) → evals e o k l acc = true →
    ∃ vs, k vs = true ∧ ∀ v ∈ vs, Rep q D S v
  | [], acc, ha, h => ⟨acc, h, ha⟩
  | p :: l, acc, ha, h => by
    rw [evals_cons] at h
    cases hh : Nat.ble (Nat.mul p (hor (Nat.mul p p) o)) (hor (Nat.mul p p) e) with
    | true =>
      rw [hh] at h
      refine evals_sound q D S e o hq k l _ (fun v hv => ?_) h
      rcases List.mem_cons.1 hv with rfl | hv
      · have := Nat.le_of_ble_eq_true hh
        simp only [Rep, if_true]
        rw [hq p, Nat.sub_eq, Nat.cast_sub this]
      · exact ha v hv
    | false =>
      rw [hh] at h
      refine evals_sound q D S e o hq k l _ (fun v hv => ?_) h
      rcases List.mem_cons.1 hv with rfl | hv
      · have : ¬ (Nat.mul p (hor (Nat.mul p p) o)) ≤ (hor (Nat.mul p p) e) := fun h' => by
          rw [Nat.ble_eq_true_of_le h'] at hh; exact absurd hh (by simp)
        simp only [Rep]
        rw [hq p, Nat.sub_eq, Nat.cast_sub (by omega)]
        simp
      · exact ha v hv

end Odes.StabCheck
