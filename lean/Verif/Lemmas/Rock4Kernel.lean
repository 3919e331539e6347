import Verif.Model.Rock4
import Verif.Lemmas.Num
import Verif.Spec.Rock4

/-! Lemmas about the ROCK4 kernel. -/

namespace Odes.Rock4

open Classical

variable {n : ℕ}

@[simp] theorem upd_same (hp : ℕ → Vec n) (p : ℕ) (v : Vec n) : upd hp p v p = v := by
  simp [upd]
theorem upd_ne (hp : ℕ → Vec n) {p q : ℕ} (v : Vec n) (h : q ≠ p) : upd hp p v q = hp q := by
  simp [upd, h]

open Spec (gRec)

theorem applyDeg_spec (P : Problem n) (T : Tables) (mr : ℤ) (h : X) (k1 : ℕ) (deg : ℤ)
    (r r' : RL n) (hr : applyDeg P T mr h k1 deg r = some r')
    (hd : r.g1 ≠ r.g0) (h1 : r.g1 ≠ k1) (h0 : r.g0 ≠ k1) :
    ∃ c1 c2, recfAt T (mr + 2 * (deg - 2) + 1) = some c1 ∧
      recfAt T (mr + 2 * (deg - 2) + 2) = some c2 ∧
      r'.g1 = r.g0 ∧ r'.g0 = r.g1 ∧ r'.calls = r.calls + 1 ∧
      r'.heap r.g1 = r.heap r.g1 ∧
      r'.heap r.g0 = (fun i => h * c1 * P.F (r.heap r.g1) i + (1 + c2) * r.heap r.g1 i
        - c2 * r.heap r.g0 i) ∧
      (∀ q, q ≠ r.g0 → q ≠ k1 → r'.heap q = r.heap q) := by
  simp only [applyDeg, Option.bind_eq_bind, Option.bind_eq_some_iff] at hr
  obtain ⟨c1, e1, c2, e2, e3⟩ := hr
  simp at e3
  subst e3
  refine ⟨c1, c2, e1, e2, rfl, rfl, rfl, ?_, ?_, ?_⟩
  · simp [upd_ne _ _ hd, upd_ne _ _ h1]
  · funext i
    have : (OfScientific.ofScientific 10 true 1 : ℝ) = 1 := by norm_num
    simp only [upd_same, upd_ne _ _ h1, upd_ne _ _ h0, this, ← X.one_eq, X.sub_neg_eq,
      X.neg_mul_eq, X.add_neg_eq]
  · intro q hq hq'
    simp [upd_ne _ _ hq, upd_ne _ _ hq']

theorem apply2_spec (P : Problem n) (T : Tables) (mr : ℤ) (h : X) (y : ℕ)
    (r r' : RL n) (hr : apply2 P T mr h y r = some r')
    (hd : r.g1 ≠ r.g0) (hy : y ≠ r.g0) :
    ∃ c1 c2, recfAt T (mr + 1) = some c1 ∧ recfAt T (mr + 2) = some c2 ∧
      r'.g1 = r.g0 ∧ r'.g0 = r.g1 ∧ r'.calls = r.calls + 1 ∧
      r'.heap r.g1 = r.heap r.g1 ∧
      r'.heap r.g0 = (fun i => h * c1 * P.F (r.heap r.g1) i + (1 + c2) * r.heap r.g1 i
        - c2 * r.heap y i) ∧
      (∀ q, q ≠ r.g0 → r'.heap q = r.heap q) := by
  simp only [apply2, Option.bind_eq_bind, Option.bind_eq_some_iff] at hr
  obtain ⟨c1, e1, c2, e2, e3⟩ := hr
  simp at e3
  subst e3
  refine ⟨c1, c2, e1, e2, rfl, rfl, rfl, ?_, ?_, ?_⟩
  · simp [upd_ne _ _ hd]
  · funext i
    have : (OfScientific.ofScientific 10 true 1 : ℝ) = 1 := by norm_num
    simp only [upd_same, upd_ne _ _ hd, upd_ne _ _ hy, this, ← X.one_eq, X.sub_neg_eq,
      X.neg_mul_eq, X.add_neg_eq]
  · intro q hq
    simp [upd_ne _ _ hq]

/-- coefficients of the block of `RECF` starting at `mr`. -/
noncomputable def muOf (T : Tables) (mr : ℤ) (j : ℕ) : X :=
  if j = 1 then T.recf mr.toNat else T.recf (mr + 2 * ((j : ℤ) - 2) + 1).toNat
noncomputable def kapOf (T : Tables) (mr : ℤ) (j : ℕ) : X :=
  T.recf (mr + 2 * ((j : ℤ) - 2) + 2).toNat

theorem recfAt_some {T : Tables} {i : ℤ} {c : X} (h : recfAt T i = some c) :
    c = T.recf i.toNat ∧ 1 ≤ i ∧ i ≤ 4382 := by
  unfold recfAt at h
  split_ifs at h with hc
  simp at h
  exact ⟨h.symm, by omega, by omega⟩

theorem recfAt_of {T : Tables} {i : ℤ} (h1 : 1 ≤ i) (h2 : i ≤ 4382) :
    recfAt T i = some (T.recf i.toNat) := by
  unfold recfAt
  rw [if_pos ⟨by omega, by omega⟩]

/-- state of the recurrence after the loop. -/
theorem recLoop_spec (P : Problem n) (T : Tables) (mr : ℤ) (h : X) (y k1 : ℕ) :
    ∀ (k j : ℕ) (r r' : RL n),
      recLoop P T mr h y k1 k ((j : ℤ) + 2) r = some r' →
      r.g1 ≠ r.g0 → r.g1 ≠ k1 → r.g0 ≠ k1 → y ≠ r.g0 → y ≠ r.g1 → y ≠ k1 →
      r.heap r.g1 = gRec P.F (muOf T mr) (kapOf T mr) h (r.heap y) (j + 1) →
      (1 ≤ j → r.heap r.g0 = gRec P.F (muOf T mr) (kapOf T mr) h (r.heap y) j) →
      r'.heap r'.g1 = gRec P.F (muOf T mr) (kapOf T mr) h (r.heap y) (j + 1 + k) ∧
      ((r'.g1 = r.g1 ∧ r'.g0 = r.g0) ∨ (r'.g1 = r.g0 ∧ r'.g0 = r.g1)) ∧
      r'.calls = r.calls + k ∧
      (∀ q, q ≠ r.g0 → q ≠ r.g1 → q ≠ k1 → r'.heap q = r.heap q) := by
  intro k
  induction k with
  | zero =>
    intro j r r' hr _ _ _ _ _ _ hg1 _
    simp [recLoop] at hr
    subst hr
    exact ⟨by simpa using hg1, Or.inl ⟨rfl, rfl⟩, by simp, fun _ _ _ _ => rfl⟩
  | succ k ih =>
    intro j r r' hr hd h1 h0 hy0 hy1 hyk hg1 hg0
    simp only [recLoop, Option.bind_eq_some_iff] at hr
    obtain ⟨r1, e1, e2⟩ := hr
    have ecast : ((j : ℤ) + 2 + 1) = ((j + 1 : ℕ) : ℤ) + 2 := by push_cast; ring
    rw [ecast] at e2
    by_cases hj : j = 0
    · subst hj
      simp only [Nat.cast_zero, zero_add, if_true] at e1
      obtain ⟨c1, c2, f1, f2, p1, p0, pc, q1, q0, qf⟩ := apply2_spec P T mr h y r r1 e1 hd hy0
      have hc1 := (recfAt_some f1).1
      have hc2 := (recfAt_some f2).1
      have hyy : r1.heap y = r.heap y := qf y hy0
      obtain ⟨a, b, c, d⟩ := ih 1 r1 r' e2 (by rw [p1, p0]; exact hd.symm) (by rw [p1]; exact h0)
        (by rw [p0]; exact h1) (by rw [p0]; exact hy1) (by rw [p1]; exact hy0) hyk
        (by
          rw [p1, q0, hyy]
          funext i
          have e0 : gRec P.F (muOf T mr) (kapOf T mr) h (r.heap y) (1 + 1) =
            fun i => h * muOf T mr 2 * P.F (gRec P.F (muOf T mr) (kapOf T mr) h (r.heap y) 1) i
              + (1 + kapOf T mr 2) * gRec P.F (muOf T mr) (kapOf T mr) h (r.heap y) 1 i
              - kapOf T mr 2 * r.heap y i := rfl
          simp only [zero_add] at hg1
          rw [e0, ← hg1]
          have e3 : muOf T mr 2 = c1 := by rw [hc1]; simp [muOf]
          have e4 : kapOf T mr 2 = c2 := by rw [hc2]; simp [kapOf]
          rw [e3, e4])
        (by
          intro _
          rw [p0, q1, hyy]
          simpa using hg1)
      refine ⟨?_, ?_, ?_, ?_⟩
      · rw [a, hyy]; congr 1; omega
      · rw [p1, p0] at b; tauto
      · rw [c, pc]; omega
      · intro q hq0 hq1 hqk
        rw [d q (by rw [p0]; exact hq1) (by rw [p1]; exact hq0) hqk, qf q hq0]
    · have hne : ¬ ((j : ℤ) + 2 = 2) := by omega
      simp only [hne, if_false] at e1
      obtain ⟨c1, c2, f1, f2, p1, p0, pc, q1, q0, qf⟩ :=
        applyDeg_spec P T mr h k1 ((j : ℤ) + 2) r r1 e1 hd h1 h0
      have hc1 := (recfAt_some f1).1
      have hc2 := (recfAt_some f2).1
      have hyy : r1.heap y = r.heap y := qf y hy0 hyk
      obtain ⟨a, b, c, d⟩ := ih (j + 1) r1 r' e2 (by rw [p1, p0]; exact hd.symm)
        (by rw [p1]; exact h0) (by rw [p0]; exact h1) (by rw [p0]; exact hy1)
        (by rw [p1]; exact hy0) hyk
        (by
          rw [p1, q0, hyy]
          funext i
          have e0 : gRec P.F (muOf T mr) (kapOf T mr) h (r.heap y) (j + 1 + 1) =
            fun i => h * muOf T mr (j + 2) * P.F (gRec P.F (muOf T mr) (kapOf T mr) h (r.heap y) (j + 1)) i
              + (1 + kapOf T mr (j + 2)) * gRec P.F (muOf T mr) (kapOf T mr) h (r.heap y) (j + 1) i
              - kapOf T mr (j + 2) * gRec P.F (muOf T mr) (kapOf T mr) h (r.heap y) j i := rfl
          rw [e0, ← hg1, ← hg0 (by omega)]
          have e3 : muOf T mr (j + 2) = c1 := by
            rw [hc1]; simp [muOf]
          have e4 : kapOf T mr (j + 2) = c2 := by
            rw [hc2]; simp [kapOf]
          rw [e3, e4])
        (by
          intro _
          rw [p0, q1, hyy]
          exact hg1)
      refine ⟨?_, ?_, ?_, ?_⟩
      · rw [a, hyy]; congr 1; omega
      · rw [p1, p0] at b; tauto
      · rw [c, pc]; omega
      · intro q hq0 hq1 hqk
        rw [d q (by rw [p0]; exact hq1) (by rw [p1]; exact hq0) hqk, qf q hq0 hqk]

/-- the recurrence never leaves the table when its block fits. -/
theorem recLoop_isSome (P : Problem n) (T : Tables) (mr : ℤ) (h : X) (y k1 : ℕ) :
    ∀ (k : ℕ) (i : ℤ) (r : RL n), 2 ≤ i → 1 ≤ mr → mr + 2 * (i + k - 1) - 2 ≤ 4382 →
      ∃ r', recLoop P T mr h y k1 k i r = some r' := by
  intro k
  induction k with
  | zero => intro i r _ _ _; exact ⟨r, rfl⟩
  | succ k ih =>
    intro i r hi hmr hb
    simp only [recLoop]
    push_cast at hb
    by_cases h2 : i = 2
    · subst h2
      simp only [if_true]
      have e1 : recfAt T (mr + 1) = some (T.recf (mr + 1).toNat) := recfAt_of (by omega) (by omega)
      have e2 : recfAt T (mr + 2) = some (T.recf (mr + 2).toNat) := recfAt_of (by omega) (by omega)
      simp only [apply2, e1, e2, Option.bind_eq_bind, Option.bind_some, Option.pure_def]
      exact ih _ _ (by omega) hmr (by omega)
    · simp only [h2, if_false]
      have e1 : recfAt T (mr + 2 * (i - 2) + 1) = some (T.recf (mr + 2 * (i - 2) + 1).toNat) :=
        recfAt_of (by omega) (by omega)
      have e2 : recfAt T (mr + 2 * (i - 2) + 2) = some (T.recf (mr + 2 * (i - 2) + 2).toNat) :=
        recfAt_of (by omega) (by omega)
      simp only [applyDeg, e1, e2, Option.bind_eq_bind, Option.bind_some, Option.pure_def]
      exact ih _ _ (by omega) hmr (by omega)

/-- the formula selected by (`mdeg`, `mp[1]`, `mp[2]`) in the tables. -/
noncomputable def formulaOf (T : Tables) (mdeg mz mr : ℤ) : Spec.Formula where
  deg := mdeg.toNat
  mu := muOf T mr
  kap := kapOf T mr
  a21 := T.fpa mz.toNat 1
  a31 := T.fpa mz.toNat 2
  a32 := T.fpa mz.toNat 3
  a41 := T.fpa mz.toNat 4
  a42 := T.fpa mz.toNat 5
  a43 := T.fpa mz.toNat 6
  b := fun j => T.fpb mz.toNat (j + 1)
  be := fun j => T.fpbe mz.toNat (j + 1)

/-- all eight pointers designate different buffers. -/
def Distinct (s : St n) : Prop :=
  [s.y, s.fn, s.k1, s.k2, s.k3, s.k4, s.temp, s.g0].Nodup

theorem fpaAt_in (T : Tables) {mz : ℤ} (h1 : 1 ≤ mz) (h2 : mz ≤ 50) {j : ℕ} (hj : 1 ≤ j)
    (hj' : j ≤ 6) : fpaAt T mz j = some (T.fpa mz.toNat j) := by
  unfold fpaAt
  rw [if_pos]
  refine ⟨h1, h2, ?_, ?_⟩ <;> omega
theorem fpbAt_in (T : Tables) {mz : ℤ} (h1 : 1 ≤ mz) (h2 : mz ≤ 50) {j : ℕ} (hj : 1 ≤ j)
    (hj' : j ≤ 4) : fpbAt T mz j = some (T.fpb mz.toNat j) := by
  unfold fpbAt
  rw [if_pos]
  refine ⟨h1, h2, ?_, ?_⟩ <;> omega
theorem fpbeAt_in (T : Tables) {mz : ℤ} (h1 : 1 ≤ mz) (h2 : mz ≤ 50) {j : ℕ} (hj : 1 ≤ j)
    (hj' : j ≤ 5) : fpbeAt T mz j = some (T.fpbe mz.toNat j) := by
  unfold fpbeAt
  rw [if_pos]
  refine ⟨h1, h2, ?_, ?_⟩ <;> omega

theorem fetch_in (T : Tables) {mz : ℤ} (h1 : 1 ≤ mz) (h2 : mz ≤ 50) :
    fetch T mz = some ⟨T.fpa mz.toNat 1, T.fpa mz.toNat 2, T.fpa mz.toNat 3, T.fpa mz.toNat 4, T.fpa mz.toNat 5, T.fpa mz.toNat 6, T.fpb mz.toNat 1, T.fpb mz.toNat 2, T.fpb mz.toNat 3, T.fpb mz.toNat 4, T.fpbe mz.toNat 1, T.fpbe mz.toNat 2, T.fpbe mz.toNat 3, T.fpbe mz.toNat 4, T.fpbe mz.toNat 5⟩ := by
  unfold fetch
  rw [fpaAt_in T h1 h2 (j := 1) (by norm_num) (by norm_num), Option.bind_some, fpaAt_in T h1 h2 (j := 2) (by norm_num) (by norm_num), Option.bind_some, fpaAt_in T h1 h2 (j := 3) (by norm_num) (by norm_num), Option.bind_some, fpaAt_in T h1 h2 (j := 4) (by norm_num) (by norm_num), Option.bind_some, fpaAt_in T h1 h2 (j := 5) (by norm_num) (by norm_num), Option.bind_some, fpaAt_in T h1 h2 (j := 6) (by norm_num) (by norm_num), Option.bind_some, fpbAt_in T h1 h2 (j := 1) (by norm_num) (by norm_num), Option.bind_some, fpbAt_in T h1 h2 (j := 2) (by norm_num) (by norm_num), Option.bind_some, fpbAt_in T h1 h2 (j := 3) (by norm_num) (by norm_num), Option.bind_some, fpbAt_in T h1 h2 (j := 4) (by norm_num) (by norm_num), Option.bind_some, fpbeAt_in T h1 h2 (j := 1) (by norm_num) (by norm_num), Option.bind_some, fpbeAt_in T h1 h2 (j := 2) (by norm_num) (by norm_num), Option.bind_some, fpbeAt_in T h1 h2 (j := 3) (by norm_num) (by norm_num), Option.bind_some, fpbeAt_in T h1 h2 (j := 4) (by norm_num) (by norm_num), Option.bind_some, fpbeAt_in T h1 h2 (j := 5) (by norm_num) (by norm_num), Option.bind_some]

theorem fetch_some {T : Tables} {mz : ℤ} {c : Coef} (h : fetch T mz = some c) :
    c = ⟨T.fpa mz.toNat 1, T.fpa mz.toNat 2, T.fpa mz.toNat 3, T.fpa mz.toNat 4, T.fpa mz.toNat 5, T.fpa mz.toNat 6, T.fpb mz.toNat 1, T.fpb mz.toNat 2, T.fpb mz.toNat 3, T.fpb mz.toNat 4, T.fpbe mz.toNat 1, T.fpbe mz.toNat 2, T.fpbe mz.toNat 3, T.fpbe mz.toNat 4, T.fpbe mz.toNat 5⟩ := by
  by_cases hz : 1 ≤ mz ∧ mz ≤ 50
  · rw [fetch_in T hz.1 hz.2] at h
    exact (Option.some.inj h).symm
  · have : fpaAt T mz 1 = none := by
      unfold fpaAt; rw [if_neg]; intro h'; exact hz ⟨h'.1, h'.2.1⟩
    rw [fetch, this, Option.bind_none] at h
    cases h

/-- the finishing method on disjoint buffers. -/
theorem finish_spec (P : Problem n) (c : Coef) (s : St n) (dt : X) (heap : ℕ → Vec n)
    (temp g0 : ℕ)
    (hd : [s.y, s.fn, s.k1, s.k2, s.k3, s.k4, temp, g0].Nodup) :
    let h' := finish P c s dt heap temp g0
    let k1 := P.F (heap g0)
    let k2 := P.F (fun i => heap g0 i + dt * c.a1 * k1 i)
    let k3 := P.F (fun i => heap g0 i + dt * c.a2 * k1 i + dt * c.a3 * k2 i)
    let k4 := P.F (fun i => heap g0 i + dt * c.a4 * k1 i + dt * c.a5 * k2 i + dt * c.a6 * k3 i)
    let yn := fun i => heap g0 i + dt * c.b1 * k1 i + dt * c.b2 * k2 i + dt * c.b3 * k3 i
      + dt * c.b4 * k4 i
    h' s.k1 = k1 ∧ h' s.k2 = k2 ∧ h' s.k3 = k3 ∧ h' s.k4 = k4 ∧ h' temp = yn ∧
    h' g0 = P.F yn ∧ h' s.y = heap s.y ∧ h' s.fn = heap s.fn := by
  simp only [List.nodup_cons, List.mem_cons, List.not_mem_nil, not_or, or_false,
    not_false_eq_true, List.nodup_nil, and_true] at hd
  obtain ⟨⟨y1, y2, y3, y4, y5, y6, y7⟩, ⟨f1, f2, f3, f4, f5, f6⟩, ⟨a1, a2, a3, a4, a5⟩,
    ⟨b1, b2, b3, b4⟩, ⟨c1, c2, c3⟩, ⟨d1, d2⟩, e1⟩ := hd
  intro h' k1 k2 k3 k4 yn
  have H1 : ∀ q, evalF P heap g0 s.k1 q = if q = s.k1 then k1 else heap q := fun q => rfl
  obtain ⟨h1, e_h1⟩ : ∃ h1, h1 = evalF P heap g0 s.k1 := ⟨_, rfl⟩
  rw [← e_h1] at H1
  obtain ⟨h2, e_h2⟩ : ∃ h2, h2 = cl1 h1 temp g0 (dt * c.a1) s.k1 := ⟨_, rfl⟩
  have H2 : ∀ q, h2 q = if q = temp then (fun i => heap g0 i + dt * c.a1 * k1 i) else h1 q := by
    intro q; rw [e_h2, cl1, upd]; simp [H1, Ne.symm a5]
  obtain ⟨h3, e_h3⟩ : ∃ h3, h3 = evalF P h2 temp s.k2 := ⟨_, rfl⟩
  have H3 : ∀ q, h3 q = if q = s.k2 then k2 else h2 q := by
    intro q; rw [e_h3, evalF, upd]; simp [H2, k2]
  obtain ⟨h4, e_h4⟩ : ∃ h4, h4 = cl2 h3 temp g0 (dt * c.a2) s.k1 (dt * c.a3) s.k2 := ⟨_, rfl⟩
  have H4 : ∀ q, h4 q = if q = temp then
      (fun i => heap g0 i + dt * c.a2 * k1 i + dt * c.a3 * k2 i) else h3 q := by
    intro q; rw [e_h4, cl2, upd]
    simp [H3, H2, H1, Ne.symm a5, Ne.symm b4, Ne.symm e1, a1, a4]
  obtain ⟨h5, e_h5⟩ : ∃ h5, h5 = evalF P h4 temp s.k3 := ⟨_, rfl⟩
  have H5 : ∀ q, h5 q = if q = s.k3 then k3 else h4 q := by
    intro q; rw [e_h5, evalF, upd]; simp [H4, k3]
  obtain ⟨h6, e_h6⟩ : ∃ h6, h6 = cl3 h5 temp g0 (dt * c.a4) s.k1 (dt * c.a5) s.k2 (dt * c.a6) s.k3 :=
    ⟨_, rfl⟩
  have H6 : ∀ q, h6 q = if q = temp then
      (fun i => heap g0 i + dt * c.a4 * k1 i + dt * c.a5 * k2 i + dt * c.a6 * k3 i) else h5 q := by
    intro q; rw [e_h6, cl3, upd]
    simp [H5, H4, H3, H2, H1, Ne.symm a5, Ne.symm b4, Ne.symm c3, Ne.symm e1, a1, a2, a4, b1, b3]
  obtain ⟨h7, e_h7⟩ : ∃ h7, h7 = evalF P h6 temp s.k4 := ⟨_, rfl⟩
  have H7 : ∀ q, h7 q = if q = s.k4 then k4 else h6 q := by
    intro q; rw [e_h7, evalF, upd]; simp [H6, k4]
  obtain ⟨h8, e_h8⟩ : ∃ h8, h8 = ct h7 temp g0 (dt * c.b1) s.k1 (dt * c.b2) s.k2 (dt * c.b3) s.k3
      (dt * c.b4) s.k4 := ⟨_, rfl⟩
  have H8 : ∀ q, h8 q = if q = temp then yn else h7 q := by
    intro q; rw [e_h8, ct, upd]
    simp [H7, H6, H5, H4, H3, H2, H1, Ne.symm a5, Ne.symm b4, Ne.symm c3, Ne.symm d2, Ne.symm e1,
      a1, a2, a3, a4, b1, b2, b3, c1, c2, yn]
  have H9 : ∀ q, h' q = if q = g0 then P.F yn else h8 q := by
    intro q
    show finish P c s dt heap temp g0 q = _
    unfold finish
    rw [← e_h1, ← e_h2, ← e_h3, ← e_h4, ← e_h5, ← e_h6, ← e_h7, ← e_h8]
    simp [evalF, upd, H8]
  clear e_h1 e_h2 e_h3 e_h4 e_h5 e_h6 e_h7 e_h8
  refine ⟨?_, ?_, ?_, ?_, ?_, ?_, ?_, ?_⟩ <;>
    simp only [if_true, if_false, *]

/-- result of the recurrence. -/
theorem recurrence_spec (P : Problem n) (T : Tables) (s : St n) (dt : X) (r : RL n)
    (hr : recurrence P T s dt = some r) (hd : Distinct s) (hm : 1 ≤ s.mdeg)
    (hfn : s.heap s.fn = P.F (s.heap s.y)) :
    r.heap r.g0 = gRec P.F (muOf T s.mp2) (kapOf T s.mp2) dt (s.heap s.y) s.mdeg.toNat ∧
    ((r.g1 = s.temp ∧ r.g0 = s.g0) ∨ (r.g1 = s.g0 ∧ r.g0 = s.temp)) ∧
    r.calls = s.calls + (s.mdeg - 1).toNat ∧
    (∀ q, q ≠ s.g0 → q ≠ s.temp → q ≠ s.k1 → r.heap q = s.heap q) := by
  unfold Distinct at hd
  simp only [List.nodup_cons, List.mem_cons, List.not_mem_nil, not_or, or_false,
    not_false_eq_true, List.nodup_nil, and_true] at hd
  obtain ⟨⟨y1, y2, y3, y4, y5, y6, y7⟩, ⟨f1, f2, f3, f4, f5, f6⟩, ⟨a1, a2, a3, a4, a5⟩,
    ⟨b1, b2, b3, b4⟩, ⟨c1, c2, c3⟩, ⟨d1, d2⟩, e1⟩ := hd
  simp only [recurrence, Option.bind_eq_some_iff] at hr
  obtain ⟨c0, hc0, r1, hr1, hr2⟩ := hr
  have hc := (recfAt_some hc0).1
  have hg : cl1 s.heap s.temp s.y (dt * c0) s.fn s.temp
      = gRec P.F (muOf T s.mp2) (kapOf T s.mp2) dt (s.heap s.y) 1 := by
    simp only [cl1, upd_same, gRec, hfn, muOf, if_true, hc]
  have hy : cl1 s.heap s.temp s.y (dt * c0) s.fn s.y = s.heap s.y := by
    simp only [cl1, upd_ne _ _ y6]
  have hq : ∀ q, q ≠ s.temp → cl1 s.heap s.temp s.y (dt * c0) s.fn q = s.heap q := by
    intro q h; simp only [cl1, upd_ne _ _ h]
  by_cases h2 : s.mdeg < 2
  · have h1 : s.mdeg = 1 := by omega
    have h2' : ¬ (2 ≤ s.mdeg) := by omega
    simp only [h1, sub_self, Int.toNat_zero, recLoop, Option.some.injEq] at hr1
    subst hr1
    simp only [h2', if_false, Option.some.injEq] at hr2
    subst hr2
    refine ⟨?_, Or.inr ⟨rfl, rfl⟩, ?_, ?_⟩
    · simp [hg, h1]
    · simp [h1]
    · intro q _ h _; exact hq q h
  · have h2' : 2 ≤ s.mdeg := by omega
    simp only [h2, if_false] at hr1
    simp only [h2', if_true, Option.some.injEq] at hr2
    subst hr2
    obtain ⟨A, B, C, D⟩ := recLoop_spec P T s.mp2 dt s.y s.k1 (s.mdeg - 1).toNat 0 _ r1
      (by simpa using hr1) (by simpa using e1) (by simpa using Ne.symm a4)
      (by simpa using Ne.symm a5) (by simpa using y7) (by simpa using y6) y2
      (by simpa [hy] using hg) (by intro h; omega)
    refine ⟨?_, ?_, C, ?_⟩
    · simp only at A ⊢
      rw [A]
      simp only [hy]
      congr 1; omega
    · simp only at B ⊢; tauto
    · intro q h h' h''
      simp only
      rw [D q h h' h'']
      exact hq q h'

theorem lit_one : (1.0 : X) = 1 := by
  show X.fin _ = X.fin _
  norm_num

theorem rpp2_eq (y : Vec n) (a1 : X) (x1 : Vec n) (a2 : X) (x2 : Vec n) (a3 : X) (x3 : Vec n)
    (a4 : X) (x4 : Vec n) (a5 : X) (x5 : Vec n) (atol rtol : X) :
    rpp2 y a1 x1 a2 x2 a3 x3 a4 x4 a5 x5 atol rtol =
    (List.finRange n).foldl (fun ret i => ret +
      (a1 * x1 i + a2 * x2 i + a3 * x3 i + a4 * x4 i + a5 * x5 i) *
      (a1 * x1 i + a2 * x2 i + a3 * x3 i + a4 * x4 i + a5 * x5 i) *
      (1 / (X.ABS (y i) * rtol + atol)) * (1 / (X.ABS (y i) * rtol + atol))) 0 := by
  unfold rpp2
  rw [lit_one]

/-- the kernel computes one step of the reference formula on pairwise different buffers. -/
theorem kernel_spec (P : Problem n) (T : Tables) (s s' : St n) (dt err : X)
    (hk : kernel P T s dt = some (s', err)) (hd : Distinct s) (hm : 1 ≤ s.mdeg)
    (hfn : s.heap s.fn = P.F (s.heap s.y)) :
    let R := formulaOf T s.mdeg s.mp1 s.mp2
    let g := Spec.stages R P.F dt (s.heap s.y)
    s'.heap s'.temp = g.ynew ∧ s'.heap s'.g0 = g.fnew ∧
    s'.heap s.y = s.heap s.y ∧ s'.heap s.fn = s.heap s.fn ∧
    err = Spec.scaledRms (Spec.errVec R dt g) g.ynew s.atol s.rtol := by
  simp only [kernel, Option.bind_eq_some_iff] at hk
  obtain ⟨r, hr, c, hc, he⟩ := hk
  obtain ⟨A, B, C, D⟩ := recurrence_spec P T s dt r hr hd hm hfn
  have hc' := fetch_some hc
  simp only [Option.some.injEq, Prod.mk.injEq] at he
  obtain ⟨he1, he2⟩ := he
  have hd' := hd
  unfold Distinct at hd'
  simp only [List.nodup_cons, List.mem_cons, List.not_mem_nil, not_or, or_false,
    not_false_eq_true, List.nodup_nil, and_true] at hd'
  obtain ⟨⟨y1, y2, y3, y4, y5, y6, y7⟩, ⟨f1, f2, f3, f4, f5, f6⟩, ⟨a1, a2, a3, a4, a5⟩,
    ⟨b1, b2, b3, b4⟩, ⟨c1, c2, c3⟩, ⟨d1, d2⟩, e1⟩ := hd'
  have hd2 : [s.y, s.fn, s.k1, s.k2, s.k3, s.k4, r.g1, r.g0].Nodup := by
    rcases B with ⟨b1, b0⟩ | ⟨b1, b0⟩ <;> rw [b1, b0]
    · exact hd
    · unfold Distinct at hd
      exact (List.Perm.nodup_iff (by
        repeat refine List.Perm.cons _ ?_
        exact List.Perm.swap _ _ _)).1 hd
  obtain ⟨q1, q2, q3, q4, q5, q6, q7, q8⟩ := finish_spec P c s dt r.heap r.g1 r.g0 hd2
  rw [q1, q2, q3, q4, q5, q6] at he2
  rw [A] at q1 q2 q3 q4 q5 q6 he2
  subst hc'
  subst he1
  refine ⟨?_, ?_, ?_, ?_, ?_⟩
  · exact q5
  · exact q6
  · rw [← D s.y y7 y6 y2]; exact q7
  · rw [← D s.fn f6 f5 f1]; exact q8
  · rw [← he2, rpp2_eq]
    rfl

/-- what the kernel leaves alone. -/
theorem kernel_frame (P : Problem n) (T : Tables) (s s' : St n) (dt err : X)
    (hk : kernel P T s dt = some (s', err)) (hd : Distinct s) (hm : 1 ≤ s.mdeg)
    (hfn : s.heap s.fn = P.F (s.heap s.y)) :
    ((s'.temp = s.temp ∧ s'.g0 = s.g0) ∨ (s'.temp = s.g0 ∧ s'.g0 = s.temp)) ∧
    s' = { s with heap := s'.heap, temp := s'.temp, g0 := s'.g0,
                  funccal := s.funccal + s.mdeg + 4,
                  calls := s.calls + (s.mdeg + 4).toNat } := by
  simp only [kernel, Option.bind_eq_some_iff] at hk
  obtain ⟨r, hr, c, hc, he⟩ := hk
  obtain ⟨A, B, C, D⟩ := recurrence_spec P T s dt r hr hd hm hfn
  simp only [Option.some.injEq, Prod.mk.injEq] at he
  obtain ⟨he1, he2⟩ := he
  subst he1
  refine ⟨B, ?_⟩
  have : s.funccal + (s.mdeg - 1) + 4 + 1 = s.funccal + s.mdeg + 4 := by ring
  have h2 : r.calls + 5 = s.calls + (s.mdeg + 4).toNat := by rw [C]; omega
  simp only [this, h2]

/-- the kernel stays inside the tables when the block of the degree fits. -/
theorem kernel_isSome (P : Problem n) (T : Tables) (s : St n) (dt : X) (h1 : 1 ≤ s.mdeg)
    (h2 : 1 ≤ s.mp1) (h3 : s.mp1 ≤ 50) (h4 : 1 ≤ s.mp2)
    (h5 : s.mp2 + 2 * s.mdeg - 2 ≤ 4382) :
    ∃ s' err, kernel P T s dt = some (s', err) := by
  have e0 := recfAt_of (T := T) (i := s.mp2) h4 (by omega)
  have : ∃ r, recurrence P T s dt = some r := by
    simp only [recurrence, e0, Option.bind_some]
    obtain ⟨r', hr'⟩ := recLoop_isSome P T s.mp2 dt s.y s.k1 (s.mdeg - 1).toNat 2
      (if s.mdeg < 2 then
        { heap := cl1 s.heap s.temp s.y (dt * T.recf s.mp2.toNat) s.fn, g1 := s.g0, g0 := s.temp,
          calls := s.calls : RL n }
       else { heap := cl1 s.heap s.temp s.y (dt * T.recf s.mp2.toNat) s.fn, g1 := s.temp,
              g0 := s.g0, calls := s.calls }) (by norm_num) h4 (by omega)
    rw [hr']
    exact ⟨_, rfl⟩
  obtain ⟨r, hr⟩ := this
  exact ⟨_, _, by rw [kernel, hr, Option.bind_some, fetch_in T h2 h3, Option.bind_some]⟩

end Odes.Rock4
