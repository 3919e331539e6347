import Verif.Model.Rock4L
import Verif.Spec.RockLin

/-!
# Rock4-L: from buffers to formulas
-/

namespace Odes.Rock4L

variable {α : Type} {n : ℕ}

theorem upd_self (hp : ℕ → Fin n → α) (p : ℕ) (v : Fin n → α) : upd hp p v p = v := by
  simp [upd]

theorem upd_ne (hp : ℕ → Fin n → α) {p q : ℕ} (v : Fin n → α) (h : q ≠ p) :
    upd hp p v q = hp q := by
  simp [upd, h]

theorem recfAt_of {T : Tab α} {i : ℤ} (h1 : 1 ≤ i) (h2 : i ≤ 4382) :
    recfAt T i = some (T.recf i.toNat) := by
  unfold recfAt
  rw [if_pos ⟨by omega, by omega⟩]

theorem fetch_of (T : Tab α) {mz : ℤ} (h1 : 1 ≤ mz) (h2 : mz ≤ 50) :
    fetch T mz = some ⟨T.fpa mz.toNat 1, T.fpa mz.toNat 2, T.fpa mz.toNat 3, T.fpa mz.toNat 4,
      T.fpa mz.toNat 5, T.fpa mz.toNat 6, T.fpb mz.toNat 1, T.fpb mz.toNat 2, T.fpb mz.toNat 3,
      T.fpb mz.toNat 4⟩ := by
  have ha : ∀ j : ℕ, 1 ≤ j → j ≤ 6 → fpaAt T mz j = some (T.fpa mz.toNat j) := by
    intro j j1 j2
    unfold fpaAt
    rw [if_pos ⟨j1, j2, by omega, by omega⟩]
  have hb : ∀ j : ℕ, 1 ≤ j → j ≤ 4 → fpbAt T mz j = some (T.fpb mz.toNat j) := by
    intro j j1 j2
    unfold fpbAt
    rw [if_pos ⟨j1, j2, by omega, by omega⟩]
  unfold fetch
  rw [ha 1 (by omega) (by omega), ha 2 (by omega) (by omega), ha 3 (by omega) (by omega),
    ha 4 (by omega) (by omega), ha 5 (by omega) (by omega), ha 6 (by omega) (by omega),
    hb 1 (by omega) (by omega), hb 2 (by omega) (by omega), hb 3 (by omega) (by omega),
    hb 4 (by omega) (by omega)]
  rfl

/-- coefficients of the recurrence in the block starting at `mr`. -/
def muOf (T : Tab α) (mr : ℤ) (j : ℕ) : α :=
  if j = 1 then T.recf mr.toNat else T.recf (mr + 2 * ((j : ℤ) - 2) + 1).toNat
@[inherit_doc muOf]
def kapOf (T : Tab α) (mr : ℤ) (j : ℕ) : α := T.recf (mr + 2 * ((j : ℤ) - 2) + 2).toNat

/-- the formula designated by (`mdeg`, `mp[1]`, `mp[2]`). -/
def formulaOf (T : Tab α) (mdeg mz mr : ℤ) : Spec.Gen.Formula α where
  deg := mdeg.toNat
  mu := muOf T mr
  kap := kapOf T mr
  a21 := T.fpa mz.toNat 1
  a31 := T.fpa mz.toNat 2
  a32 := T.fpa mz.toNat 3
  a41 := T.fpa mz.toNat 4
  a42 := T.fpa mz.toNat 5
  a43 := T.fpa mz.toNat 6
  b := fun j => T.fpb mz.toNat (j + 1)

variable [Add α] [Mul α] [Sub α] [Neg α] [OfNat α 1]

/-- values of the recurrence, without buffers. -/
def gSeq (first : Fin n → α) (op : (Fin n → α) → (Fin n → α) → α → α → α → Fin n → α)
    (mu kap : ℕ → α) (dt : α) (y : Fin n → α) : ℕ → Fin n → α
  | 0 => y
  | 1 => first
  | (j + 2) => op (gSeq first op mu kap dt y (j + 1)) (gSeq first op mu kap dt y j)
      (dt * mu (j + 2)) (1 - -kap (j + 2)) (-kap (j + 2))

/-- the three pointers are the three parts 1, 2, 3 of the work array. -/
def Perm3 (r : RL α n) : Prop :=
  r.g0 ≠ r.g1 ∧ r.g0 ≠ r.g2 ∧ r.g1 ≠ r.g2 ∧ 1 ≤ r.g0 ∧ r.g0 ≤ 3 ∧ 1 ≤ r.g1 ∧ r.g1 ≤ 3 ∧
    1 ≤ r.g2 ∧ r.g2 ≤ 3

theorem recLoop_spec (op : Three α n) (op0 : (Fin n → α) → (Fin n → α) → α → α → α → Fin n → α)
    (T : Tab α) (mr : ℤ) (dt : α) (y : ℕ) (hp0 : ℕ → Fin n → α) (first : Fin n → α)
    (hop : ∀ hp : ℕ → Fin n → α, (∀ q, 4 ≤ q → hp q = hp0 q) → op hp = op0) (hy : 4 ≤ y)
    (hmr : 1 ≤ mr) :
    ∀ (k j : ℕ) (r : RL α n), 2 ≤ j → mr + 2 * ((j : ℤ) + k - 2) ≤ 4382 → Perm3 r →
      (∀ q, 4 ≤ q → r.heap q = hp0 q) →
      r.heap r.g1 = gSeq first op0 (muOf T mr) (kapOf T mr) dt (hp0 y) (j - 1) →
      (j ≠ 2 → r.heap r.g0 = gSeq first op0 (muOf T mr) (kapOf T mr) dt (hp0 y) (j - 2)) →
      ∃ r', recLoop op T mr dt y k j r = some r' ∧ Perm3 r' ∧
        (∀ q, 4 ≤ q → r'.heap q = hp0 q) ∧
        r'.heap r'.g1 = gSeq first op0 (muOf T mr) (kapOf T mr) dt (hp0 y) (j + k - 1) ∧
        r'.calls = r.calls + k
  | 0, j, r, _, _, hP, hq, h1, _ => ⟨r, rfl, hP, hq, by simpa using h1, by simp⟩
  | k + 1, j, r, hj, hb, hP, hq, h1, h0 => by
    obtain ⟨p1, p2, p3, p4, p5, p6, p7, p8, p9⟩ := hP
    have hP' : ∀ v, Perm3 (permut3 { r with heap := upd r.heap r.g2 v, calls := r.calls + 1 }) := by
      intro v
      exact ⟨p3, p1.symm, p2.symm, p6, p7, p8, p9, p4, p5⟩
    have hq' : ∀ v q, 4 ≤ q → upd r.heap r.g2 v q = hp0 q := by
      intro v q h4
      rw [upd_ne _ _ (by omega), hq q h4]
    obtain ⟨j', rfl⟩ : ∃ j', j = j' + 2 := ⟨j - 2, by omega⟩
    have key : ∀ (i : ℤ), i = ((j' + 2 : ℕ) : ℤ) →
        ∃ r', recLoop op T mr dt y k (i + 1) (permut3
          { r with heap := upd r.heap r.g2 (gSeq first op0 (muOf T mr) (kapOf T mr) dt (hp0 y)
              (j' + 2)), calls := r.calls + 1 }) = some r' ∧ Perm3 r' ∧
        (∀ q, 4 ≤ q → r'.heap q = hp0 q) ∧
        r'.heap r'.g1 = gSeq first op0 (muOf T mr) (kapOf T mr) dt (hp0 y) (j' + 2 + (k + 1) - 1) ∧
        r'.calls = r.calls + (k + 1) := by
      rintro i rfl
      obtain ⟨r', e1, e2, e3, e4, e5⟩ := recLoop_spec op op0 T mr dt y hp0 first hop hy hmr k
        (j' + 3) (permut3 { r with heap := upd r.heap r.g2 (gSeq first op0 (muOf T mr)
          (kapOf T mr) dt (hp0 y) (j' + 2)), calls := r.calls + 1 }) (by omega)
        (by push_cast at hb ⊢; omega) (hP' _) (hq' _) (upd_self _ _ _)
        (fun _ => by
          show upd r.heap r.g2 _ r.g1 = _
          rw [upd_ne _ _ p3, h1]; rfl)
      refine ⟨r', ?_, e2, e3, ?_, ?_⟩
      · rw [← e1]; congr 1
      · rw [e4]; congr 1; omega
      · rw [e5]; show r.calls + 1 + k = _; omega
    have hop' : op r.heap = op0 := hop _ hq
    by_cases h2 : j' = 0
    · subst h2
      have c1 : recfAt T (mr + 1) = some (T.recf (mr + 1).toNat) :=
        recfAt_of (by omega) (by push_cast at hb; omega)
      have c2 : recfAt T (mr + 2) = some (T.recf (mr + 2).toNat) :=
        recfAt_of (by omega) (by push_cast at hb; omega)
      obtain ⟨r', e1, e2⟩ := key _ rfl
      refine ⟨r', ?_, e2⟩
      rw [← e1]
      simp only [recLoop]
      rw [if_pos (by norm_num), c1, c2]
      have m1 : T.recf (mr + 1).toNat = muOf T mr (0 + 2) := by
        rw [muOf, if_neg (by omega)]; norm_num
      have m2 : T.recf (mr + 2).toNat = kapOf T mr (0 + 2) := by
        rw [kapOf]; norm_num
      simp only [Option.bind_some, hop', h1, hq y hy, m1, m2]
      rfl
    · have c1 : recfAt T (mr + 2 * (((j' + 2 : ℕ) : ℤ) - 2) + 1)
          = some (muOf T mr (j' + 2)) := by
        rw [recfAt_of (by push_cast; omega) (by push_cast at hb ⊢; omega), muOf,
          if_neg (by omega)]
      have c2 : recfAt T (mr + 2 * (((j' + 2 : ℕ) : ℤ) - 2) + 2)
          = some (kapOf T mr (j' + 2)) := by
        rw [recfAt_of (by push_cast; omega) (by push_cast at hb ⊢; omega), kapOf]
      obtain ⟨r', e1, e2⟩ := key _ rfl
      refine ⟨r', ?_, e2⟩
      rw [← e1]
      simp only [recLoop]
      rw [if_neg (by push_cast; omega), c1, c2]
      simp only [Option.bind_some, hop', h1, h0 (by omega)]
      rfl

/-- value computed by the last four lines of `kernel1`. -/
def fin1 (O : Oper α n) (c : Coef α) (g : Fin n → α) : Fin n → α :=
  O.op5 (O.op5 (O.op5 (O.op5 g g (hc4 c) (hc3 c)) g 1 (hc2 c)) g 1 (hc1 c)) g 1 1

/-- value computed by the last lines of `kernel2`. -/
def fin2 (O : Oper α n) (c : Coef α) (dt : α) (b g : Fin n → α) : Fin n → α :=
  let k1 := O.op5 g b dt dt
  let p := O.op5 (O.op5 (O.op5 k1 k1 (hc4 c * (dt * dt * dt)) (hc3 c * (dt * dt))) k1 1
    (hc2 c * dt)) k1 1 (hc1 c)
  fun i => g i + p i

/-- coefficients of the finishing method read in the tables. -/
def coefOf (T : Tab α) (mz : ℤ) : Coef α :=
  ⟨T.fpa mz.toNat 1, T.fpa mz.toNat 2, T.fpa mz.toNat 3, T.fpa mz.toNat 4, T.fpa mz.toNat 5,
    T.fpa mz.toNat 6, T.fpb mz.toNat 1, T.fpb mz.toNat 2, T.fpb mz.toNat 3, T.fpb mz.toNat 4⟩

/-- all coefficients multiplied by `dt`. -/
def Coef.scale (dt : α) (f : Coef α) : Coef α :=
  ⟨dt * f.a21, dt * f.a31, dt * f.a32, dt * f.a41, dt * f.a42, dt * f.a43,
    dt * f.b1, dt * f.b2, dt * f.b3, dt * f.b4⟩

/-- `kernel1` without buffers. -/
def val1 (O : Oper α n) (T : Tab α) (mdeg mz mr : ℤ) (dt : α) (y : Fin n → α) : Fin n → α :=
  fin1 O ((coefOf T mz).scale dt)
    (gSeq (O.op5 y y (dt * muOf T mr 1) 1) O.op7 (muOf T mr) (kapOf T mr) dt y mdeg.toNat)

/-- `kernel2` without buffers. -/
def val2 (O : Oper α n) (T : Tab α) (mdeg mz mr : ℤ) (dt : α) (b y : Fin n → α) : Fin n → α :=
  fin2 O (coefOf T mz) dt b
    (gSeq (O.op6 y y (dt * muOf T mr 1) 1 b) (fun v s a1 a2 a3 => O.op8 v s a1 a2 a3 b)
      (muOf T mr) (kapOf T mr) dt y mdeg.toNat)

theorem kernel1_spec (O : Oper α n) (T : Tab α) {mdeg mz mr : ℤ} (heap : ℕ → Fin n → α) {y : ℕ}
    (dt : α) (hy : 4 ≤ y) (h1 : 1 ≤ mdeg) (h2 : 1 ≤ mz) (h3 : mz ≤ 50) (h4 : 1 ≤ mr)
    (h5 : mr + 2 * mdeg - 2 ≤ 4382) :
    ∃ hp, kernel1 O T mdeg mz mr heap y dt = some (hp, mdeg.toNat + 4) ∧
      hp y = val1 O T mdeg mz mr dt (heap y) ∧ ∀ q, 4 ≤ q → q ≠ y → hp q = heap q := by
  obtain ⟨r, e1, ⟨p1, p2, p3, p4, p5, p6, p7, p8, p9⟩, e3, e4, e5⟩ :=
    recLoop_spec (fun _ => O.op7) O.op7 T mr dt y heap
      (O.op5 (heap y) (heap y) (dt * muOf T mr 1) 1) (fun _ _ => rfl) hy h4 (mdeg - 1).toNat 2
      { heap := upd heap 2 (O.op5 (heap y) (heap y) (dt * muOf T mr 1) 1), g0 := 1, g1 := 2,
        g2 := 3, calls := 1 }
      le_rfl (by push_cast; omega) (by simp [Perm3])
      (fun q hq => upd_ne _ _ (by omega)) (by dsimp only; rw [upd_self]; rfl)
      (fun h => absurd rfl h)
  have e0 : recfAt T mr = some (muOf T mr 1) := by
    rw [recfAt_of h4 (by omega)]; rfl
  have ed : 2 + (mdeg - 1).toNat - 1 = mdeg.toNat := by omega
  have e1' : recLoop (fun _ => O.op7) T mr dt y (mdeg - 1).toNat 2
      { heap := upd heap 2 (O.op5 (heap y) (heap y) (dt * muOf T mr 1) 1), g0 := 1, g1 := 2,
        g2 := 3, calls := 0 + 1 } = some r := e1
  have hc : r.calls = mdeg.toNat := by rw [e5]; show 1 + (mdeg - 1).toNat = _; omega
  unfold kernel1
  rw [e0]
  simp only [Option.bind_some, split]
  rw [e1']
  simp only [Option.bind_some]
  rw [fetch_of T h2 h3]
  simp only [Option.bind_some]
  rw [hc]
  refine ⟨_, rfl, ?_, ?_⟩
  · rw [upd_self]
    have a1 : r.g1 ≠ 0 := by omega
    have a2 : r.g0 ≠ 0 := by omega
    have a3 : r.g1 ≠ r.g0 := p1.symm
    simp only [upd_self, upd_ne _ _ a1, upd_ne _ _ a2, upd_ne _ _ a3, upd_ne _ _ a3.symm,
      upd_ne _ _ a1.symm, upd_ne _ _ a2.symm, e4, ed]
    rfl
  · intro q h4' hne
    rw [upd_ne _ _ hne, upd_ne _ _ (by omega), upd_ne _ _ (by omega), upd_ne _ _ (by omega),
      e3 q h4']

theorem kernel2_spec (O : Oper α n) (T : Tab α) {mdeg mz mr : ℤ} (heap : ℕ → Fin n → α)
    {y b : ℕ} (dt : α) (hy : 4 ≤ y) (hb : 4 ≤ b) (h1 : 1 ≤ mdeg) (h2 : 1 ≤ mz) (h3 : mz ≤ 50)
    (h4 : 1 ≤ mr) (h5 : mr + 2 * mdeg - 2 ≤ 4382) :
    ∃ hp, kernel2 O T mdeg mz mr heap y b dt = some (hp, mdeg.toNat + 4) ∧
      hp y = val2 O T mdeg mz mr dt (heap b) (heap y) ∧ ∀ q, 4 ≤ q → q ≠ y → hp q = heap q := by
  obtain ⟨r, e1, ⟨p1, p2, p3, p4, p5, p6, p7, p8, p9⟩, e3, e4, e5⟩ :=
    recLoop_spec (fun hp v s a1 a2 a3 => O.op8 v s a1 a2 a3 (hp b))
      (fun v s a1 a2 a3 => O.op8 v s a1 a2 a3 (heap b)) T mr dt y heap
      (O.op6 (heap y) (heap y) (dt * muOf T mr 1) 1 (heap b))
      (fun hp h => by simp only [h b hb]) hy h4 (mdeg - 1).toNat 2
      { heap := upd heap 2 (O.op6 (heap y) (heap y) (dt * muOf T mr 1) 1 (heap b)), g0 := 1,
        g1 := 2, g2 := 3, calls := 1 }
      le_rfl (by push_cast; omega) (by simp [Perm3])
      (fun q hq => upd_ne _ _ (by omega)) (by dsimp only; rw [upd_self]; rfl)
      (fun h => absurd rfl h)
  have e0 : recfAt T mr = some (muOf T mr 1) := by
    rw [recfAt_of h4 (by omega)]; rfl
  have ed : 2 + (mdeg - 1).toNat - 1 = mdeg.toNat := by omega
  have e1' : recLoop (fun hp v s a1 a2 a3 => O.op8 v s a1 a2 a3 (hp b)) T mr dt y
      (mdeg - 1).toNat 2
      { heap := upd heap 2 (O.op6 (heap y) (heap y) (dt * muOf T mr 1) 1 (heap b)), g0 := 1,
        g1 := 2, g2 := 3, calls := 0 + 1 } = some r := e1
  have hc : r.calls = mdeg.toNat := by rw [e5]; show 1 + (mdeg - 1).toNat = _; omega
  unfold kernel2
  rw [e0]
  simp only [Option.bind_some, split]
  rw [e1']
  simp only [Option.bind_some]
  rw [fetch_of T h2 h3]
  simp only [Option.bind_some]
  rw [hc]
  refine ⟨_, rfl, ?_, ?_⟩
  · rw [upd_self]
    have a1 : r.g1 ≠ 0 := by omega
    have a2 : r.g0 ≠ 0 := by omega
    have a3 : r.g1 ≠ r.g0 := p1.symm
    have a4 : r.g2 ≠ 0 := by omega
    simp only [upd_self, upd_ne _ _ a1, upd_ne _ _ a2, upd_ne _ _ a3, upd_ne _ _ a3.symm,
      upd_ne _ _ a1.symm, upd_ne _ _ a2.symm, upd_ne _ _ a4, upd_ne _ _ a4.symm, upd_ne _ _ p2,
      upd_ne _ _ p2.symm, upd_ne _ _ p3, upd_ne _ _ p3.symm, e4, ed, e3 b hb]
    rfl
  · intro q h4' hne
    rw [upd_ne _ _ hne, upd_ne _ _ (by omega), upd_ne _ _ (by omega), upd_ne _ _ (by omega),
      upd_ne _ _ (by omega), e3 q h4']

end Odes.Rock4L
