import Verif.Lemmas.RodasControl

/-! Invariants of the loops of Rodas. -/

namespace Odes.Rodas

open Classical

variable {n : ℕ} {L : Lin X n} {P : Prob X n} {g : Cfg n} {q : ℝ}

/-! ### arithmetic of the step size -/

theorem MIN_ABS_fin (a : X) (m : ℝ) : ∃ v, X.MIN (X.ABS a) (.fin m) = .fin v ∧ v ≤ m ∧
    (0 ≤ m → 0 ≤ v) ∧ (∀ r, a = .fin r → v = min |r| m) := by
  cases a with
  | fin r =>
    rw [X.ABS_fin, X.MIN_fin]
    refine ⟨_, rfl, min_le_right _ _, fun h => le_min (abs_nonneg r) h, ?_⟩
    intro r' h
    rw [X.fin_inj] at h
    rw [h]
  | nan =>
    refine ⟨m, ?_, le_rfl, id, fun r h => by simp at h⟩
    unfold X.MIN X.ABS; simp
  | pinf =>
    refine ⟨m, ?_, le_rfl, id, fun r h => by simp at h⟩
    unfold X.MIN X.ABS; simp
  | ninf =>
    refine ⟨m, ?_, le_rfl, id, fun r h => by simp at h⟩
    unfold X.MIN X.ABS; simp

/-- direction and maximal step computed at the start. -/
theorem start_dir (o : St n L.σ) (h : X) (x xe : ℝ) (y : Fin n → X) :
    (start o h (.fin x) (.fin xe) y).posneg = .fin (if x ≤ xe then 1 else -1) ∧
    (start o h (.fin x) (.fin xe) y).hmaxn =
      .fin (min |xe - x| (if x ≤ xe then xe - x else -xe - x)) := by
  constructor
  · show X.SIGN _ = _
    unfold X.SIGN
    by_cases hx : x ≤ xe <;> simp [hx]
  · show X.MIN _ _ = _
    rw [X.fin_sub, X.ABS_fin, X.ABSsub_fin, X.MIN_fin]

/-- the quantities which no transition changes. -/
theorem step_const {s s' : St n L.σ} (h : step L P g s = .next s') :
    s'.xend = s.xend ∧ s'.posneg = s.posneg ∧ s'.hmaxn = s.hmaxn := by
  rcases step_cases h with ⟨-, -, -, rfl⟩ | ⟨-, j, k, err, -, -, ⟨-, rfl⟩ | ⟨-, -, -, rfl⟩⟩ <;>
    exact ⟨rfl, rfl, rfl⟩

theorem div_fac {a : X} {f : ℝ} (h0 : f ≠ 0) {r : ℝ} (ha : a = .fin r) :
    a / .fin f = .fin (r / f) := by rw [ha, X.fin_div _ _ h0]

theorem facOf_ne_zero_cases (hg : Std g q) {err : X}
    (he : err = .nan ∨ err = .pinf ∨ ∃ r, 0 ≤ r ∧ err = .fin r) (a : X)
    (ha : a = .nan ∨ ∃ r, a = .fin r) :
    a / facOf g err = .nan ∨ ∃ r, a / facOf g err = .fin r := by
  rcases facOf_range hg he with ⟨-, hf⟩ | ⟨f, hf, h1, -⟩
  · left; rw [hf, X.div_nan]
  · rw [hf]
    rcases ha with rfl | ⟨r, rfl⟩
    · left; simp
    · right; exact ⟨r / f, X.fin_div _ _ (by linarith)⟩

/-! ### the run stops only at `xend` -/

/-- invariant for finite end points, both directions. -/
structure Inv (x0 xe : ℝ) (s : St n L.σ) : Prop where
  xend : s.xend = .fin xe
  posneg : s.posneg = .fin (if x0 ≤ xe then 1 else -1)
  hmaxn : s.hmaxn = .fin (min |xe - x0| (if x0 ≤ xe then xe - x0 else -xe - x0))
  x : s.x = .nan ∨ ∃ r, s.x = .fin r
  h : s.inner = true → s.h = .nan ∨ ∃ r, s.h = .fin r
  last : s.inner = true → s.last = true → ∃ r, s.x = .fin r ∧ s.h = .fin (xe - r)
  done : s.inner = false → s.last = true → s.x = .fin xe

theorem inv_start (o : St n L.σ) (h : X) (x xe : ℝ) (y : Fin n → X) :
    Inv x xe (start o h (.fin x) (.fin xe) y) where
  xend := rfl
  posneg := (start_dir o h x xe y).1
  hmaxn := (start_dir o h x xe y).2
  x := Or.inr ⟨x, rfl⟩
  h := fun hi => by simp [start] at hi
  last := fun hi => by simp [start] at hi
  done := fun _ hl => by simp [start] at hl

/-- the step size of the head of the loop is finite. -/
theorem hTop_fin {x0 xe : ℝ} {s : St n L.σ} (hs : Inv x0 xe s) : ∃ r, hTop g s = .fin r := by
  unfold hTop
  rw [hs.hmaxn, hs.posneg]
  obtain ⟨v, h1, -⟩ := MIN_ABS_fin (if X.ABS s.h < 10.0 * g.uround then 1.0e-6 else s.h)
    (min |xe - x0| (if x0 ≤ xe then xe - x0 else -xe - x0))
  rw [h1]
  exact ⟨_, X.fin_mul _ _⟩

/-- the test for the last step. -/
theorem over_iff {x0 xe : ℝ} {s : St n L.σ} (hs : Inv x0 xe s) {v r : ℝ} (hv : hTop g s = .fin v)
    (hx : s.x = .fin r) :
    Over g s ↔ 0 < (r + v * 1.0001 - xe) * (if x0 ≤ xe then 1 else -1) := by
  unfold Over
  rw [hv, hs.xend, hs.posneg, hx]
  simp only [X.ofSci_eq, X.fin_mul, X.fin_add, X.fin_sub, X.fin_lt]
  norm_num

theorem not_over_nan {s : St n L.σ} (hx : s.x = .nan) : ¬ Over g s := by
  unfold Over
  rw [hx]
  simp

theorem inv_step (hg : Std g q) {x0 xe : ℝ} {s s' : St n L.σ} (hs : Inv x0 xe s)
    (h : step L P g s = .next s') : Inv x0 xe s' := by
  obtain ⟨c1, c2, c3⟩ := step_const h
  rcases step_cases h with ⟨hi, hl, -, rfl⟩ | ⟨hi, j, k, err, -, he, ⟨h1, rfl⟩ | ⟨h1, -, -, rfl⟩⟩
  · obtain ⟨v, hv⟩ := hTop_fin (g := g) hs
    refine ⟨c1.trans hs.xend, c2.trans hs.posneg, c3.trans hs.hmaxn, hs.x, fun _ => ?_,
      fun _ h2 => ?_, fun h2 => by simp [prepared] at h2⟩
    · rw [prepared_h]
      by_cases ho : Over g s
      · rw [if_pos ho, hs.xend]
        rcases hs.x with hx | ⟨r, hx⟩
        · exact absurd ho (not_over_nan hx)
        · right; rw [hx]; exact ⟨_, X.fin_sub _ _⟩
      · rw [if_neg ho, hv]
        exact Or.inr ⟨v, rfl⟩
    · have ho : Over g s := by
        by_contra ho
        have : (prepared L P g s).last = s.last := by rw [prepared_last, if_neg ho]
        rw [this, hl] at h2
        simp at h2
      rcases hs.x with hx | ⟨r, hx⟩
      · exact absurd ho (not_over_nan hx)
      · refine ⟨r, hx, ?_⟩
        rw [prepared_h, if_pos ho, hs.xend, hx, X.fin_sub]
  · refine ⟨c1.trans hs.xend, c2.trans hs.posneg, c3.trans hs.hmaxn, hs.x, fun _ => ?_,
      fun _ h2 => by simp [rejected] at h2, fun h2 => by simp [rejected, hi] at h2⟩
    exact facOf_ne_zero_cases hg (he ▸ errNorm_values _ _ _) s.h (hs.h hi)
  · refine ⟨c1.trans hs.xend, c2.trans hs.posneg, c3.trans hs.hmaxn, ?_,
      fun h2 => by simp [accepted] at h2, fun h2 => by simp [accepted] at h2, fun _ h2 => ?_⟩
    · show s.x + s.h = _ ∨ ∃ r, s.x + s.h = _
      rcases hs.x with hx | ⟨r, hx⟩
      · left; rw [hx]; simp
      · rcases hs.h hi with hh | ⟨r', hh⟩
        · left; rw [hh]; simp
        · right; rw [hx, hh]; exact ⟨_, X.fin_add _ _⟩
    · obtain ⟨r, hx, hh⟩ := hs.last hi h2
      show s.x + s.h = _
      rw [hx, hh, X.fin_add]
      congr 1; ring

theorem inv_reach (hg : Std g q) {o : St n L.σ} {h : X} {x xe : ℝ} {y : Fin n → X} {s : St n L.σ}
    (hr : Reach (step L P g) (start o h (.fin x) (.fin xe) y) s) : Inv x xe s :=
  hr.inv (fun _ _ hI hst => inv_step hg hI hst) (inv_start o h x xe y)

/-! ### forward integration stays in the interval -/

/-- sum of step sizes. -/
def sumTo (x0 : ℝ) : List ℝ → ℝ
  | [] => x0
  | h :: l => sumTo x0 l + h

/-- `(x, h)` of a forward run: either lost in NaN, or inside. -/
structure FInv (x0 xe : ℝ) (s : St n L.σ) : Prop where
  base : Inv x0 xe s
  pos : (s.x = .nan ∧ s.last = false) ∨
    ∃ l : List ℝ, s.taken = l.map X.fin ∧ (∀ d ∈ l, 0 < d) ∧ s.x = .fin (sumTo x0 l) ∧
      x0 ≤ sumTo x0 l ∧ sumTo x0 l ≤ xe ∧
      (s.inner = false → s.last = false → sumTo x0 l < xe) ∧
      (s.inner = true → (s.h = .nan ∧ s.last = false ∧ sumTo x0 l < xe) ∨
        ∃ hh, s.h = .fin hh ∧ 0 < hh ∧ sumTo x0 l < xe ∧
        (if s.last then sumTo x0 l + hh = xe else sumTo x0 l + hh < xe))

theorem finv_start (o : St n L.σ) (h : X) {x xe : ℝ} (hx : x < xe) (y : Fin n → X) :
    FInv x xe (start o h (.fin x) (.fin xe) y) where
  base := inv_start o h x xe y
  pos := Or.inr ⟨[], rfl, by simp, rfl, le_rfl, hx.le, fun _ _ => hx,
    fun hi => by simp [start] at hi⟩

theorem hTop_pos (hg : Std g q) {x0 xe : ℝ} (hx : x0 < xe) {s : St n L.σ} (hs : Inv x0 xe s) :
    ∃ v, hTop g s = .fin v ∧ 0 < v ∧ v ≤ xe - x0 := by
  have hm : s.hmaxn = .fin (xe - x0) := by
    rw [hs.hmaxn, if_pos hx.le, abs_of_nonneg (by linarith), min_self]
  have hp : s.posneg = .fin 1 := by rw [hs.posneg, if_pos hx.le]
  unfold hTop
  rw [hm, hp, hg.uround]
  generalize ha : (if X.ABS s.h < 10.0 * X.fin 1.0e-16 then (1.0e-6 : X) else s.h) = a
  obtain ⟨v, h1, h2, h3, h4⟩ := MIN_ABS_fin a (xe - x0)
  rw [h1, X.fin_mul, mul_one]
  refine ⟨v, rfl, ?_, h2⟩
  have hd : 0 < xe - x0 := by linarith
  cases a with
  | fin r =>
    rw [h4 r rfl]
    refine lt_min (abs_pos.2 ?_) hd
    rintro rfl
    split_ifs at ha with hc
    · rw [X.ofSci_eq, X.fin_inj] at ha; norm_num at ha
    · rw [ha, X.ABS_fin, X.ofSci_eq, X.fin_mul, X.fin_lt] at hc
      norm_num at hc
  | nan =>
    have : v = xe - x0 := by
      unfold X.MIN X.ABS at h1
      simp at h1; exact h1.symm
    rw [this]; exact hd
  | pinf =>
    have : v = xe - x0 := by
      unfold X.MIN X.ABS at h1
      simp at h1; exact h1.symm
    rw [this]; exact hd
  | ninf =>
    have : v = xe - x0 := by
      unfold X.MIN X.ABS at h1
      simp at h1; exact h1.symm
    rw [this]; exact hd

theorem finv_step (hg : Std g q) {x0 xe : ℝ} (hx : x0 < xe) {s s' : St n L.σ}
    (hs : FInv x0 xe s) (h : step L P g s = .next s') : FInv x0 xe s' := by
  refine ⟨inv_step hg hs.base h, ?_⟩
  rcases step_cases h with ⟨hi, hl, hn, rfl⟩ | ⟨hi, j, k, err, -, he, ⟨h1, rfl⟩ | ⟨h1, -, -, rfl⟩⟩
  · rcases hs.pos with ⟨p1, p2⟩ | ⟨l, p1, p2, p3, p4, p5, p6, p7⟩
    · left
      refine ⟨p1, ?_⟩
      rw [prepared_last, if_neg (not_over_nan p1)]; exact p2
    · right
      have h6 := p6 hi hl
      obtain ⟨v, v1, v2, v3⟩ := hTop_pos hg hx hs.base
      have ho := over_iff hs.base v1 p3
      rw [if_pos hx.le, mul_one] at ho
      refine ⟨l, p1, p2, p3, p4, p5, fun hc => by simp [prepared] at hc, fun _ => Or.inr ?_⟩
      by_cases hO : Over g s
      · refine ⟨xe - sumTo x0 l, ?_, by linarith, h6, ?_⟩
        · rw [prepared_h, if_pos hO, hs.base.xend, p3, X.fin_sub]
        · have : (prepared L P g s).last = true := by rw [prepared_last, if_pos hO]
          rw [this, if_pos rfl]; ring
      · refine ⟨v, ?_, v2, h6, ?_⟩
        · rw [prepared_h, if_neg hO, v1]
        · have : (prepared L P g s).last = false := by rw [prepared_last, if_neg hO]; exact hl
          rw [this, if_neg (by decide)]
          have h7 : sumTo x0 l + v * 1.0001 - xe ≤ 0 := not_lt.1 fun hc => hO (ho.2 hc)
          have : v < v * 1.0001 := by norm_num; linarith
          linarith
  · rcases hs.pos with ⟨p1, p2⟩ | ⟨l, p1, p2, p3, p4, p5, p6, p7⟩
    · left; exact ⟨p1, rfl⟩
    · right
      refine ⟨l, p1, p2, p3, p4, p5, fun hc => by simp [rejected, hi] at hc, fun _ => ?_⟩
      have hlast : (rejected g s j err).last = false := rfl
      have hh' : (rejected g s j err).h = s.h / facOf g err := rfl
      rw [hlast, hh']
      simp only [Bool.false_eq_true, if_false]
      rcases p7 hi with ⟨a1, a2, a3⟩ | ⟨hh, a1, a2, a3, a4⟩
      · left; rw [a1]; exact ⟨by simp, trivial, a3⟩
      · rcases facOf_range hg (he ▸ errNorm_values _ _ _) with ⟨-, hf⟩ | ⟨f, hf, b1, b2, b3⟩
        · left; rw [hf]; exact ⟨by simp, trivial, a3⟩
        · right
          have b4 := (b3 h1).1
          have b0 : 0 < f := by linarith
          refine ⟨hh / f, by rw [hf, a1, X.fin_div _ _ b0.ne'], by positivity, a3, ?_⟩
          have b5 : hh / f < hh := div_lt_self a2 b4
          split_ifs at a4 <;> linarith
  · rcases hs.pos with ⟨p1, p2⟩ | ⟨l, p1, p2, p3, p4, p5, p6, p7⟩
    · left
      refine ⟨?_, p2⟩
      show s.x + s.h = _
      rw [p1]; simp
    · rcases p7 hi with ⟨a1, a2, a3⟩ | ⟨hh, a1, a2, a3, a4⟩
      · left
        refine ⟨?_, a2⟩
        show s.x + s.h = _
        rw [a1]; simp
      · right
        have hle : sumTo x0 l + hh ≤ xe := by
          split_ifs at a4
          · exact a4.le
          · exact a4.le
        refine ⟨hh :: l, ?_, ?_, ?_, ?_, hle, ?_, fun hc => by simp [accepted] at hc⟩
        · show s.h :: s.taken = _
          rw [a1, p1]; rfl
        · intro d hd
          rcases List.mem_cons.1 hd with rfl | hd
          · exact a2
          · exact p2 d hd
        · show s.x + s.h = _
          rw [p3, a1, X.fin_add]; rfl
        · show x0 ≤ sumTo x0 l + hh
          linarith
        · intro _ hlast
          have : s.last = false := hlast
          rw [this, if_neg (by decide)] at a4
          exact a4

theorem finv_reach (hg : Std g q) {o : St n L.σ} {h : X} {x xe : ℝ} (hx : x < xe) {y : Fin n → X}
    {s : St n L.σ} (hr : Reach (step L P g) (start o h (.fin x) (.fin xe) y) s) : FInv x xe s :=
  hr.inv (fun _ _ hI hst => finv_step hg hx hI hst) (finv_start o h hx y)

end Odes.Rodas
