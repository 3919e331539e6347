import Verif.Model.Symplectic
import Verif.Spec.Symplectic
import Verif.Lemmas.Mem
import Mathlib.Algebra.BigOperators.Fin
import Mathlib.Data.Real.Basic

/-!
# Lemmas on the symplectic methods
-/

namespace Odes.Symp

open Odes.Mem Spec

/-- a counted loop from 0 with a loop variable in ℕ. -/
theorem forUp_nat {σ : Type} {body : ℤ → σ → Option σ} (P : ℕ → σ → Prop) (s : ℕ) {st : σ}
    (h0 : P 0 st)
    (hstep : ∀ j st, j < s → P j st → ∃ st', body (j : ℤ) st = some st' ∧ P (j + 1) st') :
    ∃ st', forUp 0 ((s : ℤ) - 1) body st = some st' ∧ P s st' := by
  obtain ⟨st', h1, h2⟩ := forUp_inv (body := body) (fun j st => P j.toNat st) (lo := 0)
    (hi := (s : ℤ) - 1) (s := st) (by omega) (by simpa using h0) (by
      intro j st hj hj' hP
      obtain ⟨st', hb, hP'⟩ := hstep j.toNat st (by omega) hP
      rw [Int.toNat_of_nonneg hj] at hb
      exact ⟨st', hb, by rwa [Int.toNat_add hj (by norm_num)]⟩)
  refine ⟨st', h1, ?_⟩
  have : ((s : ℤ) - 1 + 1).toNat = s := by omega
  rwa [this] at h2

variable {α : Type} [Add α] [Sub α] [Mul α] [Zero α] [One α] [LE α] {n : ℕ}

/-- component `l` of stage `i` of `Y` or `Y1`. -/
def row (b : Buf α) (i : ℕ) : Fin n → α := fun l => b.cell ((i : ℤ) * n + l)

theorem off_le {n s i : ℕ} (h : i < s) : (i : ℤ) * n + n ≤ n * s := by
  have : (i : ℤ) + 1 ≤ s := by omega
  nlinarith [Int.natCast_nonneg n]

theorem rdN_in {b : Buf α} {s : ℕ} (hb : b.size = n * s) {i : ℕ} (hi : i < s) :
    rdN (n := n) b (i * n) = some (row b i) := by
  unfold rdN
  rw [if_pos ⟨by positivity, by rw [hb]; exact off_le hi⟩]
  rfl

/-- `b` with stage `i` replaced. -/
def setRow (b : Buf α) (i : ℕ) (x : Fin n → α) : Buf α :=
  { b with cell := fun k =>
      if h : 0 ≤ k - (i : ℤ) * n ∧ k - (i : ℤ) * n < n then x ⟨(k - (i : ℤ) * n).toNat, by omega⟩
      else b.cell k }

theorem wrN_in {b : Buf α} {s : ℕ} (hb : b.size = n * s) {i : ℕ} (hi : i < s) (x : Fin n → α) :
    wrN b (i * n) x = some (setRow b i x) := by
  unfold wrN
  rw [if_pos ⟨by positivity, by rw [hb]; exact off_le hi⟩]
  rfl

theorem row_setRow (b : Buf α) (i j : ℕ) (x : Fin n → α) :
    row (setRow b i x) j = if j = i then x else row b j := by
  funext l
  have hl := l.2
  by_cases h : j = i
  · subst h
    simp only [row, setRow, if_true]
    rw [dif_pos (by constructor <;> omega)]
    congr 1
    ext
    show ((j : ℤ) * n + l - j * n).toNat = l
    omega
  · rw [if_neg h]
    simp only [row, setRow]
    rw [dif_neg]
    intro hh
    rcases lt_or_gt_of_ne h with hlt | hlt
    · have := off_le (n := n) hlt
      have h2 : (n : ℤ) * i = i * n := mul_comm _ _
      omega
    · have := off_le (n := n) hlt
      have h2 : (n : ℤ) * j = j * n := mul_comm _ _
      omega

/-- sizes of the arrays. -/
structure Wf (c : Cfg α n) (st : St α n) : Prop where
  Y : st.Y.size = n * c.s
  Y1 : st.Y1.size = n * c.s
  ga : st.ga.size = c.s * c.s
  gb : st.gb.size = c.s
  q : st.q.size = c.s * c.s

/-- lengths of the tables. -/
structure Tab (c : Cfg α n) : Prop where
  la : c.la.length = c.s * c.s
  lb : c.lb.length = c.s
  lc : c.lc.length = c.s * c.s
  two : 2 ≤ c.s
  max : c.s ≤ 16

theorem copyL_of {l : List α} {b : Buf α} (h : (l.length : ℤ) ≤ b.size) :
    ∃ b', copyL l b = some b' ∧ b'.size = b.size ∧ ∀ k : ℕ, k < l.length → b'.cell k = l.getD k 0 := by
  refine ⟨_, if_pos h, rfl, fun k hk => ?_⟩
  show (if 0 ≤ (k : ℤ) ∧ (k : ℤ) < l.length then l.getD (k : ℤ).toNat 0 else b.cell k) = _
  rw [if_pos ⟨by omega, by omega⟩, Int.toNat_natCast]

theorem scale_of {m : ℕ} {h : α} {b : Buf α} (hm : b.size = m) :
    ∃ b', scale m h b = some b' ∧ b'.size = b.size ∧ ∀ k : ℕ, k < m → b'.cell k = b.cell k * h := by
  unfold scale
  obtain ⟨b', h1, h2, h3, _⟩ := forUp_nat (body := fun (i : ℤ) (b : Buf α) =>
      (b.rd i).bind fun x => b.wr i (x * h))
    (fun j b' => b'.size = b.size ∧ (∀ k : ℕ, k < j → b'.cell k = b.cell k * h) ∧
      ∀ k : ℕ, j ≤ k → b'.cell k = b.cell k) m (st := b) ⟨rfl, by simp, by simp⟩ (by
      rintro j b' hj ⟨g1, g2, g3⟩
      have hin : 0 ≤ (j : ℤ) ∧ (j : ℤ) < b'.size := ⟨by omega, by omega⟩
      refine ⟨⟨b'.size, Function.update b'.cell j (b'.cell j * h)⟩, ?_, g1, ?_, ?_⟩
      · simp only [Buf.rd_in hin, Option.bind_some, Buf.wr_in _ hin]
      · intro k hk
        by_cases hkj : k = j
        · subst hkj; simp [g3 k le_rfl]
        · have : (k : ℤ) ≠ j := by omega
          simp only [Function.update_of_ne this]
          exact g2 k (by omega)
      · intro k hk
        have : (k : ℤ) ≠ j := by omega
        simp only [Function.update_of_ne this]
        exact g3 k (by omega))
  exact ⟨b', h1, h2, h3⟩

/-- the arrays of coefficients are the tables times `h` converted to `double`. -/
structure Coef (c : Cfg α n) (h : α) (st : St α n) : Prop where
  ga : ∀ k : ℕ, k < c.s * c.s → st.ga.cell k = c.la.getD k 0 * c.narrow h
  gb : ∀ k : ℕ, k < c.s → st.gb.cell k = c.lb.getD k 0 * c.narrow h
  q : ∀ k : ℕ, k < c.s * c.s → st.q.cell k = c.lc.getD k 0 * c.narrow h

/-- same arrays of coefficients, compensation and `Old_h`. -/
structure Same (st st' : St α n) : Prop where
  ga : st'.ga = st.ga
  gb : st'.gb = st.gb
  q : st'.q = st.q
  e : st'.e = st.e
  oldH : st'.oldH = st.oldH

theorem Same.refl (st : St α n) : Same st st := ⟨rfl, rfl, rfl, rfl, rfl⟩

theorem Same.trans {a b d : St α n} (h : Same a b) (k : Same b d) : Same a d :=
  ⟨k.ga.trans h.ga, k.gb.trans h.gb, k.q.trans h.q, k.e.trans h.e, k.oldH.trans h.oldH⟩

theorem Coef.congr {c : Cfg α n} {h : α} {st st' : St α n} (k : Coef c h st) (hs : Same st st') :
    Coef c h st' :=
  ⟨by rw [hs.ga]; exact k.ga, by rw [hs.gb]; exact k.gb, by rw [hs.q]; exact k.q⟩

theorem change_of {c : Cfg α n} (hT : Tab c) (h : α) {st : St α n} (hw : Wf c st) :
    ∃ st', (gChange c h { st with oldH := h }).bind (eChange c h) = some st' ∧ Wf c st' ∧
      Coef c h st' ∧ st'.oldH = h ∧ st'.e = st.e ∧ st'.Y = st.Y ∧ st'.Y1 = st.Y1 ∧ st'.tv = st.tv ∧
      st'.tvold = st.tvold ∧ st'.calls = st.calls := by
  have ea := hT.la
  have eb := hT.lb
  have ec := hT.lc
  obtain ⟨a1, ha1, ha2, ha3⟩ := copyL_of (l := c.la) (b := st.ga) (by rw [hw.ga, ea]; push_cast; rfl)
  obtain ⟨b1, hb1, hb2, hb3⟩ := copyL_of (l := c.lb) (b := st.gb) (by rw [hw.gb, eb])
  obtain ⟨q1, hq1, hq2, hq3⟩ := copyL_of (l := c.lc) (b := st.q) (by rw [hw.q, ec]; push_cast; rfl)
  obtain ⟨a2, ha4, ha5, ha6⟩ := scale_of (m := c.s * c.s) (h := c.narrow h) (b := a1)
    (by rw [ha2, hw.ga]; push_cast; rfl)
  obtain ⟨b2, hb4, hb5, hb6⟩ := scale_of (m := c.s) (h := c.narrow h) (b := b1)
    (by rw [hb2, hw.gb])
  obtain ⟨q2, hq4, hq5, hq6⟩ := scale_of (m := c.s * c.s) (h := c.narrow h) (b := q1)
    (by rw [hq2, hw.q]; push_cast; rfl)
  refine ⟨{ st with oldH := h, ga := a2, gb := b2, q := q2 }, ?_, ?_, ?_, rfl, rfl, rfl, rfl, rfl, rfl,
    rfl⟩
  · push_cast at ha4 hq4
    simp only [gChange, eChange, ha1, hb1, hq1, ha4, hb4, hq4, Option.bind_some, Option.map_some]
  · exact ⟨hw.Y, hw.Y1, by rw [ha5, ha2, hw.ga], by rw [hb5, hb2, hw.gb], by rw [hq5, hq2, hw.q]⟩
  · exact ⟨fun k hk => by rw [ha6 k hk, ha3 k (by omega)],
      fun k hk => by rw [hb6 k hk, hb3 k (by omega)], fun k hk => by rw [hq6 k hk, hq3 k (by omega)]⟩

theorem startAt_of {c : Cfg α n} (u : Fin n → α) {st : St α n} (hw : Wf c st) :
    ∃ st', startAt c u st = some st' ∧ Wf c st' ∧ Same st st' ∧ st'.Y1 = st.Y1 ∧ st'.tv = st.tv ∧
      st'.calls = st.calls ∧ ∀ i, i < c.s → row st'.Y i = u := by
  unfold startAt
  obtain ⟨st', h1, h2⟩ := forUp_nat (body := fun (i : ℤ) (st : St α n) =>
      (wrN st.Y (i * n) u).map fun Y => { st with Y := Y })
    (fun j st' => Wf c st' ∧ Same st st' ∧ st'.Y1 = st.Y1 ∧ st'.tv = st.tv ∧
      st'.calls = st.calls ∧ ∀ i, i < j → row st'.Y i = u) c.s (st := st)
    ⟨hw, Same.refl _, rfl, rfl, rfl, by simp⟩ (by
      rintro j st' hj ⟨g1, g2, g3, g4, g5, g6⟩
      refine ⟨{ st' with Y := setRow st'.Y j u }, ?_, ⟨g1.Y, g1.Y1, g1.ga, g1.gb, g1.q⟩,
        ⟨g2.ga, g2.gb, g2.q, g2.e, g2.oldH⟩, g3, g4, g5, fun i hi => ?_⟩
      · simp only [wrN_in g1.Y hj, Option.map_some]
      · simp only [row_setRow]
        split_ifs with hij
        · rfl
        · exact g6 i (by omega))
  exact ⟨st', h1, h2⟩

theorem evals_of {c : Cfg α n} {st : St α n} (hw : Wf c st) :
    ∃ st', evals c st = some st' ∧ Wf c st' ∧ Same st st' ∧ st'.Y = st.Y ∧ st'.tv = st.tv ∧
      st'.iter = st.iter ∧ st'.calls = st.calls + c.s ∧
      ∀ i, i < c.s → row st'.Y1 i = c.f (row st.Y i) := by
  unfold evals
  obtain ⟨st', h1, h2⟩ := forUp_nat (body := fun (i : ℤ) (st : St α n) =>
      (rdN (n := n) st.Y (i * n)).bind fun v =>
      (wrN st.Y1 (i * n) (c.f v)).map fun Y1 => { st with v := v, Y1 := Y1, calls := st.calls + 1 })
    (fun j st' => Wf c st' ∧ Same st st' ∧ st'.Y = st.Y ∧ st'.tv = st.tv ∧
      st'.iter = st.iter ∧ st'.calls = st.calls + j ∧ ∀ i, i < j → row st'.Y1 i = c.f (row st.Y i))
    c.s (st := st) ⟨hw, Same.refl _, rfl, rfl, rfl, rfl, by simp⟩ (by
      rintro j st' hj ⟨g1, g2, g3, g4, g5, g6, g7⟩
      refine ⟨{ st' with v := row st'.Y j, Y1 := setRow st'.Y1 j (c.f (row st'.Y j)),
                         calls := st'.calls + 1 },
        ?_, ⟨g1.Y, g1.Y1, g1.ga, g1.gb, g1.q⟩,
        ⟨g2.ga, g2.gb, g2.q, g2.e, g2.oldH⟩, g3, g4, g5, ?_, fun i hi => ?_⟩
      · simp only [rdN_in g1.Y hj, wrN_in g1.Y1 hj, Option.map_some, Option.bind_some]
      · simp only [g6]; omega
      · simp only [row_setRow, g3]
        split_ifs with hij
        · rw [hij]
        · exact g7 i (by omega))
  exact ⟨st', h1, h2⟩

theorem sumL_congr {g g' : ℕ → α} {init : α} {k : ℕ} (h : ∀ j, j < k → g j = g' j) :
    sumL g init k = sumL g' init k := by
  induction k with
  | zero => rfl
  | succ k ih => rw [sumL, sumL, ih fun j hj => h j (by omega), h k (by omega)]

theorem combine_of {c : Cfg α n} {i : ℕ} (hi : i < c.s) {st : St α n} (hw : Wf c st) :
    combine c i st = some { st with
      v := stageVal (fun i j => st.ga.cell ((i * c.s + j : ℕ) : ℤ)) c.s st.v (row st.Y1) i } := by
  unfold combine
  obtain ⟨st', h1, h2⟩ := forUp_nat (body := fun (j : ℤ) (st : St α n) =>
      (st.ga.rd ((i : ℤ) * c.s + j)).bind fun aij =>
      (rdN (n := n) st.Y1 (j * n)).map fun k => { st with v := fun l => st.v l + aij * k l })
    (fun k st' => st' = { st with
      v := stageVal (fun i j => st.ga.cell ((i * c.s + j : ℕ) : ℤ)) k st.v (row st.Y1) i })
    c.s (st := st) rfl (by
      rintro j st' hj rfl
      have hin : 0 ≤ (i : ℤ) * c.s + j ∧ (i : ℤ) * c.s + j < st.ga.size := by
        rw [hw.ga]
        have := off_le (n := c.s) hi
        constructor
        · positivity
        · omega
      refine ⟨_, ?_, rfl⟩
      simp only [Buf.rd_in hin, rdN_in hw.Y1 hj, Option.bind_some, Option.map_some]
      simp only [stageVal, sumL]
      push_cast
      rfl)
  rw [h1, h2]

theorem resid_congr {Z Y Z' Y' : ℕ → Fin n → α} {k : ℕ} (h : ∀ i, i < k → Z i = Z' i)
    (h' : ∀ i, i < k → Y i = Y' i) : resid Z Y k = resid Z' Y' k := by
  induction k with
  | zero => rfl
  | succ k ih =>
    rw [resid, resid, ih (fun j hj => h j (by omega)) fun j hj => h' j (by omega), h k (by omega),
      h' k (by omega)]

theorem update_of {c : Cfg α n} (u : Fin n → α) {st : St α n} (hw : Wf c st) :
    ∃ st', update c u st = some st' ∧ Wf c st' ∧ Same st st' ∧ st'.Y1 = st.Y1 ∧ st'.tvold = st.tv ∧
      st'.iter = st.iter ∧ st'.calls = st.calls ∧
      (∀ i, i < c.s → row st'.Y i =
        stageVal (fun i j => st.ga.cell ((i * c.s + j : ℕ) : ℤ)) c.s u (row st.Y1) i) ∧
      st'.tv = resid (stageVal (fun i j => st.ga.cell ((i * c.s + j : ℕ) : ℤ)) c.s u (row st.Y1))
        (row st.Y) c.s := by
  unfold update
  set Z := stageVal (fun i j => st.ga.cell ((i * c.s + j : ℕ) : ℤ)) c.s u (row st.Y1) with hZ
  obtain ⟨st', h1, h2, h3, h4, h5, h6, h7, h8, h9, h10⟩ := forUp_nat (body := fun (i : ℤ) (st : St α n) =>
    (combine c i { st with v := u }).bind fun st =>
    (rdN (n := n) st.Y (i * n)).bind fun Yin =>
    let tv := (List.finRange n).foldl (fun t l => t + (st.v l - Yin l) * (st.v l - Yin l)) st.tv
    (wrN st.Y (i * n) st.v).map fun Y => { st with Y := Y, tv := tv })
    (fun k st' => Wf c st' ∧ Same st st' ∧ st'.Y1 = st.Y1 ∧ st'.tvold = st.tv ∧
      st'.iter = st.iter ∧ st'.calls = st.calls ∧ (∀ i, i < k → row st'.Y i = Z i) ∧
      (∀ i, k ≤ i → row (n := n) st'.Y i = row st.Y i) ∧ st'.tv = resid Z (row st.Y) k)
    c.s (st := { st with tvold := st.tv, tv := 0 })
    ⟨⟨hw.Y, hw.Y1, hw.ga, hw.gb, hw.q⟩, ⟨rfl, rfl, rfl, rfl, rfl⟩, rfl, rfl, rfl, rfl, by simp,
      fun _ _ => rfl, rfl⟩ (by
      rintro j st' hj ⟨g1, g2, g3, g4, g5, g6, g7, g8, g9⟩
      have hw' : Wf c { st' with v := u } := ⟨g1.Y, g1.Y1, g1.ga, g1.gb, g1.q⟩
      simp only [combine_of hj hw', Option.bind_some, rdN_in g1.Y hj, wrN_in g1.Y hj,
        Option.map_some]
      refine ⟨_, rfl, ⟨g1.Y, g1.Y1, g1.ga, g1.gb, g1.q⟩, ⟨g2.ga, g2.gb, g2.q, g2.e, g2.oldH⟩, g3, g4,
        g5, g6, fun i hi => ?_, fun i hi => ?_, ?_⟩
      · simp only [row_setRow]
        split_ifs with hij
        · simp only [hZ, hij, g2.ga, g3]
        · exact g7 i (by omega)
      · simp only [row_setRow]
        rw [if_neg (by omega)]
        exact g8 i (by omega)
      · simp only [resid, sqSum, g9, g8 j le_rfl, hZ, g2.ga, g3])
  exact ⟨st', h1, h2, h3, h4, h5, h6, h7, h8, h10⟩

theorem increment_of {c : Cfg α n} {st : St α n} (hw : Wf c st) :
    increment c st = some { st with
      delta := fun l => sumL (fun i => c.narrow (st.gb.cell (i : ℤ)) * row st.Y1 i l) 0 c.s } := by
  unfold increment
  obtain ⟨st', h1, h2⟩ := forUp_nat (body := fun (i : ℤ) (st : St α n) =>
    (st.gb.rd i).bind fun b =>
    let bi := c.narrow b
    (rdN (n := n) st.Y1 (i * n)).map fun k => { st with delta := fun l => st.delta l + bi * k l })
    (fun k st' => st' = { st with
      delta := fun l => sumL (fun i => c.narrow (st.gb.cell (i : ℤ)) * row st.Y1 i l) 0 k })
    c.s (st := { st with delta := fun _ => 0 }) rfl (by
      rintro j st' hj rfl
      have hin : 0 ≤ (j : ℤ) ∧ (j : ℤ) < st.gb.size := by
        rw [hw.gb]
        constructor <;> omega
      refine ⟨_, ?_, rfl⟩
      simp only [Buf.rd_in hin, rdN_in hw.Y1 hj, Option.bind_some, Option.map_some, sumL])
  rw [h1, h2]

theorem sweep_congr {A A' : ℕ → ℕ → α} {s : ℕ} {f : (Fin n → α) → Fin n → α} {u : Fin n → α}
    {Y Y' : ℕ → Fin n → α} {i : ℕ} (hA : ∀ j, j < s → A i j = A' i j) (h : ∀ j, j < s → Y j = Y' j) :
    sweep A s f u Y i = sweep A' s f u Y' i := by
  funext l
  unfold sweep stageVal
  exact sumL_congr fun j hj => by simp only [hA j hj, h j hj]

/-- coefficients in the array. -/
def coefA (c : Cfg α n) (st : St α n) : ℕ → ℕ → α := fun i j => st.ga.cell ((i * c.s + j : ℕ) : ℤ)

theorem iter_agree {A A' : ℕ → ℕ → α} {s : ℕ} {f : (Fin n → α) → Fin n → α} {u : Fin n → α}
    {Y Y' : ℕ → Fin n → α} (hA : ∀ i j, i < s → j < s → A i j = A' i j)
    (h : ∀ j, j < s → Y j = Y' j) (m : ℕ) :
    ∀ j, j < s → iter A s f u Y m j = iter A' s f u Y' m j := by
  induction m with
  | zero => exact h
  | succ m ih => exact fun j hj => sweep_congr (hA j · hj) ih

theorem rho_agree {A A' : ℕ → ℕ → α} {s : ℕ} {f : (Fin n → α) → Fin n → α} {u : Fin n → α}
    {Y Y' : ℕ → Fin n → α} (hA : ∀ i j, i < s → j < s → A i j = A' i j)
    (h : ∀ j, j < s → Y j = Y' j) (m : ℕ) : rho A s f u Y m = rho A' s f u Y' m :=
  resid_congr (iter_agree hA h _) (iter_agree hA h _)

/-- what is kept during the iteration loop of a call: `Y0` the starting values, `m` iterations made. -/
structure LoopInv (c : Cfg α n) (u : Fin n → α) (st0 : St α n) (m : ℕ) (st : St α n) : Prop where
  wf : Wf c st
  same : Same st0 st
  stages : ∀ i, i < c.s → row st.Y i = iter (coefA c st0) c.s c.f u (row st0.Y) m i
  tv : st.tv = prev (coefA c st0) c.s c.f u (row st0.Y) st0.tv m
  iter : st.iter = st0.iter + m
  calls : st.calls = st0.calls + m * c.s

/-- one iteration. -/
theorem iter_once {c : Cfg α n} {u : Fin n → α} {st0 st : St α n} {m : ℕ}
    (h : LoopInv c u st0 m st) :
    ∃ st1 st2, evals c st = some st1 ∧ update c u st1 = some st2 ∧ Wf c st2 ∧ Same st0 st2 ∧
      (∀ i, i < c.s → row st2.Y1 i = c.f (iter (coefA c st0) c.s c.f u (row st0.Y) m i)) ∧
      (∀ i, i < c.s → row st2.Y i = iter (coefA c st0) c.s c.f u (row st0.Y) (m + 1) i) ∧
      st2.tv = rho (coefA c st0) c.s c.f u (row st0.Y) m ∧
      st2.tvold = prev (coefA c st0) c.s c.f u (row st0.Y) st0.tv m ∧
      st2.iter = st0.iter + m ∧ st2.calls = st0.calls + (m + 1) * c.s := by
  obtain ⟨st1, a1, a2, a3, a4, a5, a6, a7, a8⟩ := evals_of h.wf
  obtain ⟨st2, b1, b2, b3, b4, b5, b6, b7, b8, b9⟩ := update_of u a2
  have hY1 : ∀ i, i < c.s → row st2.Y1 i = c.f (Spec.iter (coefA c st0) c.s c.f u (row st0.Y) m i) :=
    fun i hi => by rw [b4, a8 i hi, h.stages i hi]
  have hZ : ∀ i, i < c.s → stageVal (fun i j => st1.ga.cell ((i * c.s + j : ℕ) : ℤ)) c.s u
      (row st1.Y1) i = Spec.iter (coefA c st0) c.s c.f u (row st0.Y) (m + 1) i := by
    intro i _
    funext l
    simp only [stageVal, Spec.iter, sweep]
    refine sumL_congr fun j hj => ?_
    rw [a3.ga, h.same.ga, ← b4, hY1 j hj]
    rfl
  refine ⟨st1, st2, a1, b1, b2, (h.same.trans a3).trans b3, hY1, fun i hi => (b8 i hi).trans (hZ i hi),
    ?_, ?_, ?_, ?_⟩
  · rw [b9]
    exact resid_congr hZ fun i hi => by rw [a4, h.stages i hi]
  · rw [b5, a5, h.tv]
  · rw [b6, a6, h.iter]
  · rw [b7, a7, h.calls]; ring

/-- the test after iteration `m`. -/
def Stop (c : Cfg α n) (A : ℕ → ℕ → α) (u : Fin n → α) (Y : ℕ → Fin n → α) (t0 : α) (m : ℕ) : Prop :=
  c.small (rho A c.s c.f u Y m) ∧ prev A c.s c.f u Y t0 m ≤ rho A c.s c.f u Y m

/-- the iteration loop ends without undefined behaviour: either the test holds for the first time after
iteration `m`, or it never holds in the iterations allowed. -/
theorem iterLoop_of {c : Cfg α n} {u : Fin n → α} {st0 : St α n} (k m : ℕ) {st : St α n}
    (h : LoopInv c u st0 m st) (hno : ∀ j, j < m → ¬ Stop c (coefA c st0) u (row st0.Y) st0.tv j) :
    ∃ r, iterLoop c u k st = some r ∧ Wf c r.2 ∧ Same st0 r.2 ∧
      ((r.1 = true ∧ ∃ M, M < m + k ∧ Stop c (coefA c st0) u (row st0.Y) st0.tv M ∧
          (∀ j, j < M → ¬ Stop c (coefA c st0) u (row st0.Y) st0.tv j) ∧
          (∀ i, i < c.s → row r.2.Y1 i = c.f (iter (coefA c st0) c.s c.f u (row st0.Y) M i)) ∧
          (∀ i, i < c.s → row r.2.Y i = iter (coefA c st0) c.s c.f u (row st0.Y) (M + 1) i) ∧
          r.2.tv = rho (coefA c st0) c.s c.f u (row st0.Y) M ∧ r.2.iter = st0.iter + M ∧
          r.2.calls = st0.calls + (M + 1) * c.s) ∨
       (r.1 = false ∧ (∀ j, j < m + k → ¬ Stop c (coefA c st0) u (row st0.Y) st0.tv j) ∧
          r.2.iter = st0.iter + (m + k : ℕ) ∧ r.2.calls = st0.calls + (m + k) * c.s ∧
          r.2.tv = prev (coefA c st0) c.s c.f u (row st0.Y) st0.tv (m + k))) := by
  induction k generalizing m st with
  | zero => exact ⟨_, rfl, h.wf, h.same, Or.inr ⟨rfl, hno, h.iter, h.calls, h.tv⟩⟩
  | succ k ih =>
    obtain ⟨st1, st2, a1, a2, a3, a4, a5, a6, a7, a8, a9, a10⟩ := iter_once h
    have hs : success c st2 ↔ Stop c (coefA c st0) u (row st0.Y) st0.tv m := by
      rw [success, Stop, a7, a8]
    simp only [iterLoop, a1, a2, Option.bind_some]
    by_cases hh : success c st2
    · rw [if_pos hh]
      exact ⟨_, rfl, a3, a4, Or.inl ⟨rfl, m, by omega, hs.1 hh, hno, a5, a6, a7, a9, a10⟩⟩
    · rw [if_neg hh]
      have := ih (m + 1) (st := { st2 with iter := st2.iter + 1 })
        ⟨⟨a3.Y, a3.Y1, a3.ga, a3.gb, a3.q⟩, ⟨a4.ga, a4.gb, a4.q, a4.e, a4.oldH⟩, a6, a7,
          by simp only [a9]; push_cast; ring, a10⟩
        (fun j hj => by
          rcases Nat.lt_succ_iff_lt_or_eq.1 hj with hj | rfl
          · exact hno j hj
          · exact fun h' => hh (hs.2 h'))
      rwa [show m + 1 + k = m + (k + 1) by ring] at this

/-- what the choice of starting values leaves unchanged. -/
structure Pre (c : Cfg α n) (st st' : St α n) : Prop where
  wf : Wf c st'
  same : Same st st'
  Y1 : st'.Y1 = st.Y1
  tv : st'.tv = st.tv
  calls : st'.calls = st.calls

theorem ext_off {n s i : ℕ} (hsn : s ≤ n) (hi : i < s) : (s : ℤ) * i + n ≤ n * s := by
  have h1 : (i : ℤ) + 1 ≤ s := by omega
  have h2 : (s : ℤ) ≤ n := by omega
  nlinarith [Int.natCast_nonneg n, Int.natCast_nonneg s, Int.natCast_nonneg i]

theorem wrN_of {b : Buf α} {off : ℤ} (h : 0 ≤ off ∧ off + n ≤ b.size) (x : Fin n → α) :
    ∃ b', wrN b off x = some b' ∧ b'.size = b.size := ⟨_, if_pos h, rfl⟩

theorem rdN_of {b : Buf α} {off : ℤ} (h : 0 ≤ off ∧ off + n ≤ b.size) :
    rdN (n := n) b off = some fun l : Fin n => b.cell (off + l) := if_pos h

/-- the extrapolation stays inside the arrays when there are not more stages than components. -/
theorem ext_of {c : Cfg α n} (hsn : c.s ≤ n) (u : Fin n → α) {st : St α n} (hw : Wf c st) :
    ∃ st', ext c u st = some st' ∧ Pre c st st' := by
  unfold ext
  refine forUp_nat (fun _ st' => Pre c st st') c.s ⟨hw, Same.refl _, rfl, rfl, rfl⟩ ?_
  intro i st1 hi g
  have hoff : ∀ j, j < c.s → 0 ≤ (c.s : ℤ) * j ∧ (c.s : ℤ) * j + n ≤ n * c.s := fun j hj =>
    ⟨by positivity, ext_off hsn hj⟩
  obtain ⟨Y, hY, hYs⟩ := wrN_of (b := st1.Y) (off := c.s * i) (by rw [g.wf.Y]; exact hoff i hi) u
  rw [hY, Option.bind_some]
  refine forUp_nat (fun _ st' => Pre c st st') c.s (st := { st1 with Y := Y })
    ⟨⟨hYs.trans g.wf.Y, g.wf.Y1, g.wf.ga, g.wf.gb, g.wf.q⟩,
      ⟨g.same.ga, g.same.gb, g.same.q, g.same.e, g.same.oldH⟩, g.Y1, g.tv, g.calls⟩ ?_
  intro j st2 hj k
  have hq : 0 ≤ (c.s : ℤ) * i + j ∧ (c.s : ℤ) * i + j < st2.q.size := by
    rw [k.wf.q]
    have := off_le (n := c.s) hi
    have h2 : (i : ℤ) * c.s = c.s * i := mul_comm _ _
    constructor
    · positivity
    · omega
  obtain ⟨Y', hY', hYs'⟩ := wrN_of (b := st2.Y) (off := c.s * i) (by rw [k.wf.Y]; exact hoff i hi)
    (fun l : Fin n => st2.Y.cell (c.s * i + l) +
      c.narrow (st2.q.cell (c.s * i + j)) * st2.Y1.cell (c.s * j + l))
  refine ⟨{ st2 with Y := Y' }, ?_, ⟨⟨hYs'.trans k.wf.Y, k.wf.Y1, k.wf.ga, k.wf.gb, k.wf.q⟩,
      ⟨k.same.ga, k.same.gb, k.same.q, k.same.e, k.same.oldH⟩, k.Y1, k.tv, k.calls⟩⟩
  simp only [Buf.rd_in hq, Option.bind_some, rdN_of (n := n) (b := st2.Y1) (off := c.s * j)
    (by rw [k.wf.Y1]; exact hoff j hj), rdN_of (n := n) (b := st2.Y) (off := c.s * i)
    (by rw [k.wf.Y]; exact hoff i hi), hY', Option.map_some]

/-- states after construction and calls of `step`; only for a `step` whose outcome is defined. -/
inductive Hist (c : Cfg α n) : St α n → Prop
  | new {junk st : St α n} (h : construct c junk = some (.ok st)) : Hist c st
  | step {st st' : St α n} (h : α) (u u' : Fin n → α) (first r : Bool) (hist : Hist c st)
      (hs : step c h u first st = some (r, u', st')) : Hist c st'

/-- hypotheses on the scalar type: `==` only holds for equal values, multiplying by 1 changes
nothing. -/
structure Scal (c : Cfg α n) : Prop where
  eq : ∀ a b, c.eq a b → a = b
  one : ∀ x : α, x * c.narrow 1 = x

/-- invariant of the histories. -/
structure Inv (c : Cfg α n) (st : St α n) : Prop where
  wf : Wf c st
  coef : Coef c st.oldH st

theorem construct_inv {c : Cfg α n} (hT : Tab c) (hS : Scal c) {junk st : St α n}
    (h : construct c junk = some (.ok st)) : Inv c st ∧ (∀ l, st.e l = 0) ∧ st.tv = 0 := by
  have ea := hT.la
  have eb := hT.lb
  have ec := hT.lc
  obtain ⟨q1, hq1, hq2, hq3⟩ := copyL_of (l := c.lc) (b := ⟨c.s * c.s, junk.q.cell⟩)
    (by rw [ec]; push_cast; rfl)
  obtain ⟨a1, ha1, ha2, ha3⟩ := copyL_of (l := c.la) (b := ⟨c.s * c.s, junk.ga.cell⟩)
    (by rw [ea]; push_cast; rfl)
  obtain ⟨b1, hb1, hb2, hb3⟩ := copyL_of (l := c.lb) (b := ⟨c.s, junk.gb.cell⟩) (by rw [eb])
  have h2 : 2 ≤ c.s ∧ c.s ≤ 16 := ⟨hT.two, hT.max⟩
  simp only [construct, not_true, h2, and_self, if_false, hq1, ha1, hb1, Option.bind_some,
    Option.some.injEq, Except.ok.injEq] at h
  subst h
  refine ⟨⟨⟨rfl, rfl, ha2, hb2, hq2⟩, ⟨fun k hk => ?_, fun k hk => ?_, fun k hk => ?_⟩⟩,
    fun _ => rfl, rfl⟩
  · rw [hS.one]; exact ha3 k (by omega)
  · rw [hS.one]; exact hb3 k (by omega)
  · rw [hS.one]; exact hq3 k (by omega)

open Classical in
/-- a call of `step`, all outcomes: `st0` is the state where the iterations start. -/
theorem step_of {c : Cfg α n} (hT : Tab c) (hS : Scal c) {h : α} {u : Fin n → α} {first : Bool}
    {st : St α n} (hi : Inv c st) (hd : c.s ≤ n ∨ first = true ∨ ¬ c.eq st.oldH h) :
    ∃ st0 r, Wf c st0 ∧ Coef c h st0 ∧ st0.oldH = h ∧ st0.e = st.e ∧ st0.tv = st.tv ∧
      st0.calls = st.calls ∧ st0.iter = 0 ∧
      ((first = true ∨ ¬ c.eq st.oldH h) → ∀ i, i < c.s → row st0.Y i = u) ∧
      iterLoop c u c.itermax.toNat st0 = some r ∧
      step c h u first st = (if r.1 then (increment c r.2).map fun st => (true, compensate u st)
        else some (false, u, r.2)) := by
  obtain ⟨st1, h1, hw1, hc1, ho1, he1, ht1, hk1⟩ : ∃ st1, (if ¬ c.eq st.oldH h then
      (gChange c h { st with oldH := h }).bind (eChange c h) else some st) = some st1 ∧ Wf c st1 ∧
      Coef c h st1 ∧ st1.oldH = h ∧ st1.e = st.e ∧ st1.tv = st.tv ∧ st1.calls = st.calls := by
    by_cases heq : c.eq st.oldH h
    · have := hS.eq _ _ heq
      exact ⟨st, if_neg (not_not.2 heq), hi.wf, this ▸ hi.coef, this, rfl, rfl, rfl⟩
    · obtain ⟨st1, a1, a2, a3, a4, a5, _, _, a8, _, a10⟩ := change_of hT h hi.wf
      exact ⟨st1, (if_pos heq).trans a1, a2, a3, a4, a5, a8, a10⟩
  obtain ⟨st2, h2, hp, hrow⟩ : ∃ st2, (if first = false ∧ c.eq st.oldH h then ext c u st1
      else startAt c u st1) = some st2 ∧ Pre c st1 st2 ∧
      ((first = true ∨ ¬ c.eq st.oldH h) → ∀ i, i < c.s → row st2.Y i = u) := by
    by_cases hx : first = false ∧ c.eq st.oldH h
    · have hsn : c.s ≤ n := by
        rcases hd with hd | hd | hd
        · exact hd
        · rw [hx.1] at hd; cases hd
        · exact absurd hx.2 hd
      obtain ⟨st2, a1, a2⟩ := ext_of hsn u hw1
      refine ⟨st2, (if_pos hx).trans a1, a2, ?_⟩
      rintro (hf | hf)
      · rw [hx.1] at hf; cases hf
      · exact absurd hx.2 hf
    · obtain ⟨st2, a1, a2, a3, a4, a5, a6, a7⟩ := startAt_of u hw1
      exact ⟨st2, (if_neg hx).trans a1, ⟨a2, a3, a4, a5, a6⟩, fun _ => a7⟩
  have hw3 : Wf c { st2 with iter := 0 } := ⟨hp.wf.Y, hp.wf.Y1, hp.wf.ga, hp.wf.gb, hp.wf.q⟩
  have hs3 : Same st1 { st2 with iter := 0 } :=
    ⟨hp.same.ga, hp.same.gb, hp.same.q, hp.same.e, hp.same.oldH⟩
  obtain ⟨r, hr, _⟩ := iterLoop_of (c := c) (u := u) (st0 := { st2 with iter := 0 }) c.itermax.toNat 0
    ⟨hw3, Same.refl _, fun _ _ => rfl, rfl, by simp, by simp⟩ (by simp)
  refine ⟨{ st2 with iter := 0 }, r, hw3, hc1.congr hs3, by rw [hs3.oldH, ho1], by rw [hs3.e, he1],
    by rw [← ht1, ← hp.tv], by rw [← hk1, ← hp.calls], rfl, hrow, hr, ?_⟩
  simp only [step]
  rw [h1, Option.bind_some, h2, Option.bind_some, hr, Option.bind_some]

/-- a loop with undefined behaviour in iteration `k`. -/
theorem forUp_none {σ : Type} {body : ℤ → σ → Option σ} (P : σ → Prop) (s k : ℕ) {st : σ} (hk : k < s)
    (h0 : P st) (hstep : ∀ j st st', j < s → P st → body (j : ℤ) st = some st' → P st')
    (hbad : ∀ st, P st → body (k : ℤ) st = none) : forUp 0 ((s : ℤ) - 1) body st = none := by
  have gen : ∀ m i st, i ≤ k → k < i + m → i + m ≤ s → P st → loopUp body m (i : ℤ) st = none := by
    intro m
    induction m with
    | zero => intro i st h1 h2; omega
    | succ m ih =>
      intro i st h1 h2 h3 hP
      simp only [loopUp]
      by_cases hik : i = k
      · rw [hik, hbad st hP]; rfl
      · rcases hb : body (i : ℤ) st with _ | st'
        · rfl
        · simp only [Option.bind_some]
          exact ih (i + 1) st' (by omega) (by omega) (by omega) (hstep i st st' (by omega) hP hb)
  have := gen s 0 st (by omega) (by omega) (by omega) h0
  unfold forUp
  rwa [show ((s : ℤ) - 1 + 1 - 0).toNat = s by omega]

theorem wrN_size {b b' : Buf α} {off : ℤ} {x : Fin n → α} (h : wrN b off x = some b') :
    b'.size = b.size := by
  unfold wrN at h
  split_ifs at h
  cases h
  rfl

theorem loopUp_inv_some {σ : Type} {body : ℤ → σ → Option σ} (P : σ → Prop)
    (hstep : ∀ j st st', P st → body j st = some st' → P st') (k : ℕ) (i : ℤ) {st st' : σ}
    (h0 : P st) (h : loopUp body k i st = some st') : P st' := by
  induction k generalizing i st with
  | zero => simp only [loopUp, Option.some.injEq] at h; exact h ▸ h0
  | succ k ih =>
    simp only [loopUp] at h
    rcases hb : body i st with _ | st1
    · rw [hb] at h; cases h
    · rw [hb, Option.bind_some] at h
      exact ih (i + 1) (hstep i st st1 h0 hb) h

/-- with more stages than components the extrapolation writes outside `Y`. -/
theorem ext_none {c : Cfg α n} (hsn : n < c.s) (h2 : 2 ≤ c.s) (u : Fin n → α) {st : St α n}
    (hY : st.Y.size = n * c.s) : ext c u st = none := by
  unfold ext
  refine forUp_none (fun st : St α n => st.Y.size = (n * c.s : ℤ)) c.s (c.s - 1) (by omega) hY ?_ ?_
  · intro i st st' _ hP hb
    rcases hw : wrN st.Y (c.s * i) u with _ | Y
    · rw [hw] at hb; cases hb
    · rw [hw, Option.bind_some] at hb
      refine loopUp_inv_some (fun st : St α n => st.Y.size = (n * c.s : ℤ)) ?_ _ _ ((wrN_size hw).trans hP) hb
      intro j st1 st2 hP1 hb1
      rcases hq : st1.q.rd (c.s * i + j) with _ | b
      · rw [hq] at hb1; cases hb1
      rcases hF : rdN (n := n) st1.Y1 (c.s * j) with _ | F
      · rw [hq, hF] at hb1; cases hb1
      rcases hy : rdN (n := n) st1.Y (c.s * i) with _ | y
      · rw [hq, hF, hy] at hb1; cases hb1
      rw [hq, hF, hy] at hb1
      simp only [Option.bind_some] at hb1
      rcases hw2 : wrN st1.Y (c.s * i) (fun l => y l + c.narrow b * F l) with _ | Y2
      · rw [hw2] at hb1; cases hb1
      · rw [hw2, Option.map_some, Option.some.injEq] at hb1
        rw [← hb1]
        exact (wrN_size hw2).trans hP1
  · intro st hP
    have : wrN st.Y (c.s * ((c.s - 1 : ℕ) : ℤ)) u = none := by
      unfold wrN
      rw [if_neg]
      rintro ⟨-, h⟩
      rw [hP, Nat.cast_sub (by omega)] at h
      have h1 : (n : ℤ) + 1 ≤ c.s := by omega
      have h3 : (2 : ℤ) ≤ c.s := by omega
      push_cast at h
      nlinarith
    rw [this]; rfl

open Classical in
theorem step_ub {c : Cfg α n} (hsn : n < c.s) (h2 : 2 ≤ c.s) {h : α} {u : Fin n → α} {first : Bool}
    {st : St α n} (hY : st.Y.size = n * c.s) (hf : first = false) (he : c.eq st.oldH h) :
    step c h u first st = none := by
  simp only [step, he, not_true, if_false, Option.bind_some, hf, and_self, if_true,
    ext_none hsn h2 u hY, Option.bind_none]

/-- a call of `step` with a defined outcome: the two cases. -/
theorem step_cases {c : Cfg α n} (hT : Tab c) (hS : Scal c) {h : α} {u : Fin n → α} {first r : Bool}
    {st : St α n} (hi : Inv c st) {u' : Fin n → α} {st' : St α n}
    (hs : step c h u first st = some (r, u', st')) :
    Wf c st' ∧ Coef c h st' ∧ st'.oldH = h ∧
    ∃ Y0 : ℕ → Fin n → α,
      ((first = true ∨ ¬ c.eq st.oldH h) → ∀ i, i < c.s → Y0 i = u) ∧
      ((r = true ∧ ∃ M : ℕ, M < c.itermax.toNat ∧
          Stop c (fun i j => c.la.getD (i * c.s + j) 0 * c.narrow h) u Y0 st.tv M ∧
          (∀ j, j < M →
            ¬ Stop c (fun i j => c.la.getD (i * c.s + j) 0 * c.narrow h) u Y0 st.tv j) ∧
          st'.tv = rho (fun i j => c.la.getD (i * c.s + j) 0 * c.narrow h) c.s c.f u Y0 M ∧
          st'.iter = M ∧ st'.calls = st.calls + (M + 1) * c.s ∧
          (∀ l, st'.delta l = sumL (fun i => c.narrow (c.lb.getD i 0 * c.narrow h) *
            c.f (iter (fun i j => c.la.getD (i * c.s + j) 0 * c.narrow h) c.s c.f u Y0 M i) l) 0 c.s) ∧
          (∀ l, u' l = u l + (st.e l + st'.delta l)) ∧
          (∀ l, st'.e l = (st.e l + st'.delta l) + (u l - u' l))) ∨
       (r = false ∧ u' = u ∧ st'.e = st.e ∧ st'.iter = c.itermax.toNat ∧
          st'.calls = st.calls + c.itermax.toNat * c.s ∧
          ∀ j, j < c.itermax.toNat →
            ¬ Stop c (fun i j => c.la.getD (i * c.s + j) 0 * c.narrow h) u Y0 st.tv j)) := by
  have hd : c.s ≤ n ∨ first = true ∨ ¬ c.eq st.oldH h := by
    by_contra hcon
    push Not at hcon
    rw [step_ub hcon.1 hT.two hi.wf.Y (by simpa using hcon.2.1) hcon.2.2] at hs
    cases hs
  obtain ⟨st0, r0, w0, c0, o0, e0, t0, k0, i0, hrow, hr, heq⟩ := step_of hT hS (u := u) hi hd
  obtain ⟨r1, hr1, w1, s1, hcase⟩ := iterLoop_of (c := c) (u := u) (st0 := st0) c.itermax.toNat 0
    (st := st0) ⟨w0, Same.refl _, fun _ _ => rfl, rfl, by simp, by simp⟩ (by simp)
  rw [hr] at hr1
  cases hr1
  rw [heq] at hs
  have hA : ∀ i j, i < c.s → j < c.s →
      coefA c st0 i j = (fun i j => c.la.getD (i * c.s + j) 0 * c.narrow h) i j := by
    intro i j h1 h2
    refine c0.ga _ ?_
    calc i * c.s + j < i * c.s + c.s := by omega
      _ = (i + 1) * c.s := by ring
      _ ≤ c.s * c.s := Nat.mul_le_mul_right _ h1
  have hrho := fun m => rho_agree (f := c.f) (u := u) (Y := row st0.Y) hA (fun _ _ => rfl) m
  have hprev : ∀ m, prev (coefA c st0) c.s c.f u (row st0.Y) st0.tv m =
      prev (fun i j => c.la.getD (i * c.s + j) 0 * c.narrow h) c.s c.f u (row st0.Y) st.tv m := by
    intro m
    cases m with
    | zero => exact t0
    | succ m => exact hrho m
  have hstop : ∀ m, Stop c (coefA c st0) u (row st0.Y) st0.tv m ↔
      Stop c (fun i j => c.la.getD (i * c.s + j) 0 * c.narrow h) u (row st0.Y) st.tv m := by
    intro m
    rw [Stop, Stop, hrho, hprev]
  have hiter := fun m => iter_agree (f := c.f) (u := u) (Y := row st0.Y) hA (fun _ _ => rfl) m
  simp only [Nat.zero_add] at hcase
  rcases hcase with ⟨hb, M, hM, hM1, hM2, hM3, hM4, hM5, hM6, hM7⟩ | ⟨hb, hN, hN1, hN2, hN3⟩
  · rw [hb, if_pos rfl, increment_of w1, Option.map_some, Option.some.injEq] at hs
    simp only [compensate, Prod.mk.injEq] at hs
    obtain ⟨rfl, rfl, rfl⟩ := hs
    have c1 := c0.congr s1
    refine ⟨⟨w1.Y, w1.Y1, w1.ga, w1.gb, w1.q⟩, ⟨c1.ga, c1.gb, c1.q⟩, s1.oldH.trans o0, row st0.Y, hrow,
      Or.inl ⟨rfl, M, hM, (hstop M).1 hM1, fun j hj hh => hM2 j hj ((hstop j).2 hh), ?_, ?_, ?_, ?_, ?_,
        ?_⟩⟩
    · exact hM5.trans (hrho M)
    · rw [hM6, i0, zero_add]
    · rw [hM7, k0]
    · intro l
      refine sumL_congr fun i hi => ?_
      rw [c1.gb i hi, hM3 i hi, hiter M i hi]
    · intro l
      rw [s1.e, e0]
    · intro l
      rw [s1.e, e0]
  · rw [hb, if_neg (by simp)] at hs
    simp only [Option.some.injEq, Prod.mk.injEq] at hs
    obtain ⟨rfl, rfl, rfl⟩ := hs
    refine ⟨w1, c0.congr s1, s1.oldH.trans o0, row st0.Y, hrow,
      Or.inr ⟨rfl, rfl, s1.e.trans e0, by rw [hN1, i0, zero_add], by rw [hN2, k0],
        fun j hj hh => hN j hj ((hstop j).2 hh)⟩⟩

theorem Hist.inv {c : Cfg α n} (hT : Tab c) (hS : Scal c) {st : St α n} (h : Hist c st) : Inv c st := by
  induction h with
  | new h => exact (construct_inv hT hS h).1
  | step h u u' first r _ hs ih =>
    obtain ⟨a, b, d, _⟩ := step_cases hT hS ih hs
    exact ⟨a, d.symm ▸ b⟩

end Odes.Symp
