import Verif.Lemmas.HessReal
import Mathlib.Data.Complex.Basic

/-! `dechc` and `solhc` refine the abstract elimination over ℂ. -/

namespace Odes.Hess

open Odes.Mem

/-- the complex matrix stored in two real ones. -/
def Z (Ar Ai : ℤ → ℤ → ℝ) : ℤ → ℤ → ℂ := fun i j => ⟨Ar i j, Ai i j⟩

/-- the complex vector stored in two real ones. -/
def zv (Br Bi : ℤ → ℝ) : ℤ → ℂ := fun i => ⟨Br i, Bi i⟩

theorem ABS_add_zero (a b : ℝ) : ABS a + ABS b = 0 ↔ (⟨a, b⟩ : ℂ) = 0 := by
  rw [ABS_eq, ABS_eq, Complex.ext_iff]
  constructor
  · intro h
    have h1 := abs_nonneg a
    have h2 := abs_nonneg b
    exact ⟨abs_eq_zero.1 (by linarith), abs_eq_zero.1 (by linarith)⟩
  · rintro ⟨h1, h2⟩
    change a = 0 at h1
    change b = 0 at h2
    rw [h1, h2]; simp

/-- pivot row chosen in column `k`. -/
noncomputable def pivotC (Ar Ai : ℤ → ℤ → ℝ) (k : ℤ) : ℤ :=
  if ABS (Ar (k + 1) k) + ABS (Ai (k + 1) k) > ABS (Ar k k) + ABS (Ai k k) then k + 1 else k

theorem pivotC_or (Ar Ai : ℤ → ℤ → ℝ) (k : ℤ) : pivotC Ar Ai k = k ∨ pivotC Ar Ai k = k + 1 := by
  unfold pivotC; split_ifs <;> simp

theorem pivotC_zero {Ar Ai : ℤ → ℤ → ℝ} {k : ℤ} (h : Z Ar Ai (pivotC Ar Ai k) k = 0) :
    Z Ar Ai k k = 0 ∧ Z Ar Ai (k + 1) k = 0 := by
  unfold pivotC Z at *
  simp only [← ABS_add_zero] at h ⊢
  have p : ∀ a : ℝ, 0 ≤ ABS a := fun a => by rw [ABS_eq]; exact abs_nonneg a
  have p1 := p (Ar k k)
  have p2 := p (Ai k k)
  have p3 := p (Ar (k + 1) k)
  have p4 := p (Ai (k + 1) k)
  split_ifs at h with h1
  · exact absurd h1 (by rw [h]; linarith)
  · exact ⟨h, by linarith⟩

/-- column `k` after the exchange. -/
def swp (k m : ℤ) (A : ℤ → ℤ → ℝ) : ℤ → ℤ → ℝ := fun i j =>
  if j = k then if i = k then A m k else if i = k + 1 then A (2 * k + 1 - m) k else A i k
  else A i j

theorem swp_self (k : ℤ) (A : ℤ → ℤ → ℝ) : swp k k A = A := by
  funext i j
  unfold swp
  split_ifs with h1 h2 h3
  · rw [h1, h2]
  · rw [h1, h3]; congr 1; ring
  · rw [h1]
  · rfl

theorem swp_next (k : ℤ) (A : ℤ → ℤ → ℝ) : swp k (k + 1) A = fun i' j' =>
    if i' = k ∧ j' = k then A (k + 1) k else if i' = k + 1 ∧ j' = k then A k k else A i' j' := by
  funext i j
  unfold swp
  by_cases h1 : j = k
  · subst h1
    by_cases h2 : i = j
    · simp [h2]
    · by_cases h3 : i = j + 1
      · simp only [h3]; simp
        congr 1; ring
      · simp [h2, h3]
  · simp [h1]

theorem rho_re (k m : ℤ) (c : ℂ) (f : ℤ → ℂ) (i : ℤ) : (rho k m c f i).re =
    if i = k then (f m).re else if i = k + 1 then
      (f (2 * k + 1 - m)).re + (c.re * (f m).re - c.im * (f m).im) else (f i).re := by
  unfold rho; split_ifs <;> simp

theorem rho_im (k m : ℤ) (c : ℂ) (f : ℤ → ℂ) (i : ℤ) : (rho k m c f i).im =
    if i = k then (f m).im else if i = k + 1 then
      (f (2 * k + 1 - m)).im + (c.re * (f m).im + c.im * (f m).re) else (f i).im := by
  unfold rho; split_ifs <;> simp

theorem neg_inv_mul (a b tr ti : ℝ) :
    (⟨-(a * (tr / (tr * tr + ti * ti)) - b * (ti / -(tr * tr + ti * ti))),
      -(b * (tr / (tr * tr + ti * ti)) + a * (ti / -(tr * tr + ti * ti)))⟩ : ℂ) =
      (⟨a, b⟩ : ℂ) * (-1 / (⟨tr, ti⟩ : ℂ)) := by
  have e : (-1 : ℂ) / (⟨tr, ti⟩ : ℂ) =
      ⟨-(tr / (tr * tr + ti * ti)), ti / (tr * tr + ti * ti)⟩ := by
    rw [Complex.ext_iff, Complex.div_re, Complex.div_im]
    simp only [Complex.normSq_mk]
    constructor
    · simp; ring
    · simp; ring
  rw [e, Complex.ext_iff]
  simp only [Complex.mul_re, Complex.mul_im]
  rw [div_neg]
  constructor <;> ring

/-- the product computed by the code, real part. -/
noncomputable def prr (a b tr ti : ℝ) : ℝ :=
  if ti = 0 then a * tr else if tr = 0 then -b * ti else a * tr - b * ti

/-- the product computed by the code, imaginary part. -/
noncomputable def pri (a b tr ti : ℝ) : ℝ :=
  if ti = 0 then b * tr else if tr = 0 then a * tr else b * tr + a * ti

/-- column `j` after the update, `pr` being added to the row below the pivot. -/
def colUpd (k m j : ℤ) (A : ℤ → ℤ → ℝ) (pr : ℝ) : ℤ → ℤ → ℝ := fun i' j' =>
  if j' = j then if i' = k then A m j else if i' = k + 1 then A (2 * k + 1 - m) j + pr else A i' j
  else A i' j'

theorem colUpd_zero {k m j : ℤ} (hm : m = k ∨ m = k + 1) (A : ℤ → ℤ → ℝ) (h0 : A m j = 0) :
    (fun i' j' => if i' = k ∧ j' = j then A m j else if i' = m ∧ j' = j then A k j else A i' j') =
      colUpd k m j A 0 := by
  funext i j'
  unfold colUpd
  by_cases e : j' = j
  · subst e
    rcases hm with e | e
    · subst e
      by_cases h1 : i = m
      · subst h1; simp
      · by_cases h2 : i = m + 1
        · subst h2
          have : 2 * m + 1 - m = m + 1 := by ring
          simp [this]
        · simp [h1, h2]
    · subst e
      by_cases h1 : i = k
      · subst h1; simp
      · by_cases h2 : i = k + 1
        · subst h2
          have : 2 * k + 1 - (k + 1) = k := by ring
          simp [this]
        · simp [h1, h2]
  · simp [e]

theorem colUpd_pos {k m j : ℤ} (hm : m = k ∨ m = k + 1) (A : ℤ → ℤ → ℝ) (pr : ℝ) :
    (fun i' j' => if i' = k + 1 ∧ j' = j then
      (if k + 1 = k ∧ j = j then A m j else if k + 1 = m ∧ j = j then A k j else A (k + 1) j) + pr
      else if i' = k ∧ j' = j then A m j else if i' = m ∧ j' = j then A k j else A i' j') =
      colUpd k m j A pr := by
  funext i j'
  unfold colUpd
  by_cases e : j' = j
  · subst e
    rcases hm with e | e
    · subst e
      by_cases h1 : i = m
      · subst h1; simp
      · by_cases h2 : i = m + 1
        · subst h2
          have : 2 * m + 1 - m = m + 1 := by ring
          simp [this]
        · simp [h1, h2]
    · subst e
      by_cases h1 : i = k
      · subst h1; simp
      · by_cases h2 : i = k + 1
        · subst h2
          have : 2 * k + 1 - (k + 1) = k := by ring
          simp [this]
        · simp [h1, h2]
  · simp [e]

/-- the code updating one column. -/
noncomputable def colCode (n k m j : ℤ) (Ar Ai : ℤ → ℤ → ℝ) (hit : Bool) :
    Option ((ℤ → ℤ → ℝ) × (ℤ → ℤ → ℝ) × Bool) :=
  (get n Ar m j).bind fun tr => (get n Ai m j).bind fun ti =>
  (get n Ar k j).bind fun a => (set n Ar m j a).bind fun Ar =>
  (get n Ai k j).bind fun b => (set n Ai m j b).bind fun Ai =>
  (set n Ar k j tr).bind fun Ar => (set n Ai k j ti).bind fun Ai =>
  if ABS tr + ABS ti ≠ 0 then
    forUp (k + 1) (k + 1) (fun i (p : (ℤ → ℤ → ℝ) × (ℤ → ℤ → ℝ) × Bool) =>
      (get n p.1 i k).bind fun a => (get n p.2.1 i k).bind fun b =>
      (get n p.1 i j).bind fun u => (get n p.2.1 i j).bind fun v =>
      let prodr := if ti = 0 then a * tr else if tr = 0 then -b * ti else a * tr - b * ti
      let prodi := if ti = 0 then b * tr else if tr = 0 then a * tr else b * tr + a * ti
      (set n p.1 i j (u + prodr)).bind fun Ar => (set n p.2.1 i j (v + prodi)).bind fun Ai =>
      some (Ar, Ai, p.2.2 || decide (ti ≠ 0 ∧ tr = 0 ∧ a ≠ 0))) (Ar, Ai, hit)
  else some (Ar, Ai, hit)

/-- closed form of the update of one column. -/
theorem col_exact {n k m j : ℤ} (hk : 1 ≤ k) (hkn : k < n) (hm : m = k ∨ m = k + 1) (hj : k + 1 ≤ j)
    (hj' : j ≤ n) (Ar Ai : ℤ → ℤ → ℝ) (hit : Bool) :
    colCode n k m j Ar Ai hit =
      some (colUpd k m j Ar (prr (Ar (k + 1) k) (Ai (k + 1) k) (Ar m j) (Ai m j)),
        colUpd k m j Ai (pri (Ar (k + 1) k) (Ai (k + 1) k) (Ar m j) (Ai m j)),
        hit || decide (Ai m j ≠ 0 ∧ Ar m j = 0 ∧ Ar (k + 1) k ≠ 0)) := by
  have hkj : k ≠ j := by omega
  unfold colCode
  rw [get_in ⟨⟨by omega, by omega⟩, by omega, by omega⟩, Option.bind_some,
    get_in ⟨⟨by omega, by omega⟩, by omega, by omega⟩, Option.bind_some,
    get_in ⟨⟨by omega, by omega⟩, by omega, by omega⟩, Option.bind_some,
    set_in _ ⟨⟨by omega, by omega⟩, by omega, by omega⟩, Option.bind_some,
    get_in ⟨⟨by omega, by omega⟩, by omega, by omega⟩, Option.bind_some,
    set_in _ ⟨⟨by omega, by omega⟩, by omega, by omega⟩, Option.bind_some,
    set_in _ ⟨⟨by omega, by omega⟩, by omega, by omega⟩, Option.bind_some,
    set_in _ ⟨⟨by omega, by omega⟩, by omega, by omega⟩, Option.bind_some]
  by_cases ht : ABS (Ar m j) + ABS (Ai m j) = 0
  · rw [if_neg (by simpa using ht)]
    rw [ABS_add_zero, Complex.ext_iff] at ht
    have t1 : Ar m j = 0 := ht.1
    have t2 : Ai m j = 0 := ht.2
    rw [colUpd_zero hm Ar t1, colUpd_zero hm Ai t2, t1, t2]
    simp [prr, pri]
  · rw [if_pos ht, forUp_single]
    dsimp only
    rw [get_in ⟨⟨by omega, by omega⟩, by omega, by omega⟩, Option.bind_some,
      get_in ⟨⟨by omega, by omega⟩, by omega, by omega⟩, Option.bind_some,
      get_in ⟨⟨by omega, by omega⟩, by omega, by omega⟩, Option.bind_some,
      get_in ⟨⟨by omega, by omega⟩, by omega, by omega⟩, Option.bind_some,
      set_in _ ⟨⟨by omega, by omega⟩, by omega, by omega⟩, Option.bind_some,
      set_in _ ⟨⟨by omega, by omega⟩, by omega, by omega⟩, Option.bind_some,
      colUpd_pos hm, colUpd_pos hm]
    simp only [hkj, and_false, if_false]
    rfl

theorem prr_eq (a b tr ti : ℝ) : prr a b tr ti = a * tr - b * ti := by
  unfold prr
  split_ifs with h1 h2
  · rw [h1]; ring
  · rw [h2]; ring
  · rfl

theorem pri_eq {a b tr ti : ℝ} (h : ¬(ti ≠ 0 ∧ tr = 0 ∧ a ≠ 0)) :
    pri a b tr ti = b * tr + a * ti := by
  unfold pri
  split_ifs with h1 h2
  · rw [h1]; ring
  · have : a = 0 := by
      by_contra hc; exact h ⟨h1, h2, hc⟩
    rw [h2, this]; ring
  · rfl

/-- one column of the update. -/
theorem col_step {n k m j : ℤ} (hk : 1 ≤ k) (hkn : k < n) (hm : m = k ∨ m = k + 1) (hj : k + 1 ≤ j)
    (hj' : j ≤ n) (Ar Ai : ℤ → ℤ → ℝ) (hit : Bool) :
    ∃ Ar' Ai' hit', colCode n k m j Ar Ai hit = some (Ar', Ai', hit') ∧
      (hit' = false → hit = false ∧ (∀ i, Z Ar' Ai' i j =
        rho k m (Z Ar Ai (k + 1) k) (fun i => Z Ar Ai i j) i)) ∧
      ∀ i j', j' ≠ j → Z Ar' Ai' i j' = Z Ar Ai i j' := by
  refine ⟨_, _, _, col_exact hk hkn hm hj hj' Ar Ai hit, ?_, ?_⟩
  · intro h
    rw [Bool.or_eq_false_iff, decide_eq_false_iff_not] at h
    refine ⟨h.1, ?_⟩
    rw [prr_eq, pri_eq h.2]
    intro i
    rw [Complex.ext_iff, rho_re, rho_im]
    unfold Z colUpd
    rw [if_pos rfl, if_pos rfl]
    refine ⟨rfl, ?_⟩
    split_ifs <;> simp only <;> ring
  · intro i j' hj'
    unfold Z colUpd
    rw [if_neg hj', if_neg hj']

/-- one iteration up to the last loop. -/
theorem dechcBody_pre {n k : ℤ} (hk : 1 ≤ k) (hkn : k < n) (s : StC) :
    (Z s.Ar s.Ai (pivotC s.Ar s.Ai k) k = 0 →
      ∃ s', dechcBody n k s = some (true, s') ∧ s'.ret = k ∧ s'.hit = s.hit) ∧
    (Z s.Ar s.Ai (pivotC s.Ar s.Ai k) k ≠ 0 → ∃ A1 A2, dechcBody n k s =
      ((forUp (k + 1) n (fun j (p : (ℤ → ℤ → ℝ) × (ℤ → ℤ → ℝ) × Bool) =>
        colCode n k (pivotC s.Ar s.Ai k) j p.1 p.2.1 p.2.2) (A1, A2, s.hit)).bind fun p =>
        some (false, ⟨p.1, p.2.1, ipAfter n k (pivotC s.Ar s.Ai k) s.ip, s.ret, p.2.2⟩)) ∧
      (∀ i j, j ≠ k → Z A1 A2 i j = Z s.Ar s.Ai i j) ∧
      ∀ i, Z A1 A2 i k = if i = k then Z s.Ar s.Ai (pivotC s.Ar s.Ai k) k else if i = k + 1 then
        Z s.Ar s.Ai (2 * k + 1 - pivotC s.Ar s.Ai k) k *
          (-1 / Z s.Ar s.Ai (pivotC s.Ar s.Ai k) k) else Z s.Ar s.Ai i k) := by
  have hna : min n (1 + k) = k + 1 := by omega
  have hp : (forUp (k + 1) (k + 1) (fun i m =>
      (get n s.Ar i k).bind fun a => (get n s.Ai i k).bind fun b =>
      (get n s.Ar m k).bind fun c => (get n s.Ai m k).bind fun d =>
      some (if ABS a + ABS b > ABS c + ABS d then i else m)) k) =
      some (pivotC s.Ar s.Ai k) := by
    rw [forUp_single, get_in ⟨⟨by omega, by omega⟩, by omega, by omega⟩, Option.bind_some,
      get_in ⟨⟨by omega, by omega⟩, by omega, by omega⟩, Option.bind_some,
      get_in ⟨⟨by omega, by omega⟩, by omega, by omega⟩, Option.bind_some,
      get_in ⟨⟨by omega, by omega⟩, by omega, by omega⟩, Option.bind_some]
    rfl
  have hm := pivotC_or s.Ar s.Ai k
  generalize hpm : pivotC s.Ar s.Ai k = m at hp hm
  have hswap : (if m ≠ k then
      (iget n (Function.update s.ip (k - 1) m) (n - 1)).bind fun q =>
      (iset n (Function.update s.ip (k - 1) m) (n - 1) (-q)).bind fun ip =>
      (get n s.Ar k k).bind fun a => (set n s.Ar m k a).bind fun Ar =>
      (get n s.Ai k k).bind fun b => (set n s.Ai m k b).bind fun Ai =>
      (set n Ar k k (s.Ar m k)).bind fun Ar => (set n Ai k k (s.Ai m k)).bind fun Ai =>
      some (Ar, Ai, ip)
      else some (s.Ar, s.Ai, Function.update s.ip (k - 1) m)) =
      some (swp k m s.Ar, swp k m s.Ai, ipAfter n k m s.ip) := by
    by_cases e : m = k
    · rw [if_neg (by simpa using e), ipAfter, if_pos e, e, swp_self, swp_self]
    · rw [if_pos e, iget_in ⟨by omega, by omega⟩, Option.bind_some, iset_in _ ⟨by omega, by omega⟩,
        Option.bind_some, get_in ⟨⟨by omega, by omega⟩, by omega, by omega⟩, Option.bind_some,
        set_in _ ⟨⟨by omega, by omega⟩, by omega, by omega⟩, Option.bind_some,
        get_in ⟨⟨by omega, by omega⟩, by omega, by omega⟩, Option.bind_some,
        set_in _ ⟨⟨by omega, by omega⟩, by omega, by omega⟩, Option.bind_some,
        set_in _ ⟨⟨by omega, by omega⟩, by omega, by omega⟩, Option.bind_some,
        set_in _ ⟨⟨by omega, by omega⟩, by omega, by omega⟩, Option.bind_some, ipAfter, if_neg e]
      have e' : m = k + 1 := by omega
      subst e'
      rw [swp_next, swp_next]
  unfold dechcBody
  simp only [hna]
  rw [hp, Option.bind_some, iset_in _ ⟨by omega, by omega⟩, Option.bind_some,
    get_in ⟨⟨by omega, by omega⟩, by omega, by omega⟩, Option.bind_some,
    get_in ⟨⟨by omega, by omega⟩, by omega, by omega⟩, Option.bind_some, hswap, Option.bind_some]
  constructor
  · intro h0
    rw [if_pos ((ABS_add_zero _ _).2 h0)]
    exact ⟨_, rfl, rfl, rfl⟩
  · intro h0
    rw [if_neg (fun h => h0 ((ABS_add_zero _ _).1 h)), forUp_single]
    dsimp only
    rw [get_in ⟨⟨by omega, by omega⟩, by omega, by omega⟩,
      Option.bind_some, get_in ⟨⟨by omega, by omega⟩, by omega, by omega⟩,
      Option.bind_some, set_in _ ⟨⟨by omega, by omega⟩, by omega, by omega⟩, Option.bind_some,
      set_in _ ⟨⟨by omega, by omega⟩, by omega, by omega⟩, Option.bind_some, Option.bind_some]
    dsimp only
    generalize hA1 : (fun i' j' => if i' = k + 1 ∧ j' = k then
      -(swp k m s.Ar (k + 1) k * (s.Ar m k / (s.Ar m k * s.Ar m k + s.Ai m k * s.Ai m k)) -
        swp k m s.Ai (k + 1) k * (s.Ai m k / -(s.Ar m k * s.Ar m k + s.Ai m k * s.Ai m k)))
      else swp k m s.Ar i' j') = A1
    generalize hA2 : (fun i' j' => if i' = k + 1 ∧ j' = k then
      -(swp k m s.Ai (k + 1) k * (s.Ar m k / (s.Ar m k * s.Ar m k + s.Ai m k * s.Ai m k)) +
        swp k m s.Ar (k + 1) k * (s.Ai m k / -(s.Ar m k * s.Ar m k + s.Ai m k * s.Ai m k)))
      else swp k m s.Ai i' j') = A2
    have c1 : ∀ i j, j ≠ k → Z A1 A2 i j = Z s.Ar s.Ai i j := by
      intro i j hj; rw [← hA1, ← hA2]; unfold Z swp; simp [hj]
    have c2 : ∀ i, Z A1 A2 i k = if i = k then Z s.Ar s.Ai m k else if i = k + 1 then
        Z s.Ar s.Ai (2 * k + 1 - m) k * (-1 / Z s.Ar s.Ai m k) else Z s.Ar s.Ai i k := by
      intro i
      by_cases h1 : i = k + 1
      · rw [if_neg (by omega), if_pos h1, h1, ← hA1, ← hA2]
        unfold Z
        have ek : k + 1 ≠ k := by omega
        simp only [and_self, if_true]
        rw [neg_inv_mul]
        unfold swp
        rw [if_pos rfl, if_neg ek, if_pos rfl, if_pos rfl, if_neg ek, if_pos rfl]
      · rw [if_neg h1, ← hA1, ← hA2]
        unfold Z swp
        by_cases h2 : i = k
        · simp [h2]
        · simp [h1, h2]
    exact ⟨A1, A2, rfl, c1, c2⟩

/-- closed form of one iteration. -/
theorem dechcBody_spec {n k : ℤ} (hk : 1 ≤ k) (hkn : k < n) (s : StC) :
    (Z s.Ar s.Ai (pivotC s.Ar s.Ai k) k = 0 →
      ∃ s', dechcBody n k s = some (true, s') ∧ s'.ret = k ∧ s'.hit = s.hit) ∧
    (Z s.Ar s.Ai (pivotC s.Ar s.Ai k) k ≠ 0 → ∃ Ar' Ai' hit', dechcBody n k s =
      some (false, ⟨Ar', Ai', ipAfter n k (pivotC s.Ar s.Ai k) s.ip, s.ret, hit'⟩) ∧
      (hit' = false → s.hit = false ∧
        ∀ i j, Z Ar' Ai' i j = elim n k (pivotC s.Ar s.Ai k) (Z s.Ar s.Ai) i j)) := by
  refine ⟨(dechcBody_pre hk hkn s).1, ?_⟩
  · intro h0
    obtain ⟨A1, A2, hb, c1, c2⟩ := (dechcBody_pre hk hkn s).2 h0
    have hm := pivotC_or s.Ar s.Ai k
    rw [hb]
    clear hb h0
    generalize pivotC s.Ar s.Ai k = m at *
    obtain ⟨p, g1, g2⟩ := forUp_inv
      (P := fun j (p : (ℤ → ℤ → ℝ) × (ℤ → ℤ → ℝ) × Bool) => p.2.2 = false → s.hit = false ∧
        ∀ i' j', Z p.1 p.2.1 i' j' = if k < j' ∧ j' < j then
          rho k m (Z A1 A2 (k + 1) k) (fun i => Z A1 A2 i j') i' else Z A1 A2 i' j')
      (body := fun j (p : (ℤ → ℤ → ℝ) × (ℤ → ℤ → ℝ) × Bool) => colCode n k m j p.1 p.2.1 p.2.2)
      (lo := k + 1) (hi := n) (s := (A1, A2, s.hit)) (by omega)
      (by intro h; exact ⟨h, fun i' j' => by rw [if_neg (by omega)]⟩) (by
        intro j p hj hj' hA
        obtain ⟨Ar', Ai', hit', q1, q2, q3⟩ := col_step hk hkn hm hj hj' p.1 p.2.1 p.2.2
        refine ⟨_, q1, ?_⟩
        intro hh
        obtain ⟨r1, r2⟩ := q2 hh
        obtain ⟨t1, t2⟩ := hA r1
        refine ⟨t1, ?_⟩
        intro i' j'
        have a1 : ∀ i, Z p.1 p.2.1 i j = Z A1 A2 i j := by intro i; rw [t2, if_neg (by omega)]
        have a2 : ∀ i, Z p.1 p.2.1 i k = Z A1 A2 i k := by intro i; rw [t2, if_neg (by omega)]
        by_cases e : j' = j
        · subst e
          rw [r2, if_pos (by omega), a2]
          congr 1
          funext i; exact a1 i
        · rw [q3 _ _ e, t2]
          by_cases e2 : k < j' ∧ j' < j
          · rw [if_pos e2, if_pos (by omega)]
          · rw [if_neg e2, if_neg (by omega)])
    rw [g1, Option.bind_some]
    refine ⟨p.1, p.2.1, p.2.2, rfl, ?_⟩
    intro hh
    obtain ⟨g3, g4⟩ := g2 hh
    refine ⟨g3, ?_⟩
    intro i j
    rw [g4]
    unfold elim
    by_cases h1 : j = k
    · subst h1
      rw [if_neg (by omega), if_pos rfl, c2]
    · rw [if_neg h1]
      by_cases h2 : k < j ∧ j ≤ n
      · rw [if_pos (by omega), if_pos h2]
        have : Z A1 A2 (k + 1) k =
            Z s.Ar s.Ai (2 * k + 1 - m) k * (-1 / Z s.Ar s.Ai m k) := by
          rw [c2, if_neg (by omega), if_pos rfl]
        rw [this]
        congr 1
        funext i; exact c1 i j h1
      · rw [if_neg (by omega), if_neg h2]; exact c1 i j h1

/-- the result of `dechc`. -/
theorem dechc_spec {n : ℤ} (hn : 1 ≤ n) (Ar Ai : ℤ → ℤ → ℝ) (ip : ℤ → ℤ) :
    ∃ s, dechc n Ar Ai ip = some s ∧ (s.hit = false →
      ((s.ret = 0 ∧ Factored n n (maskU 1 (Z Ar Ai)) (Z s.Ar s.Ai) s.ip ∧ Z s.Ar s.Ai n n ≠ 0) ∨
       (s.ret ≠ 0 ∧ ∃ k x, (1 ≤ k ∧ k ≤ n) ∧ x k = 1 ∧
          ∀ i, 1 ≤ i → i ≤ n → S n (maskU 1 (Z Ar Ai)) x i = 0))) := by
  unfold dechc
  rw [iset_in _ ⟨by omega, by omega⟩, Option.bind_some]
  have hloop : ∃ s, (if n ≠ 1 then forBrk 1 (n - 1) (dechcBody n)
      (⟨Ar, Ai, Function.update ip (n - 1) 1, 0, false⟩ : StC) else
      some ⟨Ar, Ai, Function.update ip (n - 1) 1, 0, false⟩) = some s ∧
      (s.hit = false → ((s.ret = 0 ∧ Factored n n (maskU 1 (Z Ar Ai)) (Z s.Ar s.Ai) s.ip) ∨
        (s.ret ≠ 0 ∧ ∃ k x, (1 ≤ k ∧ k ≤ n) ∧
        x k = 1 ∧ ∀ i, 1 ≤ i → i ≤ n → S n (maskU 1 (Z Ar Ai)) x i = 0))) := by
    by_cases h1 : n = 1
    · rw [if_neg (by simpa using h1)]
      refine ⟨_, rfl, fun _ => .inl ⟨rfl, ?_⟩⟩
      subst h1
      exact Factored.init _ _
    · rw [if_pos h1]
      obtain ⟨s, g1, g2⟩ := forBrk_inv (body := dechcBody n)
        (P := fun k s => s.hit = false →
          s.ret = 0 ∧ Factored n k (maskU 1 (Z Ar Ai)) (Z s.Ar s.Ai) s.ip)
        (Q := fun s => s.hit = false → s.ret ≠ 0 ∧ ∃ k x, (1 ≤ k ∧ k ≤ n) ∧ x k = 1 ∧
          ∀ i, 1 ≤ i → i ≤ n → S n (maskU 1 (Z Ar Ai)) x i = 0)
        (lo := 1) (hi := n - 1) (s := ⟨Ar, Ai, Function.update ip (n - 1) 1, 0, false⟩) (by omega)
        (fun _ => ⟨rfl, Factored.init _ _⟩) (by
          intro k s hk hk' hI
          obtain ⟨b1, b2⟩ := dechcBody_spec hk (show k < n by omega) s
          by_cases h0 : Z s.Ar s.Ai (pivotC s.Ar s.Ai k) k = 0
          · obtain ⟨s', c1, c2, c3⟩ := b1 h0
            refine ⟨s', .inr ⟨c1, ?_⟩⟩
            intro hh
            obtain ⟨i1, i2⟩ := hI (by rw [← c3]; exact hh)
            refine ⟨by omega, k, ?_⟩
            obtain ⟨x, x1, x2⟩ := i2.singular hk (by omega) (pivotC_zero h0).1
              (fun _ => (pivotC_zero h0).2)
            exact ⟨x, ⟨hk, by omega⟩, x1, x2⟩
          · obtain ⟨Ar', Ai', hit', c1, c2⟩ := b2 h0
            refine ⟨_, .inl ⟨c1, ?_⟩⟩
            intro hh
            obtain ⟨d1, d2⟩ := c2 hh
            obtain ⟨i1, i2⟩ := hI d1
            refine ⟨i1, ?_⟩
            exact i2.step hk (by omega) (pivotC_or _ _ _) h0 d2
              (fun j _ b => ipAfter_before (by omega) _ _ b) (ipAfter_at (by omega) _))
      refine ⟨s, g1, ?_⟩
      rw [show n - 1 + 1 = n by ring] at g2
      intro hh
      rcases g2 with g2 | g2
      · exact .inl (g2 hh)
      · exact .inr (g2 hh)
  obtain ⟨s, g1, g2⟩ := hloop
  rw [g1, Option.bind_some, get_in ⟨⟨by omega, by omega⟩, by omega, by omega⟩, Option.bind_some,
    get_in ⟨⟨by omega, by omega⟩, by omega, by omega⟩, Option.bind_some]
  refine ⟨_, rfl, ?_⟩
  by_cases h0 : ABS (s.Ar n n) + ABS (s.Ai n n) = 0
  · rw [if_pos h0]
    intro hh
    right
    refine ⟨by dsimp only; omega, ?_⟩
    rcases g2 hh with ⟨-, g2⟩ | ⟨-, g2⟩
    · obtain ⟨x, x1, x2⟩ := g2.singular (by omega) le_rfl ((ABS_add_zero _ _).1 h0)
        (fun h => by omega)
      exact ⟨n, x, ⟨hn, le_rfl⟩, x1, x2⟩
    · exact g2
  · rw [if_neg h0]
    intro hh
    rcases g2 hh with ⟨g2, g3⟩ | g2
    · exact .inl ⟨g2, g3, fun h => h0 ((ABS_add_zero _ _).2 h)⟩
    · exact .inr g2

theorem solhcDiv_spec {n k : ℤ} (hk : 1 ≤ k) (hkn : k ≤ n) (Ar Ai : ℤ → ℤ → ℝ)
    (B : (ℤ → ℝ) × (ℤ → ℝ)) :
    ∃ B', solhcDiv n Ar Ai k B = some B' ∧
      zv B'.1 B'.2 = Function.update (zv B.1 B.2) k (zv B.1 B.2 k / Z Ar Ai k k) := by
  unfold solhcDiv
  rw [get_in ⟨⟨by omega, by omega⟩, by omega, by omega⟩, Option.bind_some,
    get_in ⟨⟨by omega, by omega⟩, by omega, by omega⟩, Option.bind_some]
  dsimp only
  rw [vget_in ⟨by omega, by omega⟩, Option.bind_some, vget_in ⟨by omega, by omega⟩,
    Option.bind_some, vset_in _ ⟨by omega, by omega⟩, Option.bind_some,
    vset_in _ ⟨by omega, by omega⟩, Option.bind_some]
  refine ⟨_, rfl, ?_⟩
  funext i
  by_cases e : i = k
  · subst e
    rw [Function.update_self]
    unfold zv Z
    rw [Complex.ext_iff, Complex.div_re, Complex.div_im]
    simp only [Complex.normSq_mk, Function.update_self]
    constructor <;> ring
  · rw [Function.update_of_ne e]
    unfold zv
    simp [e]

/-- one row of the update of `B`. -/
theorem row_step {n i : ℤ} (hi : 1 ≤ i) (hin : i ≤ n) (a b tr ti : ℝ) (B : (ℤ → ℝ) × (ℤ → ℝ)) :
    ∃ B', ((vget n B.1 i).bind fun u => (vset n B.1 i (u + (a * tr - b * ti))).bind fun Br =>
      (vget n B.2 i).bind fun v => (vset n B.2 i (v + (b * tr + a * ti))).bind fun Bi =>
      some (Br, Bi)) = some B' ∧
      zv B'.1 B'.2 = Function.update (zv B.1 B.2) i
        (zv B.1 B.2 i + (⟨a, b⟩ : ℂ) * (⟨tr, ti⟩ : ℂ)) := by
  rw [vget_in ⟨by omega, by omega⟩, Option.bind_some, vset_in _ ⟨by omega, by omega⟩,
    Option.bind_some, vget_in ⟨by omega, by omega⟩, Option.bind_some,
    vset_in _ ⟨by omega, by omega⟩, Option.bind_some]
  refine ⟨_, rfl, ?_⟩
  funext i'
  by_cases e : i' = i
  · subst e
    rw [Function.update_self]
    unfold zv
    rw [Complex.ext_iff]
    simp only [Function.update_self, Complex.add_re, Complex.add_im, Complex.mul_re,
      Complex.mul_im, true_and]
    ring
  · rw [Function.update_of_ne e]
    unfold zv
    simp [e]

/-- `solhc` after a successful `dechc`. -/
theorem solhc_spec {n : ℤ} (hn : 1 ≤ n) {H : ℤ → ℤ → ℂ} {Ar Ai : ℤ → ℤ → ℝ} {ip : ℤ → ℤ}
    (hF : Factored n n H (Z Ar Ai) ip) (hd : Z Ar Ai n n ≠ 0) (Br Bi : ℤ → ℝ) :
    ∃ x, solhc n Ar Ai ip Br Bi = some x ∧
      ∀ i, 1 ≤ i → i ≤ n → S n H (zv x.1 x.2) i = zv Br Bi i := by
  have hdiag : ∀ j, 1 ≤ j → j ≤ n → Z Ar Ai j j ≠ 0 := by
    intro j a b
    by_cases e : j = n
    · rw [e]; exact hd
    · exact hF.diag j a (by omega)
  have hloops : ∃ C, (if n ≠ 1 then
      (forUp 1 (n - 1) (solhcFwd n Ar Ai ip) (Br, Bi)).bind fun B =>
        forUp 1 (n - 1) (solhcBwd n Ar Ai) B
      else some (Br, Bi)) = some C ∧
      Back n 1 (Z Ar Ai) (fwd (Z Ar Ai) ip (n - 1).toNat (zv Br Bi)) (zv C.1 C.2) := by
    by_cases h1 : n = 1
    · subst h1
      rw [if_neg (by simp)]
      exact ⟨_, rfl, Back.init 1 _ _⟩
    · rw [if_pos h1]
      obtain ⟨F, f1, f2⟩ := forUp_inv (body := solhcFwd n Ar Ai ip)
        (P := fun k C => zv C.1 C.2 = fwd (Z Ar Ai) ip (k - 1).toNat (zv Br Bi)) (lo := 1)
        (hi := n - 1) (s := (Br, Bi)) (by omega) rfl (by
          rintro k C' hk hk' hC'
          have key : ∃ C'', solhcFwd n Ar Ai ip k C' = some C'' ∧ zv C''.1 C''.2 =
              rho k (ip (k - 1)) (Z Ar Ai (k + 1) k) (zv C'.1 C'.2) := by
            unfold solhcFwd
            have hm := hF.piv k hk (by omega)
            rw [iget_in ⟨by omega, by omega⟩, Option.bind_some]
            generalize ip (k - 1) = m at hm
            rw [vget_in ⟨by omega, by omega⟩, Option.bind_some, vget_in ⟨by omega, by omega⟩,
              Option.bind_some, vget_in ⟨by omega, by omega⟩, Option.bind_some,
              vset_in _ ⟨by omega, by omega⟩, Option.bind_some,
              vget_in ⟨by omega, by omega⟩, Option.bind_some,
              vset_in _ ⟨by omega, by omega⟩, Option.bind_some,
              vset_in _ ⟨by omega, by omega⟩, Option.bind_some,
              vset_in _ ⟨by omega, by omega⟩, Option.bind_some]
            simp only
            rw [show min n (k + 1) = k + 1 by omega, forUp_single,
              get_in ⟨⟨by omega, by omega⟩, by omega, by omega⟩, Option.bind_some,
              get_in ⟨⟨by omega, by omega⟩, by omega, by omega⟩, Option.bind_some]
            obtain ⟨D, d1, d2⟩ := row_step (n := n) (i := k + 1) (by omega) (by omega)
              (Ar (k + 1) k) (Ai (k + 1) k) (C'.1 m) (C'.2 m)
              (Function.update (Function.update C'.1 m (C'.1 k)) k (C'.1 m),
               Function.update (Function.update C'.2 m (C'.2 k)) k (C'.2 m))
            refine ⟨D, d1, ?_⟩
            rw [d2]
            have ez : zv (Function.update (Function.update C'.1 m (C'.1 k)) k (C'.1 m))
               (Function.update (Function.update C'.2 m (C'.2 k)) k (C'.2 m)) =
               Function.update (Function.update (zv C'.1 C'.2) m (zv C'.1 C'.2 k)) k
                (zv C'.1 C'.2 m) := by
              funext i
              unfold zv
              simp only [Function.update_apply]
              split_ifs <;> rfl
            dsimp only
            rw [ez]
            rw [show (⟨Ar (k + 1) k, Ai (k + 1) k⟩ : ℂ) = Z Ar Ai (k + 1) k from rfl,
              show (⟨C'.1 m, C'.2 m⟩ : ℂ) = zv C'.1 C'.2 m from rfl]
            generalize zv C'.1 C'.2 = B
            generalize Z Ar Ai (k + 1) k = c
            funext i
            unfold rho
            have ek : k + 1 ≠ k := by omega
            have ek' : k ≠ k + 1 := by omega
            rcases hm with e | e
            · subst e
              by_cases q1 : i = m
              · subst q1; simp [Function.update_apply]
              · by_cases q2 : i = m + 1
                · subst q2; simp [Function.update_apply]; congr 1; ring
                · simp [q1, q2, Function.update_apply]
            · subst e
              by_cases q1 : i = k
              · subst q1; simp [Function.update_apply]
              · by_cases q2 : i = k + 1
                · subst q2; simp [Function.update_apply]; congr 1; ring
                · simp [q1, q2, Function.update_apply]
          obtain ⟨C'', k1, k2⟩ := key
          refine ⟨C'', k1, ?_⟩
          obtain ⟨q, hq⟩ : ∃ q : ℕ, (k - 1).toNat = q := ⟨_, rfl⟩
          rw [k2, show (k + 1 - 1).toNat = q + 1 by omega, fwd, hC', hq,
              show (q : ℤ) + 1 = k by omega, show (q : ℤ) + 2 = k + 1 by omega,
              show (q : ℤ) = k - 1 by omega])
      rw [f1, Option.bind_some]
      rw [show n - 1 + 1 - 1 = n - 1 by ring] at f2
      generalize fwd (Z Ar Ai) ip (n - 1).toNat (zv Br Bi) = c at f2 ⊢
      obtain ⟨C, g1, g2⟩ := forUp_inv (body := solhcBwd n Ar Ai)
        (P := fun kb C => Back n (n - kb + 1) (Z Ar Ai) c (zv C.1 C.2)) (lo := 1) (hi := n - 1)
        (s := F) (by omega)
        (by rw [show n - 1 + 1 = n by ring, f2]; exact Back.init n _ c) (by
          intro kb C hkb hkb' hC
          unfold solhcBwd
          obtain ⟨k, hk⟩ : ∃ k, n - kb + 1 = k := ⟨_, rfl⟩
          simp only [hk] at hC ⊢
          rw [show n - kb = k - 1 by omega, show n - (kb + 1) + 1 = k - 1 by omega]
          obtain ⟨E, e1, e2⟩ := solhcDiv_spec (n := n) (k := k) (by omega) (by omega) Ar Ai C
          rw [e1, Option.bind_some, vget_in ⟨by omega, by omega⟩, Option.bind_some,
            vget_in ⟨by omega, by omega⟩, Option.bind_some]
          have hEk : (⟨-E.1 k, -E.2 k⟩ : ℂ) = -(zv C.1 C.2 k / Z Ar Ai k k) := by
            have := congrFun e2 k
            rw [Function.update_self] at this
            rw [← this]
            unfold zv
            rw [Complex.ext_iff]; simp
          obtain ⟨D, d1, d2⟩ := forUp_inv
            (P := fun i (D : (ℤ → ℝ) × (ℤ → ℝ)) => ∀ r, zv D.1 D.2 r =
              if r = k then zv C.1 C.2 k / Z Ar Ai k k else if 1 ≤ r ∧ r < i then
              zv C.1 C.2 r + Z Ar Ai r k * (-(zv C.1 C.2 k / Z Ar Ai k k)) else zv C.1 C.2 r)
            (body := fun i (B : (ℤ → ℝ) × (ℤ → ℝ)) =>
              (get n Ar i k).bind fun a => (get n Ai i k).bind fun b =>
              (vget n B.1 i).bind fun u =>
              (vset n B.1 i (u + (a * -E.1 k - b * -E.2 k))).bind fun Br =>
              (vget n B.2 i).bind fun v =>
              (vset n B.2 i (v + (b * -E.1 k + a * -E.2 k))).bind fun Bi => some (Br, Bi))
            (lo := 1) (hi := k - 1) (s := E) (by omega)
            (by intro r
                rw [e2]
                by_cases e : r = k
                · simp [e]
                · rw [Function.update_of_ne e, if_neg e, if_neg (by omega)]) (by
              intro i D hi hi' hD
              rw [get_in ⟨⟨by omega, by omega⟩, by omega, by omega⟩, Option.bind_some,
                get_in ⟨⟨by omega, by omega⟩, by omega, by omega⟩, Option.bind_some]
              obtain ⟨D', q1, q2⟩ := row_step (n := n) (i := i) (by omega) (by omega)
                (Ar i k) (Ai i k) (-E.1 k) (-E.2 k) D
              refine ⟨D', q1, ?_⟩
              intro r
              rw [q2, hEk]
              rw [show (⟨Ar i k, Ai i k⟩ : ℂ) = Z Ar Ai i k from rfl]
              by_cases e : r = i
              · subst e
                rw [Function.update_self, hD, if_neg (by omega), if_neg (by omega),
                  if_neg (by omega), if_pos (by omega)]
              · rw [Function.update_of_ne e, hD]
                by_cases e2 : r = k
                · rw [if_pos e2, if_pos e2]
                · rw [if_neg e2, if_neg e2]
                  by_cases e3 : 1 ≤ r ∧ r < i
                  · rw [if_pos e3, if_pos (by omega)]
                  · rw [if_neg e3, if_neg (by omega)])
          refine ⟨D, d1, hC.step (by omega) (by omega) (hdiag k (by omega) (by omega)) ?_⟩
          intro i
          rw [d2 i, show k - 1 + 1 = k by ring])
      refine ⟨C, g1, ?_⟩
      rwa [show n - (n - 1 + 1) + 1 = 1 by ring] at g2
  obtain ⟨C, c1, c2⟩ := hloops
  unfold solhc
  obtain ⟨E, e1, e2⟩ := solhcDiv_spec (n := n) (k := 1) le_rfl hn Ar Ai C
  rw [c1, Option.bind_some, e1]
  refine ⟨_, rfl, ?_⟩
  rw [← hF.sol]
  have := c2.step (B' := zv E.1 E.2) le_rfl hn (hdiag 1 le_rfl hn) (by
    intro i
    rw [e2]
    by_cases e : i = 1
    · subst e; simp
    · rw [Function.update_of_ne e, if_neg e, if_neg (by omega)])
  exact Back.done this

end Odes.Hess
