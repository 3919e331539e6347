import Verif.Lemmas.StabBound
import Verif.Lemmas.Rock4Stab
import Verif.Lemmas.Rock4LStab
import Verif.Lemmas.Rock4Tab
import Verif.Spec.Stability

/-!
# The formulas tested for stability are those of the tables
-/

namespace Odes

open Rock4Check StabCheck
open Rock4 (Sel MS)
open Spec

/-- bound proved for formula `k` up to `z = -1`, in thousandths. -/
def betK (k : ℕ) : ℕ := if k = 36 then 1150 else if k = 47 ∨ k = 49 then 1010 else 1000

/-- bound proved for formula `k` beyond `z = -1`, in thousandths. -/
def dmpK (k : ℕ) : ℕ := if k < 36 then 970 else betK k

theorem StabCheck.Rock4.all_ok : ∀ k : ℕ, k < 50 → ∃ pts, formulaStable scale19 1000 (degs.getD k 0)
    (Tables.Rock4.recf.getD k []) (colRow Tables.Rock4.fpa k) (colRow Tables.Rock4.fpb k)
    (353 * (degs.getD k 0 + 4) ^ 2 - 3000) (dmpK k) pts = true := by
  intro k hk
  match k, hk with
  | 0, _ => exact ⟨_, StabCheck.Rock4.ok0⟩
  | 1, _ => exact ⟨_, StabCheck.Rock4.ok1⟩
  | 2, _ => exact ⟨_, StabCheck.Rock4.ok2⟩
  | 3, _ => exact ⟨_, StabCheck.Rock4.ok3⟩
  | 4, _ => exact ⟨_, StabCheck.Rock4.ok4⟩
  | 5, _ => exact ⟨_, StabCheck.Rock4.ok5⟩
  | 6, _ => exact ⟨_, StabCheck.Rock4.ok6⟩
  | 7, _ => exact ⟨_, StabCheck.Rock4.ok7⟩
  | 8, _ => exact ⟨_, StabCheck.Rock4.ok8⟩
  | 9, _ => exact ⟨_, StabCheck.Rock4.ok9⟩
  | 10, _ => exact ⟨_, StabCheck.Rock4.ok10⟩
  | 11, _ => exact ⟨_, StabCheck.Rock4.ok11⟩
  | 12, _ => exact ⟨_, StabCheck.Rock4.ok12⟩
  | 13, _ => exact ⟨_, StabCheck.Rock4.ok13⟩
  | 14, _ => exact ⟨_, StabCheck.Rock4.ok14⟩
  | 15, _ => exact ⟨_, StabCheck.Rock4.ok15⟩
  | 16, _ => exact ⟨_, StabCheck.Rock4.ok16⟩
  | 17, _ => exact ⟨_, StabCheck.Rock4.ok17⟩
  | 18, _ => exact ⟨_, StabCheck.Rock4.ok18⟩
  | 19, _ => exact ⟨_, StabCheck.Rock4.ok19⟩
  | 20, _ => exact ⟨_, StabCheck.Rock4.ok20⟩
  | 21, _ => exact ⟨_, StabCheck.Rock4.ok21⟩
  | 22, _ => exact ⟨_, StabCheck.Rock4.ok22⟩
  | 23, _ => exact ⟨_, StabCheck.Rock4.ok23⟩
  | 24, _ => exact ⟨_, StabCheck.Rock4.ok24⟩
  | 25, _ => exact ⟨_, StabCheck.Rock4.ok25⟩
  | 26, _ => exact ⟨_, StabCheck.Rock4.ok26⟩
  | 27, _ => exact ⟨_, StabCheck.Rock4.ok27⟩
  | 28, _ => exact ⟨_, StabCheck.Rock4.ok28⟩
  | 29, _ => exact ⟨_, StabCheck.Rock4.ok29⟩
  | 30, _ => exact ⟨_, StabCheck.Rock4.ok30⟩
  | 31, _ => exact ⟨_, StabCheck.Rock4.ok31⟩
  | 32, _ => exact ⟨_, StabCheck.Rock4.ok32⟩
  | 33, _ => exact ⟨_, StabCheck.Rock4.ok33⟩
  | 34, _ => exact ⟨_, StabCheck.Rock4.ok34⟩
  | 35, _ => exact ⟨_, StabCheck.Rock4.ok35⟩
  | 36, _ => exact ⟨_, StabCheck.Rock4.ok36⟩
  | 37, _ => exact ⟨_, StabCheck.Rock4.ok37⟩
  | 38, _ => exact ⟨_, StabCheck.Rock4.ok38⟩
  | 39, _ => exact ⟨_, StabCheck.Rock4.ok39⟩
  | 40, _ => exact ⟨_, StabCheck.Rock4.ok40⟩
  | 41, _ => exact ⟨_, StabCheck.Rock4.ok41⟩
  | 42, _ => exact ⟨_, StabCheck.Rock4.ok42⟩
  | 43, _ => exact ⟨_, StabCheck.Rock4.ok43⟩
  | 44, _ => exact ⟨_, StabCheck.Rock4.ok44⟩
  | 45, _ => exact ⟨_, StabCheck.Rock4.ok45⟩
  | 46, _ => exact ⟨_, StabCheck.Rock4.ok46⟩
  | 47, _ => exact ⟨_, StabCheck.Rock4.ok47⟩
  | 48, _ => exact ⟨_, StabCheck.Rock4.ok48⟩
  | 49, _ => exact ⟨_, StabCheck.Rock4.ok49⟩
  | k + 50, h => omega

theorem StabCheck.Rock4L.all_ok : ∀ k : ℕ, k < 50 → ∃ pts, formulaStable scale19 1000 (degs.getD k 0)
    (Tables.Rock4L.recf.getD k []) (rowRow Tables.Rock4L.fpa k) (rowRow Tables.Rock4L.fpb k)
    (353 * (degs.getD k 0 + 4) ^ 2 - 3000) (dmpK k) pts = true := by
  intro k hk
  match k, hk with
  | 0, _ => exact ⟨_, StabCheck.Rock4L.ok0⟩
  | 1, _ => exact ⟨_, StabCheck.Rock4L.ok1⟩
  | 2, _ => exact ⟨_, StabCheck.Rock4L.ok2⟩
  | 3, _ => exact ⟨_, StabCheck.Rock4L.ok3⟩
  | 4, _ => exact ⟨_, StabCheck.Rock4L.ok4⟩
  | 5, _ => exact ⟨_, StabCheck.Rock4L.ok5⟩
  | 6, _ => exact ⟨_, StabCheck.Rock4L.ok6⟩
  | 7, _ => exact ⟨_, StabCheck.Rock4L.ok7⟩
  | 8, _ => exact ⟨_, StabCheck.Rock4L.ok8⟩
  | 9, _ => exact ⟨_, StabCheck.Rock4L.ok9⟩
  | 10, _ => exact ⟨_, StabCheck.Rock4L.ok10⟩
  | 11, _ => exact ⟨_, StabCheck.Rock4L.ok11⟩
  | 12, _ => exact ⟨_, StabCheck.Rock4L.ok12⟩
  | 13, _ => exact ⟨_, StabCheck.Rock4L.ok13⟩
  | 14, _ => exact ⟨_, StabCheck.Rock4L.ok14⟩
  | 15, _ => exact ⟨_, StabCheck.Rock4L.ok15⟩
  | 16, _ => exact ⟨_, StabCheck.Rock4L.ok16⟩
  | 17, _ => exact ⟨_, StabCheck.Rock4L.ok17⟩
  | 18, _ => exact ⟨_, StabCheck.Rock4L.ok18⟩
  | 19, _ => exact ⟨_, StabCheck.Rock4L.ok19⟩
  | 20, _ => exact ⟨_, StabCheck.Rock4L.ok20⟩
  | 21, _ => exact ⟨_, StabCheck.Rock4L.ok21⟩
  | 22, _ => exact ⟨_, StabCheck.Rock4L.ok22⟩
  | 23, _ => exact ⟨_, StabCheck.Rock4L.ok23⟩
  | 24, _ => exact ⟨_, StabCheck.Rock4L.ok24⟩
  | 25, _ => exact ⟨_, StabCheck.Rock4L.ok25⟩
  | 26, _ => exact ⟨_, StabCheck.Rock4L.ok26⟩
  | 27, _ => exact ⟨_, StabCheck.Rock4L.ok27⟩
  | 28, _ => exact ⟨_, StabCheck.Rock4L.ok28⟩
  | 29, _ => exact ⟨_, StabCheck.Rock4L.ok29⟩
  | 30, _ => exact ⟨_, StabCheck.Rock4L.ok30⟩
  | 31, _ => exact ⟨_, StabCheck.Rock4L.ok31⟩
  | 32, _ => exact ⟨_, StabCheck.Rock4L.ok32⟩
  | 33, _ => exact ⟨_, StabCheck.Rock4L.ok33⟩
  | 34, _ => exact ⟨_, StabCheck.Rock4L.ok34⟩
  | 35, _ => exact ⟨_, StabCheck.Rock4L.ok35⟩
  | 36, _ => exact ⟨_, StabCheck.Rock4L.ok36⟩
  | 37, _ => exact ⟨_, StabCheck.Rock4L.ok37⟩
  | 38, _ => exact ⟨_, StabCheck.Rock4L.ok38⟩
  | 39, _ => exact ⟨_, StabCheck.Rock4L.ok39⟩
  | 40, _ => exact ⟨_, StabCheck.Rock4L.ok40⟩
  | 41, _ => exact ⟨_, StabCheck.Rock4L.ok41⟩
  | 42, _ => exact ⟨_, StabCheck.Rock4L.ok42⟩
  | 43, _ => exact ⟨_, StabCheck.Rock4L.ok43⟩
  | 44, _ => exact ⟨_, StabCheck.Rock4L.ok44⟩
  | 45, _ => exact ⟨_, StabCheck.Rock4L.ok45⟩
  | 46, _ => exact ⟨_, StabCheck.Rock4L.ok46⟩
  | 47, _ => exact ⟨_, StabCheck.Rock4L.ok47⟩
  | 48, _ => exact ⟨_, StabCheck.Rock4L.ok48⟩
  | 49, _ => exact ⟨_, StabCheck.Rock4L.ok49⟩
  | k + 50, h => omega

theorem StabCheck.Rock4.big36 : formulaUnstable scale19 1000 63 Tables.Rock4.recf36
    (colRow Tables.Rock4.fpa 36) (colRow Tables.Rock4.fpb 36) 1581600 = true := by decide +kernel

theorem StabCheck.Rock4.big47 : formulaUnstable scale19 1000 129 Tables.Rock4.recf47
    (colRow Tables.Rock4.fpa 47) (colRow Tables.Rock4.fpb 47) 8390 = true := by decide +kernel

theorem StabCheck.Rock4.big49 : formulaUnstable scale19 1000 148 Tables.Rock4.recf49
    (colRow Tables.Rock4.fpa 49) (colRow Tables.Rock4.fpb 49) 8390 = true := by decide +kernel

theorem StabCheck.Rock4L.big36 : formulaUnstable scale19 1000 63 Tables.Rock4L.recf36
    (rowRow Tables.Rock4L.fpa 36) (rowRow Tables.Rock4L.fpb 36) 1581600 = true := by decide +kernel

theorem StabCheck.Rock4L.big47 : formulaUnstable scale19 1000 129 Tables.Rock4L.recf47
    (rowRow Tables.Rock4L.fpa 47) (rowRow Tables.Rock4L.fpb 47) 8390 = true := by decide +kernel

theorem StabCheck.Rock4L.big49 : formulaUnstable scale19 1000 148 Tables.Rock4L.recf49
    (rowRow Tables.Rock4L.fpa 49) (rowRow Tables.Rock4L.fpb 49) 8390 = true := by decide +kernel


/-! ### the amplification factor is the function tested -/

theorem gRec_amp (mu kap : ℕ → ℝ) (t : ℝ) : ∀ j,
    Gen.gRec (fun (v : Fin 1 → ℝ) i => -t * v i) mu kap 1 (fun _ => 1) j = fun _ => Q mu kap t j
  | 0 => rfl
  | 1 => by funext i; simp only [Gen.gRec, Q]; ring
  | (j + 2) => by
    funext i
    simp only [Gen.gRec, gRec_amp mu kap t (j + 1), gRec_amp mu kap t j, Q]
    ring

theorem amp_eq (R : Gen.Formula ℝ) (t : ℝ) : amp R (-t) = Q R.mu R.kap t R.deg *
    wfac R.a21 R.a31 R.a32 R.a41 R.a42 R.a43 (R.b 0) (R.b 1) (R.b 2) (R.b 3) t := by
  simp only [amp, Gen.step, Gen.finishing, gRec_amp, wfac]
  ring

/-- a linear functional which is a left eigenvector sees the scalar equation. -/
theorem step_left {n : ℕ} (R : Gen.Formula ℝ) (A : Matrix (Fin n) (Fin n) ℝ) (φ : (Fin n → ℝ) →ₗ[ℝ] ℝ)
    {lam : ℝ} (hφ : ∀ v, φ (A.mulVec v) = lam * φ v) (h : ℝ) (y : Fin n → ℝ) :
    φ (Gen.step R (fun v => A.mulVec v) h y) = amp R (h * lam) * φ y := by
  have e1 : ∀ (g u : Fin n → ℝ) (c : ℝ), (fun i => g i + c * u i) = g + c • u := fun _ _ _ => rfl
  have e2 : ∀ (g u v : Fin n → ℝ) (c d : ℝ), (fun i => g i + c * u i + d * v i)
      = g + c • u + d • v := fun _ _ _ _ _ => rfl
  have e3 : ∀ (g u v w : Fin n → ℝ) (c d e : ℝ), (fun i => g i + c * u i + d * v i + e * w i)
      = g + c • u + d • v + e • w := fun _ _ _ _ _ _ _ => rfl
  have e4 : ∀ (g u v w x : Fin n → ℝ) (c d e f : ℝ),
      (fun i => g i + c * u i + d * v i + e * w i + f * x i)
      = g + c • u + d • v + e • w + f • x := fun _ _ _ _ _ _ _ _ _ => rfl
  have e5 : ∀ (u v w : Fin n → ℝ) (c d e : ℝ), (fun i => c * u i + d * v i - e * w i)
      = c • u + d • v - e • w := fun _ _ _ _ _ _ => rfl
  have hg : ∀ j, φ (Gen.gRec (fun v => A.mulVec v) R.mu R.kap h y j)
      = Q R.mu R.kap (-(h * lam)) j * φ y := by
    intro j
    induction j using Nat.strong_induction_on with
    | _ j ih =>
      match j, ih with
      | 0, _ => simp [Gen.gRec, Q]
      | 1, _ =>
        rw [Gen.gRec, e1, map_add, map_smul, hφ, smul_eq_mul, Q]
        ring
      | j + 2, ih =>
        rw [Gen.gRec, e5, map_sub, map_add, map_smul, map_smul, map_smul, hφ, smul_eq_mul, smul_eq_mul,
          smul_eq_mul, ih (j + 1) (by omega), ih j (by omega), Q]
        ring
  have e0 : h * lam = -(-(h * lam)) := by ring
  rw [e0, amp_eq]
  unfold Gen.step Gen.finishing
  simp only [e1, e2, e3, e4, map_add, map_smul, hφ, smul_eq_mul, hg, wfac]
  ring

/-- `R` has the coefficients `l`, `a`, `b` (numerators). -/
structure Row (R : Gen.Formula ℝ) (m : ℕ) (l : List ℤ) (a b : ℕ → ℤ) : Prop where
  deg : R.deg = m
  hm : 1 ≤ m
  h1 : ((l.getD 0 0 : ℤ) : ℝ) / scale19 = R.mu 1
  h2 : ∀ q < m - 1, ((l.getD (2 * q + 1) 0 : ℤ) : ℝ) / scale19 = R.mu (q + 2) ∧
      ((l.getD (2 * q + 2) 0 : ℤ) : ℝ) / scale19 = R.kap (q + 2)
  a1 : (a 1 : ℝ) / scale19 = R.a21
  a2 : (a 2 : ℝ) / scale19 = R.a31
  a3 : (a 3 : ℝ) / scale19 = R.a32
  a4 : (a 4 : ℝ) / scale19 = R.a41
  a5 : (a 5 : ℝ) / scale19 = R.a42
  a6 : (a 6 : ℝ) / scale19 = R.a43
  b1 : (b 1 : ℝ) / scale19 = R.b 0
  b2 : (b 2 : ℝ) / scale19 = R.b 1
  b3 : (b 3 : ℝ) / scale19 = R.b 2
  b4 : (b 4 : ℝ) / scale19 = R.b 3

theorem Row.stable {R : Gen.Formula ℝ} {m : ℕ} {l : List ℤ} {a b : ℕ → ℤ} (r : Row R m l a b)
    {L β : ℕ} {pts : List ℕ} (h : formulaStable scale19 1000 m l a b L β pts = true) {z : ℝ}
    (h1 : -(L / 1000) ≤ z) (h2 : z ≤ 0) : (-1 ≤ z ∧ |amp R z| ≤ 1) ∨ |amp R z| ≤ β / 1000 := by
  have e : z = -(-z) := by ring
  rw [e, amp_eq, r.deg, neg_le_neg_iff]
  refine formulaStable_sound scale19_pos (by norm_num) r.hm l a b pts R.mu R.kap r.h1 r.h2 r.a1 r.a2
    r.a3 r.a4 r.a5 r.a6 r.b1 r.b2 r.b3 r.b4 h (by linarith) ?_
  push_cast
  linarith

theorem Row.unstable {R : Gen.Formula ℝ} {m : ℕ} {l : List ℤ} {a b : ℕ → ℤ} (r : Row R m l a b)
    {p : ℕ} (h : formulaUnstable scale19 1000 m l a b p = true) : 1 < |amp R (-(p / 1000))| := by
  rw [amp_eq, r.deg]
  have := formulaUnstable_sound scale19_pos (by norm_num) r.hm l a b R.mu R.kap r.h1 r.h2 r.a1 r.a2
    r.a3 r.a4 r.a5 r.a6 r.b1 r.b2 r.b3 r.b4 h
  push_cast at this
  exact this

/-- the formula designated by a selection, in terms of the rows of the tables. -/
theorem sel_row (T : Rock4L.Tab ℝ) (t : List (List ℤ)) (a b : ℕ → ℕ → ℤ)
    (ht : t.map List.length = degs.map (fun d => 2 * d - 1))
    (hrecf : ∀ i, T.recf i = lit (flatAt t (i - 1)))
    (ha : ∀ k < 50, ∀ j < 6, T.fpa (k + 1) (j + 1) = lit (a k (j + 1)))
    (hb : ∀ k < 50, ∀ j < 4, T.fpb (k + 1) (j + 1) = lit (b k (j + 1)))
    {d mz mr : ℤ} (hs : Sel d mz mr) : ∃ k < 50, d = (degs.getD k 0 : ℕ) ∧
      Row (Rock4L.formulaOf T d mz mr) (degs.getD k 0) (t.getD k []) (a k) (b k) := by
  obtain ⟨k, hk, h1, h2, h3⟩ := hs
  have hd := (degs_MS ⟨k, hk⟩).1
  have hd1 := (degs_MS ⟨k, hk⟩).2.1
  simp only at hd hd1
  rw [hd] at h1
  have hd' : d = (degs.getD k 0 : ℕ) := by
    have := Option.some.inj h1
    exact this.symm
  have hmz : mz.toNat = k + 1 := by omega
  have hat := fun q hq i hi => recf_at t ht ⟨k, hk⟩ q hq i hi
  refine ⟨k, hk, hd', ⟨?_, hd1, ?_, ?_, ?_, ?_, ?_, ?_, ?_, ?_, ?_, ?_, ?_, ?_⟩⟩
  · show d.toNat = _
    rw [hd']; simp
  · rw [lit_eq]
    show _ = Rock4L.muOf T mr 1
    rw [Rock4L.muOf, if_pos rfl, hrecf, hat 0 (by simp only; omega) mr (by simp [h3])]
  · intro q hq
    rw [lit_eq, lit_eq]
    show _ = Rock4L.muOf T mr (q + 2) ∧ _ = Rock4L.kapOf T mr (q + 2)
    rw [Rock4L.muOf, if_neg (by omega), Rock4L.kapOf, hrecf, hrecf,
      hat (2 * q + 1) (by simp only; omega) _ (by simp only [h3]; push_cast; ring),
      hat (2 * q + 2) (by simp only; omega) _ (by simp only [h3]; push_cast; ring)]
    exact ⟨rfl, rfl⟩
  iterate 6 (rw [lit_eq]; show _ = T.fpa mz.toNat _; rw [hmz, ha k hk _ (by norm_num)])
  · rw [lit_eq]; show _ = T.fpb mz.toNat _; rw [hmz, hb k hk _ (by norm_num)]; rfl
  · rw [lit_eq]; show _ = T.fpb mz.toNat _; rw [hmz, hb k hk _ (by norm_num)]; rfl
  · rw [lit_eq]; show _ = T.fpb mz.toNat _; rw [hmz, hb k hk _ (by norm_num)]; rfl
  · rw [lit_eq]; show _ = T.fpb mz.toNat _; rw [hmz, hb k hk _ (by norm_num)]; rfl

theorem Rock4.sel_row {d mz mr : ℤ} (hs : Sel d mz mr) : ∃ k < 50, d = (degs.getD k 0 : ℕ) ∧
    Row (Rock4L.formulaOf Rock4.realTab d mz mr) (degs.getD k 0) (Tables.Rock4.recf.getD k [])
      (colRow Tables.Rock4.fpa k) (colRow Tables.Rock4.fpb k) := by
  obtain ⟨l1, -, ⟨l3, l3'⟩, ⟨l4, l4'⟩, ⟨l5, l5'⟩, -⟩ := lens
  refine Odes.sel_row Rock4.realTab Tables.Rock4.recf (colRow Tables.Rock4.fpa)
    (colRow Tables.Rock4.fpb) l1 (fun _ => rfl) ?_ ?_ hs
  · intro k hk j hj
    show lit (flatAt Tables.Rock4.fpa (j * 50 + k)) = _
    rw [flat_getD_const _ 50 l3' j k (by omega) hk]; rfl
  · intro k hk j hj
    show lit (flatAt Tables.Rock4.fpb (j * 50 + k)) = _
    rw [flat_getD_const _ 50 l4' j k (by omega) hk]; rfl

theorem Rock4L.sel_row {d mz mr : ℤ} (hs : Sel d mz mr) : ∃ k < 50, d = (degs.getD k 0 : ℕ) ∧
    Row (Rock4L.formulaOf Rock4L.shipped d mz mr) (degs.getD k 0) (Tables.Rock4L.recf.getD k [])
      (rowRow Tables.Rock4L.fpa k) (rowRow Tables.Rock4L.fpb k) := by
  obtain ⟨-, l2, -, -, -, ⟨l6, l6'⟩, ⟨l7, l7'⟩, ⟨l8, l8'⟩⟩ := lens
  refine Odes.sel_row Rock4L.shipped Tables.Rock4L.recf (rowRow Tables.Rock4L.fpa)
    (rowRow Tables.Rock4L.fpb) l2 (fun _ => rfl) ?_ ?_ hs
  · intro k hk j hj
    show lit (flatAt Tables.Rock4L.fpa (k * 6 + j)) = _
    rw [flat_getD_const _ 6 l6' k j (by omega) hj]; rfl
  · intro k hk j hj
    show lit (flatAt Tables.Rock4L.fpb (k * 4 + j)) = _
    rw [flat_getD_const _ 4 l7' k j (by omega) hj]; rfl

/-- the bound as a function of the degree. -/
noncomputable def betD (d : ℤ) : ℝ := if d = 63 then 1.15 else if d = 129 ∨ d = 148 then 1.01 else 1

theorem betK_eq : ∀ k : Fin 50, betK k = if degs.getD k 0 = 63 then 1150 else
    if degs.getD k 0 = 129 ∨ degs.getD k 0 = 148 then 1010 else 1000 := by decide +kernel

theorem betK_betD (k : ℕ) (hk : k < 50) : (betK k : ℝ) / 1000 = betD (degs.getD k 0 : ℕ) := by
  have h := betK_eq ⟨k, hk⟩
  simp only at h
  rw [h, betD]
  generalize degs.getD k 0 = m
  by_cases h1 : m = 63
  · rw [if_pos h1, if_pos (by omega)]; norm_num
  · rw [if_neg h1, if_neg (show ¬ (m : ℤ) = 63 by omega)]
    by_cases h2 : m = 129 ∨ m = 148
    · rw [if_pos h2, if_pos (show (m : ℤ) = 129 ∨ (m : ℤ) = 148 by omega)]; norm_num
    · rw [if_neg h2, if_neg (show ¬ ((m : ℤ) = 129 ∨ (m : ℤ) = 148) by omega)]; norm_num

theorem dmpK_le (k : ℕ) : dmpK k ≤ betK k := by
  unfold dmpK betK
  split_ifs <;> omega

theorem one_le_betK (k : ℕ) : 1000 ≤ betK k := by
  unfold betK
  split_ifs <;> omega

/-- the formulas of at most 59 recurrence stages are the first 36. -/
theorem degs_small : ∀ k : Fin 50, degs.getD k 0 ≤ 59 → k.1 < 36 := by decide +kernel

/-- the bound of `betD` from the result of the test. -/
theorem le_betD {x : ℝ} {P : Prop} (k : ℕ) (hk : k < 50) (h : (P ∧ x ≤ 1) ∨ x ≤ (dmpK k : ℝ) / 1000) :
    x ≤ betD (degs.getD k 0 : ℕ) := by
  rw [← betK_betD k hk]
  have h1 : (1000 : ℝ) ≤ betK k := by exact_mod_cast one_le_betK k
  have h2 : (dmpK k : ℝ) ≤ betK k := by exact_mod_cast dmpK_le k
  rcases h with ⟨-, h⟩ | h <;> linarith

theorem L_eq (m : ℕ) (hm : 1 ≤ m) : ((353 * (m + 4) ^ 2 - 3000 : ℕ) : ℝ) / 1000
    = 0.353 * ((m : ℝ) + 4) ^ 2 - 3 := by
  rw [Nat.cast_sub (by nlinarith)]
  push_cast
  ring

theorem degs_inj : ∀ k : Fin 50, (degs.getD k 0 = 63 → k.1 = 36) ∧ (degs.getD k 0 = 129 → k.1 = 47) ∧
    (degs.getD k 0 = 148 → k.1 = 49) := by decide +kernel

end Odes
