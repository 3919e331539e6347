import Verif.Lemmas.AmpNorm
import Verif.Props.Rock4LLoop
import Verif.Props.Rock4Tables

/-!
# C85: the stability interval of the ROCK4 formulas

The number of stages is chosen so that `h rho ≤ 0.353 s^2 - 3` (C49).  That a step is then stable
depends on the tables: the amplification factor of the formula with `s` stages must be at most 1 in
absolute value on `[-(0.353 s^2 - 3), 0]`.
-/

namespace Odes

open Rock4Check StabCheck Matrix
open Rock4 (Sel MS)
open Spec

/-- length of the stability interval the step size control relies on, for degree `d`
(`d + 4` stages). -/
noncomputable def stabLen (d : ℤ) : ℝ := 0.353 * ((d : ℝ) + 4) ^ 2 - 3

/-- the formula with degree `d` of the table `T` is stable on the interval. -/
def StableOn (T : Rock4L.Tab ℝ) (d mz mr : ℤ) (β : ℝ) : Prop :=
  ∀ z, -stabLen d ≤ z → z ≤ 0 → |amp (Rock4L.formulaOf T d mz mr) z| ≤ β

/-- C85 (adaptive solver), the bounds proved: 1, except for the degrees 63, 129 and 148. -/
theorem rock4_amp_le {d mz mr : ℤ} (hs : Sel d mz mr) : StableOn Rock4.realTab d mz mr (betD d) := by
  intro z h1 h2
  obtain ⟨k, hk, hd, r⟩ := Rock4.sel_row hs
  obtain ⟨pts, ok⟩ := StabCheck.Rock4.all_ok k hk
  have h := r.stable ok (z := z) (by
    rw [L_eq _ r.hm]
    unfold stabLen at h1
    rw [hd] at h1
    exact_mod_cast h1) h2
  have h := le_betD k hk h
  rwa [← hd] at h

/-- C85 (linear solver), the bounds proved. -/
theorem rock4l_amp_le {d mz mr : ℤ} (hs : Sel d mz mr) : StableOn Rock4L.shipped d mz mr (betD d) := by
  intro z h1 h2
  obtain ⟨k, hk, hd, r⟩ := Rock4L.sel_row hs
  obtain ⟨pts, ok⟩ := StabCheck.Rock4L.all_ok k hk
  have h := r.stable ok (z := z) (by
    rw [L_eq _ r.hm]
    unfold stabLen at h1
    rw [hd] at h1
    exact_mod_cast h1) h2
  have h := le_betD k hk h
  rwa [← hd] at h

/-- the formula with degree `d` of the table `T` damps by the factor `q` beyond `-1`. -/
def DampedOn (T : Rock4L.Tab ℝ) (d mz mr : ℤ) (q : ℝ) : Prop :=
  ∀ z, -stabLen d ≤ z → z < -1 → |amp (Rock4L.formulaOf T d mz mr) z| ≤ q

/-- the formulas of both tables with at most 59 stages of the recurrence damp by 0.97 beyond `-1`. -/
theorem rock4_damped {d mz mr : ℤ} (hs : Sel d mz mr) (h59 : d ≤ 59) :
    DampedOn Rock4.realTab d mz mr 0.97 := by
  intro z h1 h2
  obtain ⟨k, hk, hd, r⟩ := Rock4.sel_row hs
  obtain ⟨pts, ok⟩ := StabCheck.Rock4.all_ok k hk
  have h := r.stable ok (z := z) (by
    rw [L_eq _ r.hm]
    unfold stabLen at h1
    rw [hd] at h1
    exact_mod_cast h1) (by linarith)
  have h3 : k < 36 := degs_small ⟨k, hk⟩ (by
    rw [hd] at h59
    exact_mod_cast h59)
  rw [dmpK, if_pos h3] at h
  rcases h with ⟨h, -⟩ | h
  · linarith
  · norm_num at h ⊢
    exact h

theorem rock4l_damped {d mz mr : ℤ} (hs : Sel d mz mr) (h59 : d ≤ 59) :
    DampedOn Rock4L.shipped d mz mr 0.97 := by
  intro z h1 h2
  obtain ⟨k, hk, hd, r⟩ := Rock4L.sel_row hs
  obtain ⟨pts, ok⟩ := StabCheck.Rock4L.all_ok k hk
  have h := r.stable ok (z := z) (by
    rw [L_eq _ r.hm]
    unfold stabLen at h1
    rw [hd] at h1
    exact_mod_cast h1) (by linarith)
  have h3 : k < 36 := degs_small ⟨k, hk⟩ (by
    rw [hd] at h59
    exact_mod_cast h59)
  rw [dmpK, if_pos h3] at h
  rcases h with ⟨h, -⟩ | h
  · linarith
  · norm_num at h ⊢
    exact h

theorem betD_one {d : ℤ} (h : d ≠ 63 ∧ d ≠ 129 ∧ d ≠ 148) : betD d = 1 := by
  rw [betD, if_neg h.1, if_neg (by simp [h])]

theorem betD_bounds (d : ℤ) : 1 ≤ betD d ∧ betD d ≤ 1.15 := by
  unfold betD
  split_ifs <;> norm_num

/-- C85 (the part that holds): **every formula of both tables, except those of degree 63, 129 and
148, has an amplification factor at most 1 in absolute value on the whole interval
`[-(0.353 s^2 - 3), 0]`, `s = d + 4`.**  Missing: the three degrees, for which it is false
(`not_rock4_stable`). -/
theorem rock4_stable_partial {d mz mr : ℤ} (hs : Sel d mz mr) (hd : d ≠ 63 ∧ d ≠ 129 ∧ d ≠ 148) :
    StableOn Rock4.realTab d mz mr 1 ∧ StableOn Rock4L.shipped d mz mr 1 := by
  rw [← betD_one hd]
  exact ⟨rock4_amp_le hs, rock4l_amp_le hs⟩

/-- C85: and the three others are stable up to a factor 1.15, 1.01 and 1.01. -/
theorem rock4_almost_stable {mz mr : ℤ} :
    (Sel 63 mz mr → StableOn Rock4.realTab 63 mz mr 1.15 ∧ StableOn Rock4L.shipped 63 mz mr 1.15) ∧
    (Sel 129 mz mr → StableOn Rock4.realTab 129 mz mr 1.01 ∧ StableOn Rock4L.shipped 129 mz mr 1.01) ∧
    (Sel 148 mz mr → StableOn Rock4.realTab 148 mz mr 1.01 ∧ StableOn Rock4L.shipped 148 mz mr 1.01) := by
  have e1 : betD 63 = 1.15 := by simp [betD]
  have e2 : betD 129 = 1.01 := by norm_num [betD]
  have e3 : betD 148 = 1.01 := by norm_num [betD]
  refine ⟨fun h => ?_, fun h => ?_, fun h => ?_⟩
  · rw [← e1]; exact ⟨rock4_amp_le h, rock4l_amp_le h⟩
  · rw [← e2]; exact ⟨rock4_amp_le h, rock4l_amp_le h⟩
  · rw [← e3]; exact ⟨rock4_amp_le h, rock4l_amp_le h⟩

/-- **C85 fails for the degrees 63, 129 and 148**, in both copies of the tables: the amplification
factor exceeds 1 in absolute value at a point of the interval. -/
theorem not_rock4_stable {mz mr : ℤ} :
    (Sel 63 mz mr → ¬ StableOn Rock4.realTab 63 mz mr 1 ∧ ¬ StableOn Rock4L.shipped 63 mz mr 1) ∧
    (Sel 129 mz mr → ¬ StableOn Rock4.realTab 129 mz mr 1 ∧ ¬ StableOn Rock4L.shipped 129 mz mr 1) ∧
    (Sel 148 mz mr → ¬ StableOn Rock4.realTab 148 mz mr 1 ∧ ¬ StableOn Rock4L.shipped 148 mz mr 1) := by
  refine ⟨fun hs => ⟨?_, ?_⟩, fun hs => ⟨?_, ?_⟩, fun hs => ⟨?_, ?_⟩⟩
  · obtain ⟨k, hk, hd, r⟩ := Rock4.sel_row hs
    obtain rfl := (degs_inj ⟨k, hk⟩).1 (by simp only; omega)
    have h := r.unstable StabCheck.Rock4.big36
    exact fun hn => absurd (hn _ (by norm_num [stabLen]) (by norm_num)) (not_le.2 h)
  · obtain ⟨k, hk, hd, r⟩ := Rock4L.sel_row hs
    obtain rfl := (degs_inj ⟨k, hk⟩).1 (by simp only; omega)
    have h := r.unstable StabCheck.Rock4L.big36
    exact fun hn => absurd (hn _ (by norm_num [stabLen]) (by norm_num)) (not_le.2 h)
  · obtain ⟨k, hk, hd, r⟩ := Rock4.sel_row hs
    obtain rfl := (degs_inj ⟨k, hk⟩).2.1 (by simp only; omega)
    have h := r.unstable StabCheck.Rock4.big47
    exact fun hn => absurd (hn _ (by norm_num [stabLen]) (by norm_num)) (not_le.2 h)
  · obtain ⟨k, hk, hd, r⟩ := Rock4L.sel_row hs
    obtain rfl := (degs_inj ⟨k, hk⟩).2.1 (by simp only; omega)
    have h := r.unstable StabCheck.Rock4L.big47
    exact fun hn => absurd (hn _ (by norm_num [stabLen]) (by norm_num)) (not_le.2 h)
  · obtain ⟨k, hk, hd, r⟩ := Rock4.sel_row hs
    obtain rfl := (degs_inj ⟨k, hk⟩).2.2 (by simp only; omega)
    have h := r.unstable StabCheck.Rock4.big49
    exact fun hn => absurd (hn _ (by norm_num [stabLen]) (by norm_num)) (not_le.2 h)
  · obtain ⟨k, hk, hd, r⟩ := Rock4L.sel_row hs
    obtain rfl := (degs_inj ⟨k, hk⟩).2.2 (by simp only; omega)
    have h := r.unstable StabCheck.Rock4L.big49
    exact fun hn => absurd (hn _ (by norm_num [stabLen]) (by norm_num)) (not_le.2 h)

/-- the selections exist: hypotheses met. -/
example : Sel 10 10 82 := ⟨9, by norm_num, rfl, rfl, by decide +kernel⟩
example : ∃ mz mr, Sel 63 mz mr := ⟨37, blockStart MS 36, 36, by norm_num, rfl, rfl, rfl⟩
example : ∃ mz mr, Sel 129 mz mr := ⟨48, blockStart MS 47, 47, by norm_num, rfl, rfl, rfl⟩
example : ∃ mz mr, Sel 148 mz mr := ⟨50, blockStart MS 49, 49, by norm_num, rfl, rfl, rfl⟩

/-! ### one step -/

variable {n : ℕ}

/-- the degree chosen by the linear solver for spectral radius `ρ` and step `h` covers `h ρ`. -/
theorem chosen_covers {ρ h : ℝ} {d mz mr : ℤ} (hc : Rock4L.Chosen ρ h d mz mr) : h * ρ ≤ stabLen d := by
  obtain ⟨hs, h1, -⟩ := hc
  have hd : (1 : ℤ) ≤ d := hs.bounds.1
  have h2 := Int.lt_floor_add_one (√((3 + h * ρ) / 0.353) + 1)
  have h3 : ((Rock4L.need ρ h : ℤ) : ℝ) ≤ (d : ℝ) + 4 := by exact_mod_cast h1
  unfold Rock4L.need at h3
  have h4 : √((3 + h * ρ) / 0.353) < (d : ℝ) + 4 := by linarith
  have hd' : (1 : ℝ) ≤ d := by exact_mod_cast hd
  rw [Real.sqrt_lt' (by linarith)] at h4
  rw [div_lt_iff₀ (by norm_num)] at h4
  unfold stabLen
  linarith

/-- C85 for the linear solver: with a matrix symmetric for some weighted scalar product and with its
spectrum in `[-ρ, 0]`, one step of the formula chosen for `ρ` and `h` multiplies the weighted norm by
at most `betD d`. -/
theorem rock4l_step_stable {w : Fin n → ℝ} {A : Matrix (Fin n) (Fin n) ℝ} {ρ h : ℝ}
    (hA : SymSpec w A ρ) (hh : 0 ≤ h) {d mz mr : ℤ} (hc : Rock4L.Chosen ρ h d mz mr) (y : Fin n → ℝ) :
    ∑ i, w i * Gen.step (Rock4L.formulaOf Rock4L.shipped d mz mr) (fun v => A *ᵥ v) h y i ^ 2
      ≤ betD d ^ 2 * ∑ i, w i * y i ^ 2 :=
  hA.step_norm _ hh (fun z h1 h2 => rock4l_amp_le hc.1 z (by linarith [chosen_covers hc]) h2) y

theorem rock4l_steps_stable {w : Fin n → ℝ} {A : Matrix (Fin n) (Fin n) ℝ} {ρ h : ℝ}
    (hA : SymSpec w A ρ) (hh : 0 ≤ h) {d mz mr : ℤ} (k : ℕ) (hc : 0 < k → Rock4L.Chosen ρ h d mz mr)
    (y : Fin n → ℝ) :
    ∑ i, w i * (Gen.step (Rock4L.formulaOf Rock4L.shipped d mz mr) (fun v => A *ᵥ v) h)^[k] y i ^ 2
      ≤ (betD d ^ 2) ^ k * ∑ i, w i * y i ^ 2 := by
  induction k with
  | zero => simp
  | succ k ih =>
    rw [Function.iterate_succ_apply', pow_succ', mul_assoc]
    refine (rock4l_step_stable hA hh (hc (by omega)) _).trans ?_
    exact mul_le_mul_of_nonneg_left (ih fun _ => hc (by omega)) (sq_nonneg _)

/-- the formulas of degree 63, 129 and 148 exceed 1 at these points. -/
theorem rock4l_amp_gt {mz mr : ℤ} :
    (Sel 63 mz mr → 1 < |amp (Rock4L.formulaOf Rock4L.shipped 63 mz mr) (-1581.6)|) ∧
    (Sel 129 mz mr → 1 < |amp (Rock4L.formulaOf Rock4L.shipped 129 mz mr) (-8.39)|) ∧
    (Sel 148 mz mr → 1 < |amp (Rock4L.formulaOf Rock4L.shipped 148 mz mr) (-8.39)|) := by
  refine ⟨fun hs => ?_, fun hs => ?_, fun hs => ?_⟩ <;> obtain ⟨k, hk, hd, r⟩ := Rock4L.sel_row hs
  · obtain rfl := (degs_inj ⟨k, hk⟩).1 (by simp only; omega)
    have h := r.unstable StabCheck.Rock4L.big36
    norm_num at h ⊢; exact h
  · obtain rfl := (degs_inj ⟨k, hk⟩).2.1 (by simp only; omega)
    have h := r.unstable StabCheck.Rock4L.big47
    norm_num at h ⊢; exact h
  · obtain rfl := (degs_inj ⟨k, hk⟩).2.2 (by simp only; omega)
    have h := r.unstable StabCheck.Rock4L.big49
    norm_num at h ⊢; exact h

/-- the matrix with the eigenvalues `-a` and `-ρ`. -/
def diag2 (a ρ : ℝ) : Matrix (Fin 2) (Fin 2) ℝ := Matrix.diagonal ![-a, -ρ]

theorem diag2_spec {a ρ : ℝ} (h0 : 0 ≤ a) (h1 : a ≤ ρ) : SymSpec (fun _ => 1) (diag2 a ρ) ρ where
  pos _ := one_pos
  sym i j := by
    have : (diag2 a ρ)ᵀ = diag2 a ρ := Matrix.diagonal_transpose _
    have h2 := congrFun (congrFun this i) j
    rw [Matrix.transpose_apply] at h2
    rw [h2]
  hi v := by
    simp only [diag2, Matrix.mulVec_diagonal, Fin.sum_univ_two, Matrix.cons_val_zero, Matrix.cons_val_one]
    nlinarith [mul_nonneg h0 (sq_nonneg (v 0)), mul_nonneg (h0.trans h1) (sq_nonneg (v 1))]
  lo v := by
    simp only [diag2, Matrix.mulVec_diagonal, Fin.sum_univ_two, Matrix.cons_val_zero, Matrix.cons_val_one]
    nlinarith [mul_nonneg (sub_nonneg.2 h1) (sq_nonneg (v 0))]

theorem grows {R : Gen.Formula ℝ} {a ρ : ℝ} (h : 1 < |amp R (-a)|) :
    ∑ i : Fin 2, ![(1 : ℝ), 0] i ^ 2
      < ∑ i, Gen.step R (fun v => diag2 a ρ *ᵥ v) 1 ![1, 0] i ^ 2 := by
  have h1 := step_left R (diag2 a ρ) (LinearMap.proj 0) (lam := -a) (fun v => by
    simp [diag2, Matrix.mulVec_diagonal]) 1 ![1, 0]
  have h2 : Gen.step R (fun v => diag2 a ρ *ᵥ v) 1 ![1, 0] 0 = amp R (-a) := by
    have e : amp R (1 * -a) * (1 : ℝ) = amp R (-a) := by rw [one_mul, mul_one]
    rw [← e]; exact h1
  rw [Fin.sum_univ_two, Fin.sum_univ_two, h2]
  have h3 : (1 : ℝ) < amp R (-a) ^ 2 := by rw [← sq_abs]; nlinarith
  have h4 := sq_nonneg (Gen.step R (fun v => diag2 a ρ *ᵥ v) 1 ![1, 0] 1)
  simp only [Matrix.cons_val_zero, Matrix.cons_val_one]
  linarith

theorem need_eq {ρ : ℝ} {k : ℕ} (h1 : (k : ℝ) ^ 2 ≤ (3 + 1 * ρ) / 0.353)
    (h2 : (3 + 1 * ρ) / 0.353 < ((k : ℝ) + 1) ^ 2) : Rock4L.need ρ 1 = (k : ℤ) + 1 := by
  unfold Rock4L.need
  have e1 := Real.le_sqrt_of_sq_le h1
  have e2 : √((3 + 1 * ρ) / 0.353) < (k : ℝ) + 1 := by rwa [Real.sqrt_lt' (by positivity)]
  rw [Int.floor_eq_iff]
  push_cast
  constructor <;> linarith

/-- C85 fails: **there are symmetric matrices with their spectrum in `[-ρ, 0]` for which the step of
the formula chosen by the solver increases the norm**, one for each of the three degrees. -/
theorem not_rock4l_step_stable : ∀ d : ℤ, d = 63 ∨ d = 129 ∨ d = 148 →
    ∃ (A : Matrix (Fin 2) (Fin 2) ℝ) (ρ : ℝ) (mz mr : ℤ) (y : Fin 2 → ℝ),
      SymSpec (fun _ => 1) A ρ ∧ Rock4L.Chosen ρ 1 d mz mr ∧
      ∑ i, y i ^ 2
        < ∑ i, Gen.step (Rock4L.formulaOf Rock4L.shipped d mz mr) (fun v => A *ᵥ v) 1 y i ^ 2 := by
  have hmem : (∀ d ∈ MS, (67 : ℤ) ≤ d + 4 → (63 : ℤ) ≤ d) ∧ (∀ d ∈ MS, (131 : ℤ) ≤ d + 4 → (129 : ℤ) ≤ d)
      ∧ (∀ d ∈ MS, (149 : ℤ) ≤ d + 4 → (148 : ℤ) ≤ d) := by decide +kernel
  intro d hd
  rcases hd with rfl | rfl | rfl
  · have hn : Rock4L.need 1581.6 1 = 67 := by
      have := need_eq (ρ := 1581.6) (k := 66) (by norm_num) (by norm_num)
      exact this
    have hs : Sel 63 37 (blockStart MS 36) := ⟨36, by norm_num, rfl, rfl, rfl⟩
    exact ⟨diag2 1581.6 1581.6, 1581.6, 37, blockStart MS 36, ![1, 0], diag2_spec (by norm_num) le_rfl,
      ⟨hs, by rw [hn]; norm_num, by rw [hn]; exact hmem.1⟩, grows (rock4l_amp_gt.1 hs)⟩
  · have hn : Rock4L.need 6000 1 = 131 := by
      have := need_eq (ρ := 6000) (k := 130) (by norm_num) (by norm_num)
      exact this
    have hs : Sel 129 48 (blockStart MS 47) := ⟨47, by norm_num, rfl, rfl, rfl⟩
    exact ⟨diag2 8.39 6000, 6000, 48, blockStart MS 47, ![1, 0], diag2_spec (by norm_num) (by norm_num),
      ⟨hs, by rw [hn]; norm_num, by rw [hn]; exact hmem.2.1⟩, grows (rock4l_amp_gt.2.1 hs)⟩
  · have hn : Rock4L.need 7800 1 = 149 := by
      have := need_eq (ρ := 7800) (k := 148) (by norm_num) (by norm_num)
      exact this
    have hs : Sel 148 50 (blockStart MS 49) := ⟨49, by norm_num, rfl, rfl, rfl⟩
    exact ⟨diag2 8.39 7800, 7800, 50, blockStart MS 49, ![1, 0], diag2_spec (by norm_num) (by norm_num),
      ⟨hs, by rw [hn]; norm_num, by rw [hn]; exact hmem.2.2⟩, grows (rock4l_amp_gt.2.2 hs)⟩

/-! ### a whole run of the linear solver -/

/-- the degrees for which the bound is 1. -/
def Good (d : ℤ) : Prop := d ≠ 63 ∧ d ≠ 129 ∧ d ≠ 148

theorem not_mem_60 : ∀ d ∈ MS, d < 60 → Good d := by
  unfold Good; decide +kernel

/-- with at most 63 stages needed, the degree is at most 59. -/
theorem chosen_good {ρ h : ℝ} {d mz mr : ℤ} (hc : Rock4L.Chosen ρ h d mz mr)
    (hn : Rock4L.need ρ h ≤ 63) : Good d := by
  refine not_mem_60 d (Rock4L.Sel.mem hc.1) ?_
  have := hc.2.2 59 (by decide +kernel) (by omega)
  omega

/-- C85 (the part that holds) for a whole call of the linear solver: if the solver returns
(hypotheses of C61), the weighted norm has been multiplied by at most 1.15 per step, and if
at most 63 stages are needed (`1.01 h ρ` at most about 1353) **it has not increased**. -/
theorem rock4l_run_stable_partial {O : Rock4L.Oper X n} {T : Rock4L.Tab X}
    {A : Matrix (Fin n) (Fin n) ℝ} (hok : Rock4L.Ok false O T A Rock4L.shipped) {te t0 h ρ : ℝ}
    (hL : t0 < te) (hh : 0 < h)
    (hρ : 0 ≤ ρ) (hbig : 1.01 * h * ρ ≤ 1e18) (o : Rock4L.St n) (hu : o.uround = 1.0e-16) (p q : ℕ)
    (hp : 4 ≤ p) (hq : 4 ≤ q) (y : Fin n → ℝ) (hy : o.heap p = Rock4L.up y)
    (hf : Rock4L.FullOk ρ h (Rock4L.fullSteps (te - t0) h))
    (hs : 1e-15 ≤ Rock4L.lastStep (te - t0) h)
    (hn : Rock4L.need ρ (Rock4L.lastStep (te - t0) h) ≤ 152)
    {w : Fin n → ℝ} (hA : SymSpec w A ρ) :
    ∃ s' y', Returns (Rock4L.step false O T (X.fin te))
        (Rock4L.start o (X.fin ρ) p q (X.fin t0) (X.fin h)) s' ∧
      s'.t = X.fin te ∧ s'.heap p = Rock4L.up y' ∧
      ∑ i, w i * y' i ^ 2 ≤ (1.15 ^ 2) ^ (Rock4L.fullSteps (te - t0) h + 1) * ∑ i, w i * y i ^ 2 ∧
      (Rock4L.need ρ h ≤ 63 → Rock4L.need ρ (Rock4L.lastStep (te - t0) h) ≤ 63 →
        ∑ i, w i * y' i ^ 2 ≤ ∑ i, w i * y i ^ 2) := by
  obtain ⟨s', a, b1, c, a', b1', c', r1, r2, r3, r4, -, r6, -⟩ := Rock4L.rock4l_run hok hL hh hρ hbig o hu
    p q hp hq y y hy (by simp) hf hs hn
  obtain ⟨l1, -⟩ := Rock4L.lastStep_bounds hh (sub_pos.2 hL)
  have hrhs : Rock4L.rhs false A y = fun v => A *ᵥ v := by funext v; simp [Rock4L.rhs]
  rw [hrhs] at r6
  refine ⟨s', _, r1, r4, r6, ?_, ?_⟩
  · have h1 := rock4l_steps_stable hA hh.le (Rock4L.fullSteps (te - t0) h) r2 y
    have h2 := rock4l_step_stable hA l1.le r3
      ((Gen.step (Rock4L.formulaOf Rock4L.shipped a b1 c) (fun v => A *ᵥ v) h)^[Rock4L.fullSteps (te - t0) h] y)
    have hw : 0 ≤ ∑ i, w i * y i ^ 2 :=
      Finset.sum_nonneg fun i _ => mul_nonneg (hA.pos i).le (sq_nonneg _)
    have e : ∀ d, betD d ^ 2 ≤ 1.15 ^ 2 := fun d =>
      pow_le_pow_left₀ (by linarith [(betD_bounds d).1]) (betD_bounds d).2 2
    refine h2.trans ?_
    rw [pow_succ' (1.15 ^ 2 : ℝ), mul_assoc]
    refine mul_le_mul (e _) (h1.trans ?_) ?_ (by positivity)
    · exact mul_le_mul_of_nonneg_right (pow_le_pow_left₀ (sq_nonneg _) (e _) _) hw
    · exact Finset.sum_nonneg fun i _ => mul_nonneg (hA.pos i).le (sq_nonneg _)
  · intro n1 n2
    have h1 := rock4l_steps_stable hA hh.le (Rock4L.fullSteps (te - t0) h) r2 y
    have h2 := rock4l_step_stable hA l1.le r3
      ((Gen.step (Rock4L.formulaOf Rock4L.shipped a b1 c) (fun v => A *ᵥ v) h)^[Rock4L.fullSteps (te - t0) h] y)
    rw [betD_one (chosen_good r3 n2), one_pow, one_mul] at h2
    refine h2.trans ?_
    rcases Nat.eq_zero_or_pos (Rock4L.fullSteps (te - t0) h) with h0 | h0
    · rw [h0]; simp
    · rw [betD_one (chosen_good (r2 h0) n1), one_pow, one_pow, one_mul] at h1
      exact h1

/-- the same for two solutions of `y' = A y + b`: their distance. -/
theorem rock4l_step_contracts {w : Fin n → ℝ} {A : Matrix (Fin n) (Fin n) ℝ} {ρ h : ℝ}
    (hA : SymSpec w A ρ) (hh : 0 ≤ h) {d mz mr : ℤ} (hc : Rock4L.Chosen ρ h d mz mr)
    (b y z : Fin n → ℝ) :
    ∑ i, w i * (Gen.step (Rock4L.formulaOf Rock4L.shipped d mz mr) (fun v => A *ᵥ v + b) h y i
        - Gen.step (Rock4L.formulaOf Rock4L.shipped d mz mr) (fun v => A *ᵥ v + b) h z i) ^ 2
      ≤ betD d ^ 2 * ∑ i, w i * (y i - z i) ^ 2 := by
  have h1 := rock4l_step_stable hA hh hc (y - z)
  have h2 := step_sub_affine (Rock4L.formulaOf Rock4L.shipped d mz mr) A b h y z
  rw [← h2] at h1
  exact h1

/-! ### the adaptive solver on linear problems -/

/-- with a real right hand side and the shipped tables, the new value of the formula is real. -/
theorem stages_up (P : Rock4.Problem n) (F : (Fin n → ℝ) → Fin n → ℝ)
    (hP : ∀ v, P.F (Rock4L.up v) = Rock4L.up (F v)) (d mz mr : ℤ) (dt : ℝ) (y : Fin n → ℝ) :
    (Spec.stages (Rock4.formulaOf Rock4.shipped d mz mr) P.F (X.fin dt) (Rock4L.up y)).ynew
      = Rock4L.up (Gen.step (Rock4L.formulaOf Rock4.realTab d mz mr) F dt y) := by
  rw [← Gen.step_X]
  funext i
  have e := Gen.step_hom (φ := X.fin) (F := F) (G := P.F) (fun a b => (X.fin_add a b).symm)
    (fun a b => (X.fin_mul a b).symm) (fun a b => (X.fin_sub a b).symm) X.one_eq.symm
    (fun v i => by rw [show (fun j => X.fin (v j)) = Rock4L.up v from rfl, hP]; rfl)
    (Rock4L.formulaOf Rock4.realTab d mz mr) dt y i
  rw [show Rock4L.up (Gen.step (Rock4L.formulaOf Rock4.realTab d mz mr) F dt y) i
    = X.fin (Gen.step (Rock4L.formulaOf Rock4.realTab d mz mr) F dt y i) from rfl, ← e]
  congr 2
  simp only [Rock4.formulaOf, Rock4L.formulaOf]
  funext j
  unfold Rock4.muOf Rock4L.muOf
  split_ifs <;> rfl

/-- a linear problem with its spectrum in `[-ρ, 0]`; the user's estimates of the spectral radius are
numbers not smaller than `ρ`. -/
structure LinProblem (P : Rock4.Problem n) (w : Fin n → ℝ) (A : Matrix (Fin n) (Fin n) ℝ) (ρ : ℝ) :
    Prop where
  spec : SymSpec w A ρ
  rhs : ∀ v, P.F (Rock4L.up v) = Rock4L.up (A *ᵥ v)
  rho : ∀ k, ∃ r, ρ ≤ r ∧ P.rho k = X.fin r

/-- what holds in every state of a call: the estimate in force is large enough, the solution is a
real vector, its norm has grown by at most 1.15 per accepted step. -/
structure StabInv (w : Fin n → ℝ) (ρ N0 : ℝ) (s : Rock4.St n) : Prop where
  eig : s.nrho = 0 ∨ ∃ r, ρ ≤ r ∧ s.eigmax = X.fin r
  val : ∃ v, s.heap s.y = Rock4L.up v ∧ ∑ i, w i * v i ^ 2 ≤ (1.15 ^ 2) ^ s.nacc.toNat * N0

theorem stab_iter {P : Rock4.Problem n} {w : Fin n → ℝ} {A : Matrix (Fin n) (Fin n) ℝ} {ρ : ℝ}
    (hP : LinProblem P w A ρ) {te t0 N0 : ℝ} {y0 : Rock4.Vec n} {s0 s s' : Rock4.St n}
    (I : Rock4.Inv P Rock4.shipped te t0 y0 s0 s) (J : StabInv w ρ N0 s)
    (h : Rock4.step P Rock4.shipped (X.fin te) s = .next s') :
    StabInv w ρ N0 s' ∧ ∃ v v', s.heap s.y = Rock4L.up v ∧ s'.heap s'.y = Rock4L.up v' ∧
      ∑ i, w i * v' i ^ 2 ≤ betD s'.mdeg ^ 2 * ∑ i, w i * v i ^ 2 := by
  obtain ⟨t, s1, hh, err, -, -, -, D⟩ := Rock4.step_next P Rock4.shipped te t0 _ _ _ s' I h
  obtain ⟨v, hv, hN⟩ := J.val
  obtain ⟨hh', eig, c1, c2, c3, -, c5, -⟩ := D.chosen.num
  have ehh : hh' = hh := by
    have := D.h
    rw [c1] at this
    exact X.fin_inj.1 this
  subst ehh
  have hpos : 0 < hh' := lt_of_lt_of_le (by norm_num [Rock4.hmin]) c3
  have heig : ρ ≤ eig := by
    by_cases h0 : s.nrho = 0
    · obtain ⟨r, hr1, hr2⟩ := hP.rho s.rhoCalls
      have := (D.chosen.rho0 h0).1
      rw [c2, hr2, X.fin_inj] at this
      rw [this]; exact hr1
    · obtain ⟨r, hr1, hr2⟩ := J.eig.resolve_left h0
      have := (D.chosen.rho1 h0).1
      rw [c2, hr2, X.fin_inj] at this
      rw [this]; exact hr1
  have heig' : ∃ r, ρ ≤ r ∧ s'.eigmax = X.fin r := ⟨eig, heig, by rw [D.rho.2, c2]⟩
  have hw : ∀ u : Fin n → ℝ, 0 ≤ ∑ i, w i * u i ^ 2 := fun u =>
    Finset.sum_nonneg fun i _ => mul_nonneg (hP.spec.pos i).le (sq_nonneg _)
  by_cases ha : err < 1.0
  · obtain ⟨-, a2, -, a4, -⟩ := D.accept ha
    rw [hv, stages_up P _ hP.rhs] at a4
    have hn : ∑ i, w i * Gen.step (Rock4L.formulaOf Rock4.realTab s1.mdeg s1.mp1 s1.mp2)
        (fun v => A *ᵥ v) hh' v i ^ 2 ≤ betD s1.mdeg ^ 2 * ∑ i, w i * v i ^ 2 :=
      hP.spec.step_norm _ hpos.le (fun z h1 h2 => rock4_amp_le D.chosen.sel z (by
        unfold stabLen
        have := mul_le_mul_of_nonneg_left heig hpos.le
        linarith) h2) v
    refine ⟨⟨Or.inr heig', _, a4, ?_⟩, v, _, hv, a4, by rw [D.mdeg]; exact hn⟩
    have e : (s.nacc + 1).toNat = s.nacc.toNat + 1 := by
      have := I.count.2.1
      omega
    rw [a2, e, pow_succ', mul_assoc]
    refine hn.trans (mul_le_mul ?_ hN (hw _) (by positivity))
    exact pow_le_pow_left₀ (by linarith [(betD_bounds s1.mdeg).1]) (betD_bounds s1.mdeg).2 2
  · obtain ⟨-, a2, -, a4, -, a6, -⟩ := D.reject ha
    have e : s'.heap s'.y = Rock4L.up v := by rw [a4, a6, hv]
    refine ⟨⟨Or.inr heig', v, e, by rw [a2]; exact hN⟩, v, v, hv, e, ?_⟩
    have h1 := (betD_bounds s'.mdeg).1
    exact le_mul_of_one_le_left (hw v) (one_le_pow₀ h1)

/-- C85 (the part that holds) for every call of the adaptive solver on a linear problem
with its spectrum in `[-ρ, 0]` and a spectral radius function which returns at least `ρ`: in
every state of the call, and through every attempt, **the weighted norm of the solution is
multiplied by at most 1 (1.15, 1.01, 1.01 for the degrees 63, 129, 148)**. -/
theorem rock4_run_stable_partial {P : Rock4.Problem n} {w : Fin n → ℝ} {A : Matrix (Fin n) (Fin n) ℝ}
    {ρ : ℝ} (hP : LinProblem P w A ρ) (o : Rock4.St n) (y : ℕ) (t0 te : ℝ) (h0 : X)
    (hv : Rock4.Valid o y) (hle : t0 ≤ te) (y0 : Fin n → ℝ) (hy : o.heap y = Rock4L.up y0)
    (s : Rock4.St n)
    (h : Reach (Rock4.step P Rock4.shipped (X.fin te)) (Rock4.start P o y (X.fin t0) h0) s) :
    ∃ v, s.heap s.y = Rock4L.up v ∧
      ∑ i, w i * v i ^ 2 ≤ (1.15 ^ 2) ^ s.nacc.toNat * ∑ i, w i * y0 i ^ 2 ∧
      ∀ s', Rock4.step P Rock4.shipped (X.fin te) s = .next s' →
        ∃ v', s'.heap s'.y = Rock4L.up v' ∧
          ∑ i, w i * v' i ^ 2 ≤ betD s'.mdeg ^ 2 * ∑ i, w i * v i ^ 2 ∧
          (Good s'.mdeg → ∑ i, w i * v' i ^ 2 ≤ ∑ i, w i * v i ^ 2) := by
  have key : ∀ s, Reach (Rock4.step P Rock4.shipped (X.fin te)) (Rock4.start P o y (X.fin t0) h0) s →
      Rock4.Inv P Rock4.shipped te t0 (o.heap y) (Rock4.start P o y (X.fin t0) h0) s ∧
      StabInv w ρ (∑ i, w i * y0 i ^ 2) s := by
    intro s hs
    refine Reach.inv (I := fun s => Rock4.Inv P Rock4.shipped te t0 (o.heap y)
      (Rock4.start P o y (X.fin t0) h0) s ∧ StabInv w ρ (∑ i, w i * y0 i ^ 2) s) ?_ ?_ hs
    · intro s s' hI hst
      exact ⟨Rock4.step_inv P Rock4.shipped te t0 _ _ _ _ hI.1 hst, (stab_iter hP hI.1 hI.2 hst).1⟩
    · refine ⟨hv.inv P Rock4.shipped hle h0, Or.inl rfl, y0, ?_, ?_⟩
      · have hne : y ≠ o.fn := by
          have := hv.nodup
          rw [List.nodup_cons] at this
          intro e
          exact this.1 (by rw [e]; simp)
        show Rock4.upd o.heap o.fn (P.F (o.heap y)) y = _
        rw [Rock4.upd, if_neg hne]; exact hy
      · have e : (Rock4.start P o y (X.fin t0) h0).nacc = 0 := rfl
        rw [e]; simp
  obtain ⟨I, J⟩ := key s h
  obtain ⟨v, hv1, hv2⟩ := J.val
  refine ⟨v, hv1, hv2, fun s' hst => ?_⟩
  obtain ⟨-, v1, v', e1, e2, e3⟩ := stab_iter hP I J hst
  obtain rfl : v = v1 := Rock4L.up_inj (by rw [← hv1, e1])
  exact ⟨v', e2, e3, fun hg => by rw [betD_one hg, one_pow, one_mul] at e3; exact e3⟩

/-! ### instances -/

/-- the one-dimensional matrix `-2` with `ρ = 2`. -/
theorem symSpec_ex : SymSpec (fun _ : Fin 1 => 1) (fun _ _ => -2) 2 where
  pos _ := one_pos
  sym _ _ := by simp
  hi v := by simp [Matrix.mulVec, dotProduct]; nlinarith [sq_nonneg (v 0)]
  lo v := by simp [Matrix.mulVec, dotProduct]; nlinarith [sq_nonneg (v 0)]

/-- a linear problem: hypotheses of `rock4_run_stable_partial`. -/
example : ∃ P : Rock4.Problem 1, LinProblem P (fun _ => 1) (fun _ _ => -2) 2 :=
  ⟨⟨fun v i => X.fin (-2) * v i, fun _ => X.fin 3⟩, symSpec_ex, fun v => by
    funext i
    simp [Rock4L.up, Matrix.mulVec, dotProduct, Subsingleton.elim i 0], fun _ => ⟨3, by norm_num, rfl⟩⟩

end Odes
