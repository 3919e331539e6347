import Verif.Model.KeplerMain
import Verif.Props.MainsFlat
import Verif.Props.SympKepler

/-!
# C124: the file written by the test program of SymplecticRK for Kepler's problem
-/

namespace Odes.Symp.Test

open Odes.Symp Odes.Mains

/-- rounding errors of `H` -/
theorem keplerH_rounding {F : FP} (hp : 10 ≤ F.p) {x : Fin 4 → F.T} {a M : ℝ} (ha : 0 < a) (hx : (a / 2) ^ 2 ≤ rr (val x))
    (hM : ‖val x‖ ≤ M) : |(keplerHFl x).1 - keplerH (val x)| ≤ 10 * F.eps * (M ^ 2 + 2 / a) := by
  have e0 := F.eps_pos
  have e1 := eps_1024 hp
  have e2 : F.eps < 1 := by linarith
  have hM0 : 0 ≤ M := (norm_nonneg _).trans hM
  have m2 : |(x 2).1| ≤ M := (norm_le_pi_norm (val x) 2).trans hM
  have m3 : |(x 3).1| ≤ M := (norm_le_pi_norm (val x) 3).trans hM
  have sq : ∀ u v : F.T, Rel F.eps 2 (u * u + v * v : F.T).1 (u.1 * u.1 + v.1 * v.1) := fun u v =>
    (rel_rnd ((u * u : F.T).1 + (v * v : F.T).1)).trans e2
      ((rel_rnd (u.1 * u.1)).add (mul_self_nonneg _) (mul_self_nonneg _) (rel_rnd (v.1 * v.1)))
  obtain ⟨A, eA⟩ : ∃ A, A = 0.5 * ((x 2).1 * (x 2).1 + (x 3).1 * (x 3).1) := ⟨_, rfl⟩
  obtain ⟨B, eB⟩ : ∃ B, B = 1 / √(rr (val x)) := ⟨_, rfl⟩
  have hrr : 0 < rr (val x) := lt_of_lt_of_le (by positivity) hx
  have A0 : 0 ≤ A := by rw [eA]; nlinarith [mul_self_nonneg (x 2).1, mul_self_nonneg (x 3).1]
  have B0 : 0 ≤ B := by rw [eB]; positivity
  have A1 : A ≤ M ^ 2 := by
    have := mul_self_le_mul_self (abs_nonneg _) m2
    have := mul_self_le_mul_self (abs_nonneg _) m3
    rw [abs_mul_abs_self] at *
    rw [eA]; nlinarith
  have B1 : B ≤ 2 / a := by
    have : a / 2 ≤ √(rr (val x)) := Real.le_sqrt_of_sq_le hx
    rw [eB]
    calc 1 / √(rr (val x)) ≤ 1 / (a / 2) := one_div_le_one_div_of_le (by positivity) this
      _ = 2 / a := by field_simp
  have h5 : Rel F.eps 0 (0.5 : ℝ) 0.5 := ⟨1, by simp, by simp, by simp⟩
  have rA : Rel F.eps 4 (F.rnd (0.5 * (x 2 * x 2 + x 3 * x 3 : F.T).1)) A := by
    rw [eA]
    exact ((rel_rnd _).trans e2 (h5.mul e2 (sq (x 2) (x 3)))).mono e0.le e2 (by norm_num)
  have h1 : Rel F.eps 0 (1 : ℝ) 1 := ⟨1, by simp, by simp, by simp⟩
  have rB : Rel F.eps 4 (F.rnd (1 / F.rnd (Real.sqrt (x 0 * x 0 + x 1 * x 1 : F.T).1))) B := by
    rw [eB]
    exact ((rel_rnd _).trans e2 (h1.div e2 ((rel_rnd _).trans e2 ((sq (x 0) (x 1)).sqrt e0.le e2 hrr.le)))).mono e0.le e2 (by norm_num)
  have k8 := inv_pow_le (k := 4) e0.le (by push_cast; linarith) e2.le
  have nA := (rA.near e2).trans (mul_le_mul_of_nonneg_right k8 (abs_nonneg _))
  have nB := (rB.near e2).trans (mul_le_mul_of_nonneg_right k8 (abs_nonneg _))
  rw [abs_of_nonneg A0] at nA
  rw [abs_of_nonneg B0] at nB
  have eH : keplerH (val x) = A - B := by rw [eA, eB]; rfl
  have eF : (keplerHFl x).1 = F.rnd (F.rnd (0.5 * (x 2 * x 2 + x 3 * x 3 : F.T).1) -
      F.rnd (1 / F.rnd (Real.sqrt (x 0 * x 0 + x 1 * x 1 : F.T).1))) := rfl
  rw [eH, eF]
  generalize F.rnd (0.5 * (x 2 * x 2 + x 3 * x 3 : F.T).1) = A' at *
  generalize F.rnd (1 / F.rnd (Real.sqrt (x 0 * x 0 + x 1 * x 1 : F.T).1)) = B' at *
  have r := F.err (A' - B')
  push_cast at nA nB
  have d : |A' - B' - (A - B)| ≤ 8 * F.eps * (A + B) := by
    rw [show A' - B' - (A - B) = (A' - A) - (B' - B) by ring]
    exact (abs_sub _ _).trans (by linarith)
  have d2 : |A' - B'| ≤ 2 * (A + B) := by
    have q : |A - B| ≤ A + B := (abs_sub _ _).trans (by rw [abs_of_nonneg A0, abs_of_nonneg B0])
    have q2 := abs_add_le (A' - B' - (A - B)) (A - B)
    rw [sub_add_cancel] at q2
    have q3 : 8 * F.eps * (A + B) ≤ 1 * (A + B) := mul_le_mul_of_nonneg_right (by linarith) (by linarith)
    linarith
  have d3 := mul_le_mul_of_nonneg_left d2 e0.le
  have t := abs_sub_le (F.rnd (A' - B')) (A' - B') (A - B)
  have f : 10 * F.eps * (A + B) ≤ 10 * F.eps * (M ^ 2 + 2 / a) := mul_le_mul_of_nonneg_left (by linarith) (by linarith)
  linarith

/-- Lipschitz constant of `H` -/
theorem keplerH_lip {x z : Fin 4 → ℝ} {a M : ℝ} (ha : 0 < a) (hx : (a / 2) ^ 2 ≤ rr x) (hz : (a / 2) ^ 2 ≤ rr z) (mx : ‖x‖ ≤ M)
    (mz : ‖z‖ ≤ M) : |keplerH x - keplerH z| ≤ 2 * (M + 4 / a ^ 2) * ‖x - z‖ := by
  have hd : ∀ i, |x i - z i| ≤ ‖x - z‖ := norm_le_pi_norm (x - z)
  have hδ := norm_nonneg (x - z)
  have hM : 0 ≤ M := (norm_nonneg _).trans mx
  generalize ‖x - z‖ = δ at *
  have sx : a / 2 ≤ √(rr x) := Real.le_sqrt_of_sq_le hx
  have sz : a / 2 ≤ √(rr z) := Real.le_sqrt_of_sq_le hz
  have px : 0 < √(rr x) := by linarith
  have pz : 0 < √(rr z) := by linarith
  have bx : ∀ v : Fin 4 → ℝ, |v 0| ≤ √(rr v) ∧ |v 1| ≤ √(rr v) := fun v =>
    ⟨Real.abs_le_sqrt (rr_ge v).1, Real.abs_le_sqrt (rr_ge v).2⟩
  have prod : ∀ i (c : ℝ), |x i + z i| ≤ c → |(x i - z i) * (x i + z i)| ≤ δ * c := fun i c hc => by
    rw [abs_mul]
    exact mul_le_mul (hd i) hc (abs_nonneg _) hδ
  have q0 := prod 0 (√(rr x) + √(rr z)) ((abs_add_le _ _).trans (add_le_add (bx x).1 (bx z).1))
  have q1 := prod 1 (√(rr x) + √(rr z)) ((abs_add_le _ _).trans (add_le_add (bx x).2 (bx z).2))
  have mi : ∀ i, |x i + z i| ≤ 2 * M := fun i =>
    (abs_add_le _ _).trans (by linarith [(norm_le_pi_norm x i).trans mx, (norm_le_pi_norm z i).trans mz, Real.norm_eq_abs (x i), Real.norm_eq_abs (z i)])
  have q2 := prod 2 _ (mi 2)
  have q3 := prod 3 _ (mi 3)
  have dr : |√(rr x) - √(rr z)| ≤ 2 * δ := by
    have e : (√(rr x) - √(rr z)) * (√(rr x) + √(rr z)) = (x 0 - z 0) * (x 0 + z 0) + (x 1 - z 1) * (x 1 + z 1) := by
      have m1 := Real.mul_self_sqrt (le_trans (by positivity) hx : 0 ≤ rr x)
      have m2 := Real.mul_self_sqrt (le_trans (by positivity) hz : 0 ≤ rr z)
      have ex : rr x = x 0 * x 0 + x 1 * x 1 := rfl
      have ez : rr z = z 0 * z 0 + z 1 * z 1 := rfl
      linear_combination m1 - m2 + ex - ez
    have h1 : |√(rr x) - √(rr z)| * (√(rr x) + √(rr z)) ≤ 2 * δ * (√(rr x) + √(rr z)) := by
      rw [← abs_of_pos (add_pos px pz), ← abs_mul, e, abs_of_pos (add_pos px pz)]
      exact (abs_add_le _ _).trans (by linarith)
    exact le_of_mul_le_mul_right h1 (add_pos px pz)
  have pot : |1 / √(rr z) - 1 / √(rr x)| ≤ 8 / a ^ 2 * δ := by
    have e : 1 / √(rr z) - 1 / √(rr x) = (√(rr x) - √(rr z)) / (√(rr x) * √(rr z)) := by field_simp
    rw [e, abs_div, abs_of_pos (mul_pos px pz)]
    calc |√(rr x) - √(rr z)| / (√(rr x) * √(rr z)) ≤ 2 * δ / (a / 2 * (a / 2)) := by gcongr
      _ = 8 / a ^ 2 * δ := by field_simp; ring
  have e : keplerH x - keplerH z = 0.5 * ((x 2 - z 2) * (x 2 + z 2) + (x 3 - z 3) * (x 3 + z 3)) + (1 / √(rr z) - 1 / √(rr x)) := by
    show 0.5 * (x 2 * x 2 + x 3 * x 3) - 1 / √(rr x) - (0.5 * (z 2 * z 2 + z 3 * z 3) - 1 / √(rr z)) = _
    ring
  have k1 : |0.5 * ((x 2 - z 2) * (x 2 + z 2) + (x 3 - z 3) * (x 3 + z 3))| ≤ 2 * M * δ := by
    rw [abs_mul, abs_of_pos (by norm_num : (0 : ℝ) < 0.5)]
    have := abs_add_le ((x 2 - z 2) * (x 2 + z 2)) ((x 3 - z 3) * (x 3 + z 3))
    linarith
  rw [e]
  refine (abs_add_le _ _).trans ((add_le_add k1 pot).trans_eq ?_)
  ring

/-- C124: **the file written by test/main.cc for Kepler2.hpp**, every operation rounded: every line of values is near the solution,
and the value of `H` written after it, computed as in Kepler2.hpp, is near its value at the beginning. -/
theorem kepler_main {t : GTab} (ht : t ∈ gaussD) {v : Fin 4 → ℝ} {l E a M T ρ L V : ℝ} (hl : ang v = l) (hl0 : l ≠ 0)
    (hE : keplerH v = E) (hE0 : E < 0) (ea : a = l ^ 2 / 2) (eM : M = 2 / |l| + 1 / |E|) (hT : 0 ≤ T) (eρ : ρ = a / 4)
    (eL : L = 1 + 56 / a ^ 3) (eV : V = M + a / 4 + 4 / a ^ 2) :
    ∃ y : ℝ → Fin 4 → ℝ, y 0 = v ∧ SolOn kepler y 0 T ∧ ∃ h0 C : ℝ, 0 < h0 ∧ 0 ≤ C ∧
      ∀ (F : FP) (_ : 10 ≤ F.p) (itermax : ℤ) (pow3 : F.T → F.T) (_ : PowOk pow3) (η : ℝ) (_ : η = 36 * F.eps / a ^ 2)
        (h : F.T) (_ : 0 < h.1) (_ : h.1 ≤ h0) (_ : h.1 * L ≤ 1 / 3)
        (junk st0 : St F.T 4) (_ : construct (cfgFt F t itermax (keplerFl pow3)) junk = some (.ok st0))
        (u0 : Fin 4 → F.T) (e0 : ℝ) (_ : ‖val u0 - v‖ ≤ e0) (G κ r : ℝ) (_ : G = (ocst F 12 t.s η L ρ h.1 M V C).G)
        (_ : κ = (ocst F 12 t.s η L ρ h.1 M V C).κ) (_ : r = (ocst F 12 t.s η L ρ h.1 M V C).r)
        (_ : Real.exp (2 * (1 + 1 / 10 ^ 11) * L * T) * (e0 + T * G) + κ + h.1 * (1 + 1 / 10 ^ 10) * (V + η) + r ≤ ρ)
        (more : ℕ → Prop) (it : ℕ) (u : Fin 4 → F.T) (st : St F.T 4) (w : List (Fin 4 → F.T))
        (_ : SympLoop (cfgFt F t itermax (keplerFl pow3)) h more u0 st0 it u st w),
        ∀ j (hj : j < w.length) (τ δ : ℝ), τ = (it - j : ℕ) * h.1 → τ ≤ T →
          δ = Real.exp (2 * (1 + 1 / 10 ^ 11) * L * τ) * (e0 + τ * G) + κ →
          ‖val w[j] - y τ‖ ≤ δ ∧ |(keplerHFl w[j]).1 - E| ≤ 2 * V * δ + 10 * F.eps * ((M + a / 4) ^ 2 + 2 / a) := by
  obtain ⟨y, y0, hy, h0, C, p1, p2, p3⟩ := kepler_program ht hl hl0 hE hE0 ea eM hT eρ eL eV
  refine ⟨y, y0, hy, h0, C, p1, p2, ?_⟩
  intro F hp itermax pow3 hpow η eη h hh hh0 hhL junk st0 hst u0 e0 he0 G κ r eG eκ er hρ more it u st w hw j hj τ δ eτ hτT eδ
  obtain ⟨st', hrun⟩ := (symp_main_file hw).2 j hj
  have key := p3 F hp itermax pow3 hpow η eη h hh hh0 hhL junk st0 hst u0 e0 he0 G κ r eG eκ er hρ _ _ st' hrun (eτ ▸ hτT)
  rw [← eτ, ← eδ] at key
  have ha : 0 < a := by rw [ea]; positivity
  have hM0 : 0 ≤ M := by rw [eM]; positivity
  have hL0 : 0 ≤ L := by rw [eL]; positivity
  have hV0 : 0 ≤ V := by rw [eV]; positivity
  have hη : 0 ≤ η := by
    have := F.eps_pos
    rw [eη]; positivity
  have hok := ocst_ok (d := 12) (s := t.s) hp hη hL0 (by rw [eρ]; positivity : 0 < ρ) hh hM0 hV0 p2 hhL
  have hG0 : 0 ≤ G := by rw [eG]; exact hok.G0
  have hr0 : 0 ≤ r := by rw [er]; exact hok.r0
  have e00 : 0 ≤ e0 := (norm_nonneg _).trans he0
  have hτ : τ ∈ Set.Icc 0 T := ⟨by rw [eτ]; positivity, hτT⟩
  have hbig : δ ≤ a / 4 := by
    have q1 : Real.exp (2 * (1 + 1 / 10 ^ 11) * L * τ) * (e0 + τ * G) ≤ Real.exp (2 * (1 + 1 / 10 ^ 11) * L * T) * (e0 + T * G) := by
      refine mul_le_mul (Real.exp_le_exp.2 ?_) ?_ (add_nonneg e00 (mul_nonneg hτ.1 hG0)) (Real.exp_pos _).le
      · exact mul_le_mul_of_nonneg_left hτT (by positivity)
      · linarith [mul_le_mul_of_nonneg_right hτT hG0]
    have q2 : 0 ≤ h.1 * (1 + 1 / 10 ^ 10) * (V + η) := mul_nonneg (mul_nonneg hh.le (by norm_num)) (by linarith)
    rw [← eρ, eδ]
    linarith
  have hH : keplerH (y τ) = E := by rw [energy_const' hy (by rw [y0, hl]; exact hl0) hτ, y0, hE]
  obtain ⟨b1, b2⟩ := kepler_bounds (x := y τ) (by rw [ang_const hy hτ, y0, hl]) hl0 hH hE0
  rw [← ea] at b1
  rw [← eM] at b2
  have c1 : (a / 2) ^ 2 ≤ rr (val w[j]) := rr_near b1 (key.trans hbig)
  have c2 : (a / 2) ^ 2 ≤ rr (y τ) := le_trans (by nlinarith) b1
  have c3 : ‖val w[j]‖ ≤ M + a / 4 := by
    have : val w[j] = (val w[j] - y τ) + y τ := by abel
    rw [this]
    exact (norm_add_le _ _).trans (by linarith)
  have l1 := keplerH_lip ha c1 c2 c3 (by linarith : ‖y τ‖ ≤ M + a / 4)
  rw [hH, ← eV] at l1
  have l2 := keplerH_rounding hp ha c1 c3
  refine ⟨key, (abs_sub_le _ (keplerH (val w[j])) _).trans ?_⟩
  have l3 := mul_le_mul_of_nonneg_left key (by positivity : 0 ≤ 2 * V)
  linarith

end Odes.Symp.Test
