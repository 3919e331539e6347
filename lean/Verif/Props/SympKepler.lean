import Verif.Props.SympOrder
import Verif.Props.SympTestH
import Verif.Model.SympKepler
import Mathlib.Analysis.ODE.ExistUnique

/-!
# C124: SymplecticRK on Kepler's problem

Kepler2.hpp with every table: the bound orbits exist for all times and stay away from the origin, the constants of C123 are
explicit functions of the energy and of the angular momentum.
-/

namespace Odes.Symp.Test

open Odes.Symp

/-- square of the distance to the origin. -/
def rr (x : Fin 4 → ℝ) : ℝ := x 0 * x 0 + x 1 * x 1

/-- angular momentum. -/
def ang (x : Fin 4 → ℝ) : ℝ := x 0 * x 3 - x 1 * x 2

theorem rr_near {x y : Fin 4 → ℝ} {a : ℝ} (hy : a ^ 2 ≤ rr y) (hx : ‖x - y‖ ≤ a / 4) : (a / 2) ^ 2 ≤ rr x := by
  have h0 : |x 0 - y 0| ≤ a / 4 := (norm_le_pi_norm (x - y) 0).trans hx
  have h1 : |x 1 - y 1| ≤ a / 4 := (norm_le_pi_norm (x - y) 1).trans hx
  have e0 := sq_le_sq' (by linarith [abs_le.1 h0 |>.1]) (abs_le.1 h0).2
  have e1 := sq_le_sq' (by linarith [abs_le.1 h1 |>.1]) (abs_le.1 h1).2
  unfold rr at *
  nlinarith [sq_nonneg (y 0 + 2 * (x 0 - y 0)), sq_nonneg (y 1 + 2 * (x 1 - y 1))]

theorem sqrt_cube {u : ℝ} (hu : 0 ≤ u) : √(u ^ 3) = √u * u := by
  rw [Real.sqrt_eq_iff_mul_self_eq (by positivity) (by positivity)]
  have := Real.mul_self_sqrt hu
  calc u ^ 3 = √u * √u * u ^ 2 := by rw [this]; ring
    _ = _ := by ring

theorem cube_ge {u a : ℝ} (ha : 0 < a) (h : (a / 2) ^ 2 ≤ u) : (a / 2) ^ 3 ≤ √(u ^ 3) := by
  refine Real.le_sqrt_of_sq_le ?_
  have := pow_le_pow_left₀ (by positivity) h 3
  calc ((a / 2) ^ 3) ^ 2 = ((a / 2) ^ 2) ^ 3 := by ring
    _ ≤ _ := this

theorem rr_ge (x : Fin 4 → ℝ) : x 0 ^ 2 ≤ rr x ∧ x 1 ^ 2 ≤ rr x := by
  unfold rr
  constructor <;> nlinarith [sq_nonneg (x 0), sq_nonneg (x 1)]

/-- the force. -/
theorem force_le {x : Fin 4 → ℝ} {a z : ℝ} (ha : 0 < a) (hx : (a / 2) ^ 2 ≤ rr x) (hz : z ^ 2 ≤ rr x) :
    |z / √(rr x ^ 3)| ≤ 4 / a ^ 2 := by
  have hu : 0 < rr x := lt_of_lt_of_le (by positivity) hx
  have hs : 0 < √(rr x) := Real.sqrt_pos.2 hu
  have hz' : |z| ≤ √(rr x) := Real.abs_le_sqrt hz
  rw [sqrt_cube hu.le, abs_div, abs_of_pos (by positivity : 0 < √(rr x) * rr x), div_le_div_iff₀ (by positivity) (by positivity)]
  calc |z| * a ^ 2 ≤ √(rr x) * (4 * rr x) := mul_le_mul hz' (by nlinarith) (by positivity) hs.le
    _ = _ := by ring

theorem kepler_norm {x : Fin 4 → ℝ} {a M : ℝ} (ha : 0 < a) (hx : (a / 2) ^ 2 ≤ rr x) (hM : ‖x‖ ≤ M) :
    ‖kepler x‖ ≤ M + 4 / a ^ 2 := by
  have hM0 : 0 ≤ M := (norm_nonneg _).trans hM
  have hp : 0 ≤ 4 / a ^ 2 := by positivity
  rw [pi_norm_le_iff_of_nonneg (by positivity)]
  have hi : ∀ i, |x i| ≤ M := fun i => (norm_le_pi_norm x i).trans hM
  intro i
  fin_cases i
  · show |-x 2| ≤ _
    rw [abs_neg]; linarith [hi 2]
  · show |-x 3| ≤ _
    rw [abs_neg]; linarith [hi 3]
  · have := force_le ha hx (rr_ge x).1
    show |x 0 / √(rr x ^ 3)| ≤ _
    linarith
  · have := force_le ha hx (rr_ge x).2
    show |x 1 / √(rr x ^ 3)| ≤ _
    linarith

theorem kepler_smooth {x : Fin 4 → ℝ} (hx : 0 < rr x) (N : ℕ) : ContDiffAt ℝ N kepler x := by
  have hi : ∀ i, ContDiffAt ℝ N (fun x : Fin 4 → ℝ => x i) x := fun i => (contDiff_apply ℝ ℝ i).contDiffAt
  have hr : ContDiffAt ℝ N (fun x => √(rr x ^ 3)) x := by
    refine ContDiffAt.sqrt (ContDiffAt.pow ?_ 3) (pow_pos hx 3).ne'
    exact ((hi 0).mul (hi 0)).add ((hi 1).mul (hi 1))
  have hne : √(rr x ^ 3) ≠ 0 := (Real.sqrt_pos.2 (pow_pos hx 3)).ne'
  refine contDiffAt_pi.2 fun i => ?_
  fin_cases i
  · exact (hi 2).neg
  · exact (hi 3).neg
  · exact (hi 0).div hr hne
  · exact (hi 1).div hr hne

/-- derivative of the force along a line. -/
theorem force_deriv {x d : Fin 4 → ℝ} {z e a δ t : ℝ} (ha : 0 < a) (hx : (a / 2) ^ 2 ≤ rr (x + t • d))
    (hz : (z + t * e) ^ 2 ≤ rr (x + t • d)) (he : |e| ≤ δ) (hd : ‖d‖ ≤ δ) :
    ∃ v, HasDerivAt (fun t => (z + t * e) / √(rr (x + t • d) ^ 3)) v t ∧ |v| ≤ 56 / a ^ 3 * δ := by
  set u := rr (x + t • d) with hu
  have u0 : 0 < u := lt_of_lt_of_le (by positivity) hx
  have hw := cube_ge ha hx
  have w0 : 0 < √(u ^ 3) := lt_of_lt_of_le (by positivity) hw
  have δ0 : 0 ≤ δ := (abs_nonneg _).trans he
  have hc : ∀ i, HasDerivAt (fun t => (x + t • d) i) (d i) t := fun i => by
    simpa using ((hasDerivAt_id t).mul_const (d i)).const_add (x i)
  have h1 : HasDerivAt (fun t => rr (x + t • d)) (2 * ((x + t • d) 0 * d 0 + (x + t • d) 1 * d 1)) t := by
    refine (((hc 0).mul (hc 0)).add ((hc 1).mul (hc 1))).congr_deriv ?_
    ring
  have h2 := (h1.pow 3).sqrt (pow_pos u0 3).ne'
  have h3 : HasDerivAt (fun t => z + t * e) e t := by simpa using ((hasDerivAt_id t).mul_const e).const_add z
  have h4 := h3.div h2 w0.ne'
  refine ⟨_, h4, ?_⟩
  rw [← hu]
  set w := √(u ^ 3) with hwd
  have ww : w ^ 2 = u ^ 3 := Real.sq_sqrt (by positivity)
  have es : (e * w - (z + t * e) * (((3 : ℕ) : ℝ) * u ^ (3 - 1) * (2 * ((x + t • d) 0 * d 0 + (x + t • d) 1 * d 1)) / (2 * w))) / w ^ 2
      = e / w - 3 * ((z + t * e) * ((x + t • d) 0 * d 0 + (x + t • d) 1 * d 1)) / (u * w) := by
    have : w * u ^ 3 = w ^ 3 := by rw [← ww]; ring
    field_simp
    rw [ww]
    push_cast
    field_simp
  have hle : |(z + t * e) * ((x + t • d) 0 * d 0 + (x + t • d) 1 * d 1)| ≤ 2 * u * δ := by
    have a0 := Real.abs_le_sqrt (rr_ge (x + t • d)).1
    have a1 := Real.abs_le_sqrt (rr_ge (x + t • d)).2
    have az := Real.abs_le_sqrt hz
    have d0 : |d 0| ≤ δ := (norm_le_pi_norm d 0).trans hd
    have d1 : |d 1| ≤ δ := (norm_le_pi_norm d 1).trans hd
    rw [← hu] at a0 a1
    have hs := Real.sqrt_nonneg u
    rw [abs_mul]
    have b0 : |(x + t • d) 0 * d 0| ≤ √u * δ := by rw [abs_mul]; exact mul_le_mul a0 d0 (abs_nonneg _) hs
    have b1 : |(x + t • d) 1 * d 1| ≤ √u * δ := by rw [abs_mul]; exact mul_le_mul a1 d1 (abs_nonneg _) hs
    calc _ ≤ √u * (√u * δ + √u * δ) := mul_le_mul az ((abs_add_le _ _).trans (add_le_add b0 b1)) (abs_nonneg _) hs
      _ = 2 * (√u * √u) * δ := by ring
      _ = 2 * u * δ := by rw [Real.mul_self_sqrt u0.le]
  have hv : |e / w - 3 * ((z + t * e) * ((x + t • d) 0 * d 0 + (x + t • d) 1 * d 1)) / (u * w)| ≤ 7 * δ / w := by
    refine (abs_sub _ _).trans ?_
    rw [abs_div, abs_div, abs_of_pos w0, abs_of_pos (by positivity : 0 < u * w), abs_mul, abs_of_pos (by norm_num : (0 : ℝ) < 3)]
    have p1 : |e| / w ≤ δ / w := by gcongr
    have p2 : 3 * |(z + t * e) * ((x + t • d) 0 * d 0 + (x + t • d) 1 * d 1)| / (u * w) ≤ 6 * δ / w := by
      rw [div_le_div_iff₀ (by positivity) w0]
      have := mul_le_mul_of_nonneg_right hle w0.le
      nlinarith
    have : δ / w + 6 * δ / w = 7 * δ / w := by ring
    linarith
  refine le_trans (le_of_eq ?_) (hv.trans ?_)
  · rw [← es]; rfl
  · rw [div_le_iff₀ w0]
    have : 56 / a ^ 3 * δ * (a / 2) ^ 3 = 7 * δ := by field_simp; ring
    rw [← this]
    exact mul_le_mul_of_nonneg_left hw (by positivity)

theorem force_lip {x z y : Fin 4 → ℝ} {a : ℝ} (ha : 0 < a) (hy : a ^ 2 ≤ rr y) (hx : ‖x - y‖ ≤ a / 4) (hz : ‖z - y‖ ≤ a / 4)
    {i : Fin 4} (hi : ∀ v : Fin 4 → ℝ, v i ^ 2 ≤ rr v) :
    |x i / √(rr x ^ 3) - z i / √(rr z ^ 3)| ≤ 56 / a ^ 3 * ‖x - z‖ := by
  have hseg : ∀ t ∈ Set.Icc (0 : ℝ) 1, (a / 2) ^ 2 ≤ rr (z + t • (x - z)) := by
    intro t ht
    refine rr_near hy ?_
    have e : z + t • (x - z) - y = (1 - t) • (z - y) + t • (x - y) := by
      funext k; simp; ring
    rw [e]
    refine (norm_add_le _ _).trans ?_
    rw [norm_smul, norm_smul, Real.norm_of_nonneg (by linarith [ht.2]), Real.norm_of_nonneg ht.1]
    nlinarith [ht.1, ht.2]
  have hd : ∀ t ∈ Set.Icc (0 : ℝ) 1, ∃ v, HasDerivAt
      (fun t => (z i + t * (x - z) i) / √(rr (z + t • (x - z)) ^ 3)) v t ∧ |v| ≤ 56 / a ^ 3 * ‖x - z‖ := by
    intro t ht
    exact force_deriv ha (hseg t ht) (by simpa using hi (z + t • (x - z))) (norm_le_pi_norm (x - z) i) le_rfl
  choose! v hv hb using hd
  have := norm_image_sub_le_of_norm_deriv_le_segment' (fun t ht => (hv t ht).hasDerivWithinAt)
    (fun t ht => hb t ⟨ht.1, ht.2.le⟩) 1 ⟨zero_le_one, le_rfl⟩
  simpa using this

theorem kepler_lip {x z y : Fin 4 → ℝ} {a : ℝ} (ha : 0 < a) (hy : a ^ 2 ≤ rr y) (hx : ‖x - y‖ ≤ a / 4) (hz : ‖z - y‖ ≤ a / 4) :
    ‖kepler x - kepler z‖ ≤ (1 + 56 / a ^ 3) * ‖x - z‖ := by
  have hp : 0 ≤ 56 / a ^ 3 * ‖x - z‖ := by positivity
  have hn := norm_nonneg (x - z)
  rw [pi_norm_le_iff_of_nonneg (by positivity)]
  have hi : ∀ i, |x i - z i| ≤ ‖x - z‖ := norm_le_pi_norm (x - z)
  intro i
  fin_cases i
  · show |-x 2 - -z 2| ≤ _
    rw [show -x 2 - -z 2 = -(x 2 - z 2) by ring, abs_neg]; linarith [hi 2]
  · show |-x 3 - -z 3| ≤ _
    rw [show -x 3 - -z 3 = -(x 3 - z 3) by ring, abs_neg]; linarith [hi 3]
  · have := force_lip ha hy hx hz fun v => (rr_ge v).1
    show |x 0 / √(rr x ^ 3) - z 0 / √(rr z ^ 3)| ≤ _
    linarith
  · have := force_lip ha hy hx hz fun v => (rr_ge v).2
    show |x 1 / √(rr x ^ 3) - z 1 / √(rr z ^ 3)| ≤ _
    linarith

/-- the constants of C123 for an orbit at distance at least `a` of the origin and bounded by `M`. -/
theorem kepler_smoothly {y : ℝ → Fin 4 → ℝ} {t0 t1 a M : ℝ} (hy : SolOn kepler y t0 t1) (ha : 0 < a)
    (hr : ∀ t ∈ Set.Icc t0 t1, a ^ 2 ≤ rr (y t)) (hM : ∀ t ∈ Set.Icc t0 t1, ‖y t‖ ≤ M) (N : ℕ) :
    Smoothly kepler y t0 t1 (a / 4) N (1 + 56 / a ^ 3) M (M + a / 4 + 4 / a ^ 2) where
  sol := hy
  pos := by positivity
  smooth t ht x hx := kepler_smooth (lt_of_lt_of_le (by positivity) (rr_near (hr t ht) hx)) N
  bound0 := hM
  bound1 t ht x hx := by
    refine kepler_norm ha (rr_near (hr t ht) hx) ?_
    have e : x = y t + (x - y t) := by abel
    rw [e]
    exact (norm_add_le _ _).trans (add_le_add (hM t ht) hx)
  lip t ht x z hx hz := kepler_lip ha (hr t ht) hx hz

/-! ### the orbits -/

theorem kepler_H0 {x : Fin 4 → ℝ} (h : 0 < rr x) :
    ∃ D : (Fin 4 → ℝ) →L[ℝ] ℝ, HasFDerivAt keplerH D x ∧ D (kepler x) = 0 := by
  have hne : x 0 ≠ 0 ∨ x 1 ≠ 0 := by
    by_contra hc
    rw [not_or, not_not, not_not] at hc
    rw [rr, hc.1, hc.2] at h
    norm_num at h
  obtain ⟨D, hD, -⟩ := kepler_field hne
  refine ⟨D, hD, ?_⟩
  have hc : HasDerivAt (fun t : ℝ => x + t • kepler x) (kepler x) 0 := by
    simpa using ((hasDerivAt_id (0 : ℝ)).smul_const (kepler x)).const_add x
  have e0 : x + (0 : ℝ) • kepler x = x := by simp
  have h1 := kepler_H (y := fun t : ℝ => x + t • kepler x) (t := 0) (by simpa using hc) (by simpa using hne)
  have h2 := HasFDerivAt.comp_hasDerivAt (l := keplerH) (f := fun t : ℝ => x + t • kepler x) 0 (by rw [e0]; exact hD) hc
  exact h2.unique h1

/-- a function whose derivative is zero is constant. -/
theorem const_of_deriv {g : ℝ → ℝ} {t0 t1 : ℝ} (h : ∀ t ∈ Set.Icc t0 t1, HasDerivWithinAt g 0 (Set.Icc t0 t1) t) {t : ℝ}
    (ht : t ∈ Set.Icc t0 t1) : g t = g t0 := by
  have := norm_image_sub_le_of_norm_deriv_le_segment' h (C := 0) (fun x _ => by simp) t ht
  rw [zero_mul, norm_le_zero_iff, sub_eq_zero] at this
  exact this

theorem ang_const {y : ℝ → Fin 4 → ℝ} {t0 t1 : ℝ} (hy : SolOn kepler y t0 t1) {t : ℝ} (ht : t ∈ Set.Icc t0 t1) :
    ang (y t) = ang (y t0) := by
  refine const_of_deriv (g := fun t => ang (y t)) (fun t ht => ?_) ht
  have hi := fun i => hasDerivWithinAt_pi.1 (hy t ht) i
  refine (((hi 0).mul (hi 3)).sub ((hi 1).mul (hi 2))).congr_deriv ?_
  simp [kepler]
  ring

theorem rr_pos_of_ang {x : Fin 4 → ℝ} (h : ang x ≠ 0) : 0 < rr x := by
  by_contra hc
  have h0 := rr_ge x
  have e0 : x 0 = 0 := by nlinarith [sq_nonneg (x 0)]
  have e1 : x 1 = 0 := by nlinarith [sq_nonneg (x 1)]
  exact h (by rw [ang, e0, e1]; ring)

theorem energy_const' {y : ℝ → Fin 4 → ℝ} {t0 t1 : ℝ} (hy : SolOn kepler y t0 t1) (h0 : ang (y t0) ≠ 0) {t : ℝ}
    (ht : t ∈ Set.Icc t0 t1) : keplerH (y t) = keplerH (y t0) := by
  refine const_of_deriv (g := fun t => keplerH (y t)) (fun t ht => ?_) ht
  obtain ⟨D, hD, e⟩ := kepler_H0 (rr_pos_of_ang (by rw [ang_const hy ht]; exact h0))
  exact (hD.comp_hasDerivWithinAt t (hy t ht)).congr_deriv e

/-- where an orbit of energy `E < 0` and angular momentum `l` is. -/
theorem kepler_bounds {x : Fin 4 → ℝ} {l E : ℝ} (hl : ang x = l) (hl0 : l ≠ 0) (hE : keplerH x = E) (hE0 : E < 0) :
    (l ^ 2 / 2) ^ 2 ≤ rr x ∧ ‖x‖ ≤ 2 / |l| + 1 / |E| := by
  have hu : 0 < rr x := rr_pos_of_ang (by rw [hl]; exact hl0)
  set r := √(rr x) with hr
  have r0 : 0 < r := Real.sqrt_pos.2 hu
  have hrr : r ^ 2 = rr x := Real.sq_sqrt hu.le
  obtain ⟨p, hp⟩ : ∃ p, p = x 2 ^ 2 + x 3 ^ 2 := ⟨_, rfl⟩
  have hp0 : 0 ≤ p := by rw [hp]; positivity
  have h1 : p / 2 - 1 / r = E := by
    rw [← hE, keplerH, hp, hr, rr]; ring
  have hL : l ^ 2 ≤ rr x * p := by
    rw [← hl, hp, ang, rr]
    nlinarith [sq_nonneg (x 0 * x 2 + x 1 * x 3)]
  have hp2 : p * r = 2 + 2 * E * r := by
    have : p = 2 * (E + 1 / r) := by linarith
    rw [this]; field_simp; ring
  have hlr : l ^ 2 ≤ 2 * r := by
    rw [← hrr] at hL
    have : r ^ 2 * p = r * (2 + 2 * E * r) := by rw [← hp2]; ring
    nlinarith [mul_pos r0 r0]
  have hl2 : 0 < l ^ 2 := by positivity
  have hEr : r ≤ 1 / |E| := by
    rw [abs_of_neg hE0, le_div_iff₀ (by linarith)]
    nlinarith [mul_nonneg hp0 r0.le]
  have hpl : p ≤ (2 / |l|) ^ 2 := by
    rw [div_pow, sq_abs, le_div_iff₀ hl2]
    nlinarith [mul_le_mul_of_nonneg_left hlr hp0]
  have hl1 : 0 < 2 / |l| := by positivity
  have hE1 : 0 < 1 / |E| := by have := abs_pos.2 hE0.ne; positivity
  refine ⟨?_, ?_⟩
  · rw [← hrr]
    exact pow_le_pow_left₀ (by positivity) (by linarith) 2
  · rw [pi_norm_le_iff_of_nonneg (by positivity)]
    have a0 : |x 0| ≤ r := Real.abs_le_sqrt (rr_ge x).1
    have a1 : |x 1| ≤ r := Real.abs_le_sqrt (rr_ge x).2
    have a2 : |x 2| ≤ 2 / |l| := abs_le_of_sq_le_sq (by nlinarith [sq_nonneg (x 3)]) hl1.le
    have a3 : |x 3| ≤ 2 / |l| := abs_le_of_sq_le_sq (by nlinarith [sq_nonneg (x 2)]) hl1.le
    intro i
    rw [Real.norm_eq_abs]
    fin_cases i
    · show |x 0| ≤ _
      linarith
    · show |x 1| ≤ _
      linarith
    · show |x 2| ≤ _
      linarith
    · show |x 3| ≤ _
      linarith

/-- solutions on two adjacent intervals. -/
theorem sol_glue {n : ℕ} {f : (Fin n → ℝ) → Fin n → ℝ} {y z : ℝ → Fin n → ℝ} {t0 b t1 : ℝ} (h0 : t0 ≤ b) (h1 : b ≤ t1)
    (hy : SolOn f y t0 b) (hz : SolOn f z b t1) (e : z b = y b) :
    SolOn f (fun t => if t ≤ b then y t else z t) t0 t1 := by
  set w : ℝ → Fin n → ℝ := fun t => if t ≤ b then y t else z t with hw
  have ey : ∀ t, t ≤ b → w t = y t := fun t ht => if_pos ht
  have ez : ∀ t, b ≤ t → w t = z t := fun t ht => by
    rcases ht.lt_or_eq with h | h
    · exact if_neg (not_le.2 h)
    · rw [← h, e]; exact if_pos le_rfl
  intro t ht
  rw [← Set.Icc_union_Icc_eq_Icc h0 h1]
  refine HasDerivWithinAt.union ?_ ?_
  · rcases le_or_gt t b with h | h
    · rw [ey t h]
      exact (hy t ⟨ht.1, h⟩).congr (fun s hs => ey s hs.2) (ey t h)
    · exact HasFDerivWithinAt.of_notMem_closure fun hc => by
        rw [closure_Icc] at hc
        exact absurd hc.2 (not_le.2 h)
  · rcases le_or_gt b t with h | h
    · rw [ez t h]
      exact (hz t ⟨h, ht.2⟩).congr (fun s hs => ez s hs.1) (ez t h)
    · exact HasFDerivWithinAt.of_notMem_closure fun hc => by
        rw [closure_Icc] at hc
        exact absurd hc.1 (not_le.2 h)

/-- C124: **the bound orbits exist for all times.** -/
theorem kepler_exists {u : Fin 4 → ℝ} (hl : ang u ≠ 0) (hE : keplerH u < 0) (t0 T : ℝ) :
    ∃ y : ℝ → Fin 4 → ℝ, y t0 = u ∧ SolOn kepler y t0 (t0 + T) := by
  obtain ⟨a, ea⟩ : ∃ a, a = ang u ^ 2 / 2 := ⟨_, rfl⟩
  obtain ⟨M, eM⟩ : ∃ M, M = 2 / |ang u| + 1 / |keplerH u| := ⟨_, rfl⟩
  have ha : 0 < a := by rw [ea]; positivity
  have hM : 0 ≤ M := by rw [eM]; positivity
  obtain ⟨V, eV⟩ : ∃ V, V = M + a / 4 + 4 / a ^ 2 := ⟨_, rfl⟩
  have hV : 0 < V := by rw [eV]; positivity
  obtain ⟨ε, eε⟩ : ∃ ε, ε = a / 4 / V := ⟨_, rfl⟩
  have hε : 0 < ε := by rw [eε]; positivity
  have key : ∀ k : ℕ, ∃ y : ℝ → Fin 4 → ℝ, y t0 = u ∧ SolOn kepler y t0 (t0 + k * ε) := by
    intro k
    induction k with
    | zero =>
      refine ⟨fun t => u + (t - t0) • kepler u, by simp, fun t ht => ?_⟩
      have e : t = t0 := le_antisymm (by simpa using ht.2) ht.1
      rw [e]
      have := (((hasDerivAt_id t0).sub_const t0).smul_const (kepler u)).const_add u
      simpa using this.hasDerivWithinAt
    | succ k ih =>
      obtain ⟨y, y0, hy⟩ := ih
      obtain ⟨b, eb⟩ : ∃ b, b = t0 + k * ε := ⟨_, rfl⟩
      rw [← eb] at hy
      have hb : t0 ≤ b := by rw [eb]; have : 0 ≤ k * ε := by positivity
                             linarith
      have hbm : b ∈ Set.Icc t0 b := ⟨hb, le_rfl⟩
      have hB := kepler_bounds (by rw [ang_const hy hbm, y0]) hl (by rw [energy_const' hy (by rw [y0]; exact hl) hbm, y0]) hE
      rw [← ea, ← eM] at hB
      have hpl : IsPicardLindelof (fun _ => kepler) (tmin := b) (tmax := b + ε) ⟨b, le_rfl, by linarith⟩ (y b)
          ⟨a / 4, by positivity⟩ 0 ⟨V, hV.le⟩ ⟨1 + 56 / a ^ 3, by positivity⟩ := by
        refine IsPicardLindelof.of_time_independent (fun x hx => ?_) (LipschitzOnWith.of_dist_le_mul fun x hx z hz => ?_) ?_
        · rw [mem_closedBall_iff_norm] at hx
          show ‖kepler x‖ ≤ V
          rw [eV]
          refine kepler_norm ha (rr_near hB.1 hx) ?_
          have e : x = y b + (x - y b) := by abel
          rw [e]
          exact (norm_add_le _ _).trans (add_le_add hB.2 hx)
        · rw [mem_closedBall_iff_norm] at hx hz
          rw [dist_eq_norm, dist_eq_norm]
          exact kepler_lip ha hB.1 hx hz
        · show V * max (b + ε - b) (b - b) ≤ a / 4 - 0
          rw [add_sub_cancel_left, sub_self, max_eq_left hε.le, sub_zero, eε]
          exact le_of_eq (by field_simp)
      obtain ⟨z, z0, hz⟩ := hpl.exists_eq_forall_mem_Icc_hasDerivWithinAt₀
      have hg := sol_glue hb (by linarith : b ≤ b + ε) hy (fun t ht => hz t ht) z0
      refine ⟨_, ?_, (by rw [show t0 + ((k + 1 : ℕ) : ℝ) * ε = b + ε by rw [eb]; push_cast; ring]; exact hg)⟩
      simp only [if_pos hb, y0]
  obtain ⟨k, hk⟩ := exists_nat_ge (T / ε)
  obtain ⟨y, y0, hy⟩ := key k
  rw [div_le_iff₀ hε] at hk
  have hsub : Set.Icc t0 (t0 + T) ⊆ Set.Icc t0 (t0 + k * ε) := Set.Icc_subset_Icc le_rfl (by linarith)
  exact ⟨y, y0, fun t ht => (hy t (hsub ht)).mono hsub⟩

/-- C124: the hypotheses of C123 for every bound orbit, with explicit constants. -/
theorem kepler_orbit {y : ℝ → Fin 4 → ℝ} {t0 t1 l E a M : ℝ} (hy : SolOn kepler y t0 t1) (hl : ang (y t0) = l) (hl0 : l ≠ 0)
    (hE : keplerH (y t0) = E) (hE0 : E < 0) (ea : a = l ^ 2 / 2) (eM : M = 2 / |l| + 1 / |E|) (N : ℕ) :
    Smoothly kepler y t0 t1 (a / 4) N (1 + 56 / a ^ 3) M (M + a / 4 + 4 / a ^ 2) := by
  have hB : ∀ t ∈ Set.Icc t0 t1, a ^ 2 ≤ rr (y t) ∧ ‖y t‖ ≤ M := fun t ht => by
    rw [ea, eM]
    exact kepler_bounds (by rw [ang_const hy ht, hl]) hl0 (by rw [energy_const' hy (by rw [hl]; exact hl0) ht, hE]) hE0
  exact kepler_smoothly hy (by rw [ea]; positivity) (fun t ht => (hB t ht).1) (fun t ht => (hB t ht).2) N

/-- C124: **order `2s` on Kepler's problem** (tables of `double`): for every bound orbit, on every interval of time. -/
theorem kepler_order {t : GTab} (ht : t ∈ gaussD) {w : Fin 4 → ℝ} {l E a M T ρ L V : ℝ} (hl : ang w = l) (hl0 : l ≠ 0)
    (hE : keplerH w = E) (hE0 : E < 0) (ea : a = l ^ 2 / 2) (eM : M = 2 / |l| + 1 / |E|) (hT : 0 ≤ T) (eρ : ρ = a / 4)
    (eL : L = 1 + 56 / a ^ 3) (eV : V = M + a / 4 + 4 / a ^ 2) :
    ∃ y : ℝ → Fin 4 → ℝ, y 0 = w ∧ SolOn kepler y 0 T ∧ ∃ h0 C : ℝ, 0 < h0 ∧ 0 ≤ C ∧
      ∀ (F : FP) (_ : 10 ≤ F.p) (itermax : ℤ) (fF : (Fin 4 → F.T) → Fin 4 → F.T) (η : ℝ) (_ : 0 ≤ η)
        (_ : ∀ x, ∀ t ∈ Set.Icc 0 T, ‖val x - y t‖ ≤ ρ → ‖val (fF x) - kepler (val x)‖ ≤ η)
        (h : F.T) (_ : 0 < h.1) (_ : h.1 ≤ h0) (_ : h.1 * L ≤ 1 / 3)
        (junk st0 : St F.T 4) (_ : construct (cfgFt F t itermax fF) junk = some (.ok st0))
        (u0 : Fin 4 → F.T) (e0 : ℝ) (_ : ‖val u0 - w‖ ≤ e0) (G κ r : ℝ) (_ : G = (ocst F 12 t.s η L ρ h.1 M V C).G)
        (_ : κ = (ocst F 12 t.s η L ρ h.1 M V C).κ) (_ : r = (ocst F 12 t.s η L ρ h.1 M V C).r)
        (_ : Real.exp (2 * (1 + 1 / 10 ^ 11) * L * T) * (e0 + T * G) + κ + h.1 * (1 + 1 / 10 ^ 10) * (V + η) + r ≤ ρ)
        (N : ℕ) (u : Fin 4 → F.T) (st : St F.T 4) (_ : RunF (cfgFt F t itermax fF) h N u0 st0 u st) (_ : N * h.1 ≤ T),
        ‖val u - y (N * h.1)‖ ≤ Real.exp (2 * (1 + 1 / 10 ^ 11) * L * (N * h.1)) * (e0 + N * h.1 * G) + κ := by
  obtain ⟨y, y0, hy⟩ := kepler_exists (u := w) (by rw [hl]; exact hl0) (by rw [hE]; exact hE0) 0 T
  rw [zero_add] at hy
  have hS := kepler_orbit hy (by rw [y0, hl]) hl0 (by rw [y0, hE]) hE0 ea eM (2 * t.s)
  rw [← eρ, ← eL, show M + ρ + 4 / a ^ 2 = V by rw [eV, eρ]] at hS
  have hL0 : 0 ≤ L := by rw [eL, ea]; positivity
  obtain ⟨h0, C, p1, p2, p3⟩ := symp_double_order ht hT hL0 hS
  refine ⟨y, y0, hy, h0, C, p1, p2, ?_⟩
  intro F hp itermax fF η hη hf h hh hh0 hhL junk st0 hst u0 e0 he0 G κ r eG eκ er hρ N u st hrun hN
  have := (p3 F hp itermax fF η hη hf h hh hh0 hhL junk st0 hst u0 e0 (by rw [y0]; exact he0) G κ r (V + η) eG eκ er rfl
    (by simpa using hρ) N u st hrun (by simpa using hN)).2
  simpa using this

/-- the initial value shipped with the program. -/
theorem kepler_init : ang keplerInit = 1 / 100 ∧ keplerH keplerInit = -1599 / 160 := by
  refine ⟨by simp [ang, keplerInit]; norm_num, ?_⟩
  have : √((0.1 : ℝ) * 0.1 + 0 * 0) = 1 / 10 := by
    rw [show (0.1 : ℝ) * 0.1 + 0 * 0 = (1 / 10) ^ 2 by norm_num]
    exact Real.sqrt_sq (by norm_num)
  simp only [keplerH, keplerInit]
  simp only [Matrix.cons_val_zero, Matrix.cons_val_one, Matrix.cons_val]
  rw [this]
  norm_num

/-- the hypotheses of `kepler_order` are met by the shipped problem: distance to the origin at least `5e-5`. -/
example : ang keplerInit = 1 / 100 ∧ (1 / 100 : ℝ) ≠ 0 ∧ keplerH keplerInit = -1599 / 160 ∧ (-1599 / 160 : ℝ) < 0 ∧
    ((1 / 100 : ℝ)) ^ 2 / 2 = 5e-5 := ⟨kepler_init.1, by norm_num, kepler_init.2, by norm_num, by norm_num⟩

/-! ### the right hand side as computed -/

/-- `pow(., 3)` has a relative error of at most two units `2^-p` (one unit in the last place). -/
def PowOk {F : FP} (pow3 : F.T → F.T) : Prop := ∀ x : F.T, 0 ≤ x.1 → |(pow3 x).1 - x.1 ^ 3| ≤ 2 * F.eps * x.1 ^ 3

theorem root_near {F : FP} {pow3 : F.T → F.T} (hpow : PowOk pow3) (x : Fin 4 → F.T) :
    (1 - F.eps) ^ 4 * (1 - 2 * F.eps) * √(rr (val x) ^ 3) ≤ (keplerRoot pow3 x).1 ∧
      (keplerRoot pow3 x).1 ≤ (1 + F.eps) ^ 5 * √(rr (val x) ^ 3) := by
  have e0 := F.eps_pos
  have e1 := F.eps_le
  obtain ⟨e, he⟩ : ∃ e, e = F.eps := ⟨_, rfl⟩
  have fl : ∀ z : ℝ, 0 ≤ z → (1 - e) * z ≤ F.rnd z ∧ F.rnd z ≤ (1 + e) * z := fun z hz => by
    have := F.err z
    rw [abs_of_nonneg hz, ← he, abs_le] at this
    constructor <;> linarith [this.1, this.2]
  rw [← he] at e0 e1 ⊢
  have h1e : 0 ≤ 1 - e := by linarith
  set u := rr (val x) with hu
  have hu0 : 0 ≤ u := (sq_nonneg _).trans (rr_ge (val x)).1
  obtain ⟨s, hs⟩ : ∃ s, s = x 0 * x 0 + x 1 * x 1 := ⟨_, rfl⟩
  have m0 := fl ((x 0).1 * (x 0).1) (mul_self_nonneg _)
  have m1 := fl ((x 1).1 * (x 1).1) (mul_self_nonneg _)
  have q0 := mul_self_nonneg (x 0).1
  have q1 := mul_self_nonneg (x 1).1
  have eu : u = (x 0).1 * (x 0).1 + (x 1).1 * (x 1).1 := rfl
  have p0 : 0 ≤ F.rnd ((x 0).1 * (x 0).1) + F.rnd ((x 1).1 * (x 1).1) := by nlinarith
  have ms := fl _ p0
  have es : s.1 = F.rnd (F.rnd ((x 0).1 * (x 0).1) + F.rnd ((x 1).1 * (x 1).1)) := by rw [hs]; rfl
  have s1 : (1 - e) ^ 2 * u ≤ s.1 := by
    rw [es]; refine le_trans ?_ ms.1
    have : (1 - e) ^ 2 * u = (1 - e) * ((1 - e) * ((x 0).1 * (x 0).1) + (1 - e) * ((x 1).1 * (x 1).1)) := by rw [eu]; ring
    rw [this]
    exact mul_le_mul_of_nonneg_left (by linarith) h1e
  have s2 : s.1 ≤ (1 + e) ^ 2 * u := by
    rw [es]; refine le_trans ms.2 ?_
    have : (1 + e) ^ 2 * u = (1 + e) * ((1 + e) * ((x 0).1 * (x 0).1) + (1 + e) * ((x 1).1 * (x 1).1)) := by rw [eu]; ring
    rw [this]
    exact mul_le_mul_of_nonneg_left (by linarith) (by linarith)
  have s0 : 0 ≤ s.1 := le_trans (by positivity) s1
  have hp := hpow s s0
  rw [← he, abs_le] at hp
  have c1 : ((1 - e) ^ 3 * (1 - 2 * e)) ^ 2 * u ^ 3 ≤ (pow3 s).1 := by
    have a1 : ((1 - e) ^ 2 * u) ^ 3 ≤ s.1 ^ 3 := pow_le_pow_left₀ (by positivity) s1 3
    have a2 : (1 - 2 * e) ^ 2 ≤ 1 - 2 * e := by nlinarith
    have a3 : 0 ≤ ((1 - e) ^ 2 * u) ^ 3 := by positivity
    calc ((1 - e) ^ 3 * (1 - 2 * e)) ^ 2 * u ^ 3 = (1 - 2 * e) ^ 2 * ((1 - e) ^ 2 * u) ^ 3 := by ring
      _ ≤ (1 - 2 * e) * s.1 ^ 3 := mul_le_mul a2 a1 a3 (by linarith)
      _ ≤ _ := by linarith [hp.1]
  have c2 : (pow3 s).1 ≤ ((1 + e) ^ 4) ^ 2 * u ^ 3 := by
    have a1 : s.1 ^ 3 ≤ ((1 + e) ^ 2 * u) ^ 3 := pow_le_pow_left₀ s0 s2 3
    have a2 : 1 + 2 * e ≤ (1 + e) ^ 2 := by nlinarith
    calc (pow3 s).1 ≤ (1 + 2 * e) * s.1 ^ 3 := by linarith [hp.2]
      _ ≤ (1 + e) ^ 2 * ((1 + e) ^ 2 * u) ^ 3 := mul_le_mul a2 a1 (by positivity) (by positivity)
      _ = _ := by ring
  have hz : 0 ≤ (1 - e) ^ 3 * (1 - 2 * e) := mul_nonneg (by positivity) (by linarith)
  have r1 : (1 - e) ^ 3 * (1 - 2 * e) * √(u ^ 3) ≤ √(pow3 s).1 := by
    rw [← Real.sqrt_sq hz, ← Real.sqrt_mul (sq_nonneg _)]
    exact Real.sqrt_le_sqrt c1
  have r2 : √(pow3 s).1 ≤ (1 + e) ^ 4 * √(u ^ 3) := by
    rw [← Real.sqrt_sq (by positivity : 0 ≤ (1 + e) ^ 4), ← Real.sqrt_mul (sq_nonneg _)]
    exact Real.sqrt_le_sqrt c2
  have er : (keplerRoot pow3 x).1 = F.rnd √(pow3 s).1 := by rw [hs]; rfl
  have mr := fl _ (Real.sqrt_nonneg (pow3 s).1)
  rw [er]
  refine ⟨le_trans ?_ mr.1, mr.2.trans ?_⟩
  · calc _ = (1 - e) * ((1 - e) ^ 3 * (1 - 2 * e) * √(u ^ 3)) := by ring
      _ ≤ _ := mul_le_mul_of_nonneg_left r1 h1e
  · calc _ ≤ (1 + e) * ((1 + e) ^ 4 * √(u ^ 3)) := mul_le_mul_of_nonneg_left r2 (by linarith)
      _ = _ := by ring

/-- C124: error of the computed right hand side. -/
theorem kepler_rounding {F : FP} (hp : 10 ≤ F.p) {pow3 : F.T → F.T} (hpow : PowOk pow3) {x : Fin 4 → F.T} {a : ℝ} (ha : 0 < a)
    (hx : (a / 2) ^ 2 ≤ rr (val x)) : ‖val (keplerFl pow3 x) - kepler (val x)‖ ≤ 36 * F.eps / a ^ 2 := by
  have e0 := F.eps_pos
  have e1 : F.eps ≤ 1 / 1024 := by
    unfold FP.eps
    refine one_div_le_one_div_of_le (by norm_num) ?_
    calc (1024 : ℝ) = 2 ^ 10 := by norm_num
      _ ≤ 2 ^ F.p := pow_le_pow_right₀ (by norm_num) hp
  have hu : 0 < rr (val x) := lt_of_lt_of_le (by positivity) hx
  have hW : 0 < √(rr (val x) ^ 3) := Real.sqrt_pos.2 (by positivity)
  obtain ⟨w1, w2⟩ := root_near hpow x
  have key : ∀ z : ℝ, z ^ 2 ≤ rr (val x) →
      |F.rnd (z / (keplerRoot pow3 x).1) - z / √(rr (val x) ^ 3)| ≤ 36 * F.eps / a ^ 2 := by
    intro z hz
    have hf := force_le ha hx hz
    have hr := F.err (z / (keplerRoot pow3 x).1)
    generalize (keplerRoot pow3 x).1 = w at *
    generalize √(rr (val x) ^ 3) = W at *
    generalize F.eps = e at e0 e1 w1 w2 hr ⊢
    have l1 : 1 - 6 * e ≤ (1 - e) ^ 4 * (1 - 2 * e) := by
      have b1 : 1 - 4 * e ≤ (1 - e) ^ 4 := by nlinarith [sq_nonneg e, sq_nonneg (e * e), mul_nonneg e0.le (sq_nonneg e)]
      have := mul_le_mul_of_nonneg_right b1 (by linarith : 0 ≤ 1 - 2 * e)
      nlinarith
    have l2 : (1 + e) ^ 5 ≤ 1 + 6 * e := by
      have b1 : e ^ 2 ≤ e / 1024 := by nlinarith
      have b2 : e ^ 3 ≤ e / 1024 := by nlinarith
      have b3 : e ^ 4 ≤ e / 1024 := by nlinarith [mul_nonneg e0.le (by nlinarith : 0 ≤ e / 1024 - e ^ 3)]
      have b4 : e ^ 5 ≤ e / 1024 := by nlinarith [mul_nonneg e0.le (by nlinarith : 0 ≤ e / 1024 - e ^ 4)]
      have : (1 + e) ^ 5 = 1 + 5 * e + 10 * e ^ 2 + 10 * e ^ 3 + 5 * e ^ 4 + e ^ 5 := by ring
      linarith
    have v1 : (1 - 6 * e) * W ≤ w := (mul_le_mul_of_nonneg_right l1 hW.le).trans w1
    have v2 : w ≤ (1 + 6 * e) * W := w2.trans (mul_le_mul_of_nonneg_right l2 hW.le)
    have w0 : 0 < w := lt_of_lt_of_le (mul_pos (by linarith) hW) v1
    have hd : |z / w - z / W| ≤ 7 * e * |z / W| := by
      have : z / w - z / W = z / W * ((W - w) / w) := by field_simp
      rw [this, abs_mul, mul_comm]
      refine mul_le_mul_of_nonneg_right ?_ (abs_nonneg _)
      rw [abs_div, abs_of_pos w0, div_le_iff₀ w0, abs_le]
      have g1 : 7 * e * ((1 - 6 * e) * W) ≤ 7 * e * w := mul_le_mul_of_nonneg_left v1 (by linarith)
      have g2 : 0 ≤ e * W := by positivity
      have g3 : e * (e * W) ≤ 1 / 1024 * (e * W) := mul_le_mul_of_nonneg_right e1 g2
      constructor <;> nlinarith
    have h1 : |z / w| ≤ (1 + 7 * e) * |z / W| := by
      have := abs_sub_abs_le_abs_sub (z / w) (z / W)
      linarith
    have h2 : |F.rnd (z / w) - z / W| ≤ 9 * e * |z / W| := by
      have := abs_sub_le (F.rnd (z / w)) (z / w) (z / W)
      have h3 := mul_le_mul_of_nonneg_left h1 e0.le
      have h4 : e * e * |z / W| ≤ 1 / 1024 * (e * |z / W|) := by
        rw [mul_assoc]; exact mul_le_mul_of_nonneg_right e1 (by positivity)
      nlinarith [abs_nonneg (z / W), mul_nonneg e0.le (abs_nonneg (z / W))]
    refine h2.trans ((mul_le_mul_of_nonneg_left hf (by linarith)).trans (le_of_eq ?_))
    ring
  have h36 : 0 ≤ 36 * F.eps / a ^ 2 := by positivity
  rw [pi_norm_le_iff_of_nonneg h36]
  intro i
  fin_cases i
  · show |-(x 2).1 - -(x 2).1| ≤ _
    rw [sub_self, abs_zero]; exact h36
  · show |-(x 3).1 - -(x 3).1| ≤ _
    rw [sub_self, abs_zero]; exact h36
  · exact key _ (rr_ge (val x)).1
  · exact key _ (rr_ge (val x)).2

/-- C124: **order `2s` of the whole program on Kepler's problem**, the right hand side being computed as in Kepler2.hpp. -/
theorem kepler_program {t : GTab} (ht : t ∈ gaussD) {w : Fin 4 → ℝ} {l E a M T ρ L V : ℝ} (hl : ang w = l) (hl0 : l ≠ 0)
    (hE : keplerH w = E) (hE0 : E < 0) (ea : a = l ^ 2 / 2) (eM : M = 2 / |l| + 1 / |E|) (hT : 0 ≤ T) (eρ : ρ = a / 4)
    (eL : L = 1 + 56 / a ^ 3) (eV : V = M + a / 4 + 4 / a ^ 2) :
    ∃ y : ℝ → Fin 4 → ℝ, y 0 = w ∧ SolOn kepler y 0 T ∧ ∃ h0 C : ℝ, 0 < h0 ∧ 0 ≤ C ∧
      ∀ (F : FP) (_ : 10 ≤ F.p) (itermax : ℤ) (pow3 : F.T → F.T) (_ : PowOk pow3) (η : ℝ) (_ : η = 36 * F.eps / a ^ 2)
        (h : F.T) (_ : 0 < h.1) (_ : h.1 ≤ h0) (_ : h.1 * L ≤ 1 / 3)
        (junk st0 : St F.T 4) (_ : construct (cfgFt F t itermax (keplerFl pow3)) junk = some (.ok st0))
        (u0 : Fin 4 → F.T) (e0 : ℝ) (_ : ‖val u0 - w‖ ≤ e0) (G κ r : ℝ) (_ : G = (ocst F 12 t.s η L ρ h.1 M V C).G)
        (_ : κ = (ocst F 12 t.s η L ρ h.1 M V C).κ) (_ : r = (ocst F 12 t.s η L ρ h.1 M V C).r)
        (_ : Real.exp (2 * (1 + 1 / 10 ^ 11) * L * T) * (e0 + T * G) + κ + h.1 * (1 + 1 / 10 ^ 10) * (V + η) + r ≤ ρ)
        (N : ℕ) (u : Fin 4 → F.T) (st : St F.T 4) (_ : RunF (cfgFt F t itermax (keplerFl pow3)) h N u0 st0 u st)
        (_ : N * h.1 ≤ T),
        ‖val u - y (N * h.1)‖ ≤ Real.exp (2 * (1 + 1 / 10 ^ 11) * L * (N * h.1)) * (e0 + N * h.1 * G) + κ := by
  obtain ⟨y, y0, hy, h0, C, p1, p2, p3⟩ := kepler_order ht hl hl0 hE hE0 ea eM hT eρ eL eV
  refine ⟨y, y0, hy, h0, C, p1, p2, ?_⟩
  intro F hp itermax pow3 hpow η eη h hh hh0 hhL junk st0 hst u0 e0 he0 G κ r eG eκ er hρ N u st hrun hN
  have ha : 0 < a := by rw [ea]; positivity
  refine p3 F hp itermax (keplerFl pow3) η (by rw [eη]; have := F.eps_pos; positivity) (fun x t ht hx => ?_) h hh hh0 hhL junk
    st0 hst u0 e0 he0 G κ r eG eκ er hρ N u st hrun hN
  rw [eη]
  refine kepler_rounding hp hpow ha (rr_near (y := y t) ?_ (by rw [← eρ]; exact hx))
  rw [ea]
  refine (kepler_bounds (E := E) ?_ hl0 ?_ hE0).1
  · rw [ang_const hy ht, y0, hl]
  · rw [energy_const' hy (by rw [y0, hl]; exact hl0) ht, y0, hE]

/-- a correctly rounded `pow`. -/
noncomputable def cube {F : FP} (x : F.T) : F.T := ⟨F.rnd (x.1 ^ 3), F.rn.flt _⟩

theorem cube_ok {F : FP} : PowOk (F := F) cube := fun x hx => by
  have h := F.err (x.1 ^ 3)
  have h3 : 0 ≤ x.1 ^ 3 := by positivity
  rw [abs_of_nonneg h3] at h
  refine h.trans (mul_le_mul_of_nonneg_right ?_ h3)
  linarith [F.eps_pos]

/-! ### the circle: all hypotheses of `kepler_program` at once -/

theorem circle_cst {F : FP} {h C η : ℝ} (hh : 0 < h) (h1 : h ≤ 1 / 10 ^ 4) (hη0 : 0 ≤ η) (hη : η ≤ 1 / 10 ^ 3)
    (hC : C * h ^ (2 * 2) ≤ 1 / 100) (hε : F.eps ≤ h / 10 ^ 6) :
    Real.exp (2 * (1 + 1 / 10 ^ 11) * 449 * (1 / 1000)) * (0 + 1 / 1000 * (ocst F 12 2 η 449 (1 / 8) h 4 (161 / 8) C).G) +
      (ocst F 12 2 η 449 (1 / 8) h 4 (161 / 8) C).κ + h * (1 + 1 / 10 ^ 10) * (161 / 8 + η) +
      (ocst F 12 2 η 449 (1 / 8) h 4 (161 / 8) C).r ≤ 1 / 8 := by
  have hε0 := F.eps_pos
  obtain ⟨k, hk⟩ : ∃ k, k = ocst F 12 2 η 449 (1 / 8) h 4 (161 / 8) C := ⟨_, rfl⟩
  rw [← hk]
  have hV : k.V = 161 / 8 + η := by rw [hk]; rfl
  have hV0 : 0 ≤ k.V := by rw [hV]; positivity
  have hV1 : k.V ≤ 21 := by rw [hV]; norm_num at *; linarith
  have hU : k.U = 33 / 8 := by rw [hk]; show (4 : ℝ) + 1 / 8 = 33 / 8; norm_num
  have hκ : k.κ = 2 * F.eps * (33 / 8 + 8 * (h * (1 + 1 / 10 ^ 11) * k.V)) := by
    unfold OCst.κ; rw [hU, hk]; rfl
  have hr : k.r = 20 * F.eps * (33 / 8 + h * (1 + 1 / 10 ^ 10) * k.V) := by
    unfold OCst.r; rw [hU, hk]; rfl
  have hhV : h * k.V ≤ 21 / 10 ^ 4 := by
    have := mul_le_mul h1 hV1 hV0 (by norm_num)
    norm_num at *; linarith
  have hhV0 : 0 ≤ h * k.V := by positivity
  have hκ0 : 0 ≤ k.κ := by rw [hκ]; positivity
  have hκ1 : k.κ ≤ 10 * F.eps := by
    have : k.κ = 2 * F.eps * (33 / 8 + 8 * (1 + 1 / 10 ^ 11) * (h * k.V)) := by rw [hκ]; ring
    rw [this, mul_comm (10 : ℝ)]
    have : 2 * (33 / 8 + 8 * (1 + 1 / 10 ^ 11) * (h * k.V)) ≤ 10 := by norm_num at *; linarith
    nlinarith
  have hr1 : k.r ≤ 100 * F.eps := by
    have : k.r = 20 * F.eps * (33 / 8 + (1 + 1 / 10 ^ 10) * (h * k.V)) := by rw [hr]; ring
    rw [this, mul_comm (100 : ℝ)]
    have : 20 * (33 / 8 + (1 + 1 / 10 ^ 10) * (h * k.V)) ≤ 100 := by norm_num at *; linarith
    nlinarith
  have hε1 : F.eps ≤ 1 / 10 ^ 10 := hε.trans (by norm_num at *; linarith)
  have hθ : (1 : ℝ) / 10 ^ 153 ≤ 1 / 10 ^ 13 :=
    one_div_le_one_div_of_le (by positivity) (pow_le_pow_right₀ (by norm_num) (by norm_num))
  have h7 : 7 * F.eps * k.κ / h ≤ 70 / 10 ^ 6 * F.eps := by
    rw [div_le_iff₀ hh]
    have := mul_le_mul hε hκ1 hκ0 (by positivity)
    norm_num at *
    nlinarith
  have hεV : F.eps * k.V ≤ 21 / 10 ^ 10 := by
    have := mul_le_mul hε1 hV1 hV0 (by norm_num)
    norm_num at *; linarith
  have hG : k.G ≤ 1 := by
    have e : k.G = 2 * (1 + 1 / 10 ^ 11) * (449 * (k.κ + k.r + 4 * (1 / 10 ^ 153) + (2 : ℕ) / (2 * 10 ^ 12) * (h * k.V)) + η) +
        ((2 : ℕ) / 10 ^ 48) * k.V + 28 * (1 + 1 / 10 ^ 11) * (F.eps * k.V) + 7 * F.eps * k.κ / h + C * h ^ (2 * 2) := by
      have : k.G = 2 * (1 + 1 / 10 ^ 11) * (449 * (k.κ + k.r + 4 * (1 / 10 ^ 153) + h * ((2 : ℕ) / (2 * 10 ^ 12)) * k.V) + η) +
        ((2 : ℕ) / 10 ^ 48) * k.V + 28 * F.eps * (1 + 1 / 10 ^ 11) * k.V + 7 * F.eps * k.κ / h + C * h ^ (2 * 2) := by
        unfold OCst.G; rw [hk]; rfl
      rw [this]; ring
    rw [e]
    generalize (1 : ℝ) / 10 ^ 153 = θ at hθ
    generalize 7 * F.eps * k.κ / h = q at h7
    generalize F.eps * k.V = e1 at hεV
    generalize h * k.V = e2 at hhV
    norm_num at *
    linarith
  have hexp : Real.exp (2 * (1 + 1 / 10 ^ 11) * 449 * (1 / 1000)) ≤ 3 := by
    have h1 : Real.exp (2 * (1 + 1 / 10 ^ 11) * 449 * (1 / 1000)) ≤ Real.exp 1 := Real.exp_le_exp.2 (by norm_num)
    linarith [Real.exp_one_lt_d9]
  have hex0 := Real.exp_pos (2 * (1 + 1 / 10 ^ 11) * 449 * (1 / 1000))
  have h3 : Real.exp (2 * (1 + 1 / 10 ^ 11) * 449 * (1 / 1000)) * (0 + 1 / 1000 * k.G) ≤ 3 / 1000 := by
    have : Real.exp (2 * (1 + 1 / 10 ^ 11) * 449 * (1 / 1000)) * (0 + 1 / 1000 * k.G)
        ≤ Real.exp (2 * (1 + 1 / 10 ^ 11) * 449 * (1 / 1000)) * (1 / 1000) := by
      refine mul_le_mul_of_nonneg_left ?_ hex0.le
      linarith
    linarith
  have e4 : h * (1 + 1 / 10 ^ 10) * (161 / 8 + η) = (1 + 1 / 10 ^ 10) * (h * k.V) := by rw [hV]; ring
  rw [e4]
  generalize Real.exp (2 * (1 + 1 / 10 ^ 11) * 449 * (1 / 1000)) * (0 + 1 / 1000 * k.G) = q at h3
  norm_num at *
  linarith

/-- C124 on the circle of radius 1 (two stages, `pow` correctly rounded): all hypotheses of `kepler_program` are met for
small steps and enough bits. -/
theorem circle_order : ∃ (y : ℝ → Fin 4 → ℝ) (C : ℝ) (k0 : ℕ), y 0 = ![1, 0, 0, -1] ∧ SolOn kepler y 0 (1 / 1000) ∧ 0 ≤ C ∧
    ∀ k, k0 ≤ k → ∃ p0 : ℕ, ∀ (F : FP) (_ : p0 ≤ F.p) (itermax : ℤ) (junk : St F.T 4),
      ∃ st0, construct (cfgFt F gaussD2 itermax (keplerFl cube)) junk = some (.ok st0) ∧ ∀ (N : ℕ) (u0 u : Fin 4 → F.T) (st : St F.T 4),
        val u0 = ![1, 0, 0, -1] → RunF (cfgFt F gaussD2 itermax (keplerFl cube)) (twoPow F k) N u0 st0 u st →
        N * (twoPow F k).1 ≤ 1 / 1000 →
        ‖val u - y (N * (twoPow F k).1)‖ ≤ Real.exp (2 * (1 + 1 / 10 ^ 11) * 449 * (N * (twoPow F k).1)) *
          (0 + N * (twoPow F k).1 * (ocst F 12 2 (36 * F.eps / (1 / 2) ^ 2) 449 (1 / 8) (twoPow F k).1 4 (161 / 8) C).G) +
          (ocst F 12 2 (36 * F.eps / (1 / 2) ^ 2) 449 (1 / 8) (twoPow F k).1 4 (161 / 8) C).κ := by
  have a1 : ang (![1, 0, 0, -1] : Fin 4 → ℝ) = -1 := by simp [ang]
  have a2 : keplerH (![1, 0, 0, -1] : Fin 4 → ℝ) = -1 / 2 := by
    simp [keplerH]; norm_num
  obtain ⟨y, y0, hy, h0, C, h0p, c0, hmain⟩ := kepler_program (t := gaussD2) (by simp [gaussD]) (w := ![1, 0, 0, -1]) (l := -1)
    (E := -1 / 2) (a := 1 / 2) (M := 4) (T := 1 / 1000) (ρ := 1 / 8) (L := 449) (V := 161 / 8) a1 (by norm_num) a2 (by norm_num)
    (by norm_num) (by norm_num [abs_of_neg]) (by norm_num) (by norm_num) (by norm_num) (by norm_num)
  obtain ⟨k1, hk1⟩ := exists_pow_lt_of_lt_one h0p (by norm_num : (1 / 2 : ℝ) < 1)
  obtain ⟨k2, hk2⟩ := exists_pow_lt_of_lt_one (show 0 < 1 / (100 * (C + 1)) by positivity) (by norm_num : (1 / 2 : ℝ) < 1)
  refine ⟨y, C, k1 + k2 + 14, y0, hy, c0, fun k hk => ⟨k + 30, fun F hp itermax junk => ?_⟩⟩
  have hval : (twoPow F k).1 = (1 / 2) ^ k := by
    show (2 : ℝ) ^ (-k : ℤ) = _
    rw [zpow_neg, zpow_natCast, one_div, inv_pow]
  have mono : ∀ j, j ≤ k → ((1 : ℝ) / 2) ^ k ≤ (1 / 2) ^ j := fun j hj => pow_le_pow_of_le_one (by norm_num) (by norm_num) hj
  have hh : 0 < (twoPow F k).1 := by rw [hval]; positivity
  have hh0 : (twoPow F k).1 ≤ h0 := by rw [hval]; exact (mono k1 (by omega)).trans hk1.le
  have h16 : (twoPow F k).1 ≤ 1 / 10 ^ 4 := by rw [hval]; exact (mono 14 (by omega)).trans (by norm_num)
  have hC : C * (twoPow F k).1 ^ (2 * 2) ≤ 1 / 100 := by
    have a1 : (twoPow F k).1 ≤ 1 / (100 * (C + 1)) := by rw [hval]; exact (mono k2 (by omega)).trans hk2.le
    have a2 : (twoPow F k).1 ^ (2 * 2) ≤ (twoPow F k).1 := pow_le_of_le_one hh.le (h16.trans (by norm_num)) (by norm_num)
    have a3 : C * (twoPow F k).1 ^ (2 * 2) ≤ C * (1 / (100 * (C + 1))) := mul_le_mul_of_nonneg_left (a2.trans a1) c0
    refine a3.trans ?_
    rw [mul_one_div, div_le_div_iff₀ (by positivity) (by norm_num)]
    linarith
  have hε : F.eps ≤ (twoPow F k).1 / 10 ^ 6 := by
    rw [hval]
    unfold FP.eps
    have b1 : (2 : ℝ) ^ (k + 30) ≤ 2 ^ F.p := pow_le_pow_right₀ (by norm_num) hp
    refine (one_div_le_one_div_of_le (by positivity) b1).trans ?_
    rw [pow_add, one_div_pow, div_div, div_le_div_iff₀ (by positivity) (by positivity)]
    have : (0 : ℝ) < 2 ^ k := by positivity
    norm_num
  have hε1 : F.eps ≤ 1 / 10 ^ 10 := hε.trans (by norm_num at *; linarith)
  have hT := cfgFt_tab (F := F) gaussD2_mem itermax (keplerFl cube)
  obtain ⟨st0, hst⟩ := (symp_construct (c := cfgFt F gaussD2 itermax (keplerFl cube)) hT.la.le hT.lb.le hT.lc.le junk).2
    ⟨hT.two, hT.max⟩
  refine ⟨st0, hst, fun N u0 u st hu0 hrun hN => ?_⟩
  have hη0 : 0 ≤ 36 * F.eps / (1 / 2) ^ 2 := by have := F.eps_pos; positivity
  exact hmain F (by omega) itermax cube cube_ok _ rfl (twoPow F k) hh hh0 (by norm_num at *; linarith) junk st0 hst u0 0
    (by rw [hu0, sub_self, norm_zero]) _ _ _ rfl rfl rfl (circle_cst hh h16 hη0 (by norm_num at *; linarith) hC hε) N u st hrun hN

end Odes.Symp.Test
