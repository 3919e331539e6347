import Verif.Lemmas.SmoothField

/-!
# Taylor expansions along a solution of a smooth problem
-/

namespace Odes

noncomputable section

open Spec Germ Colloc

variable {n : ℕ} {t0 te : ℝ}

theorem cubic_hom {A B : Type} [CommRing A] [Algebra ℝ A] [CommRing B] [Algebra ℝ B] (φ : A →ₐ[ℝ] B) (c0 : Fin n → A)
    (c1 : Fin n → Fin n → A) (c2 : Fin n → Fin n → Fin n → A) (c3 : Fin n → Fin n → Fin n → Fin n → A) (y v : Fin n → A)
    (i : Fin n) : φ (cubic c0 c1 c2 c3 y v i) = cubic (fun i => φ (c0 i)) (fun i j => φ (c1 i j)) (fun i k j => φ (c2 i k j))
      (fun i l k j => φ (c3 i l k j)) (fun i => φ (y i)) (fun i => φ (v i)) i := by
  simp only [cubic, L1, L2, L3, Pi.add_apply, Pi.smul_apply, Pi.sub_apply, smul_eq_mul, map_add, map_mul, map_sum, map_sub]
  have h : ∀ r : ℝ, φ (cst r) = cst r := fun r => AlgHom.commutes φ r
  rw [h, h]

/-- the cubic is the Taylor polynomial. -/
theorem cubic_real (f : (Fin n → ℝ) → Fin n → ℝ) (x d : Fin n → ℝ) (i : Fin n) :
    cubic (f x) (fun i j => pd j (fun z => f z i) x) (fun i k j => pd j (pd k fun z => f z i) x)
      (fun i l k j => pd j (pd k (pd l fun z => f z i)) x) x (x + d) i
      = ∑ k ∈ Finset.range 4, hom k (fun z => f z i) x d := by
  simp only [cubic, Finset.sum_range_succ, Finset.sum_range_zero, zero_add, hom, add_sub_cancel_left, L1, L2, L3, Pi.add_apply,
    Pi.smul_apply, smul_eq_mul]
  congr 1
  · congr 1
    · congr 1
      simp only [Nat.cast_zero, zero_add, div_one, one_mul]
      exact Finset.sum_congr rfl fun j _ => mul_comm _ _
    · rw [show cst (J := ℝ) (1 / 2) = 1 / 2 from rfl]
      simp only [Nat.cast_zero, Nat.cast_one, zero_add, div_one, one_mul]
      congr 1
      · norm_num
      · refine Finset.sum_congr rfl fun k _ => ?_
        rw [mul_comm]
        congr 1
        exact Finset.sum_congr rfl fun j _ => mul_comm _ _
  · rw [show cst (J := ℝ) (1 / 6) = 1 / 6 from rfl]
    simp only [Nat.cast_zero, Nat.cast_one, zero_add, div_one, one_mul, Nat.cast_ofNat, Finset.mul_sum, Finset.sum_mul]
    refine Finset.sum_congr rfl fun l _ => Finset.sum_congr rfl fun k _ => Finset.sum_congr rfl fun j _ => ?_
    ring

section mem

variable {A : Type} [CommRing A] [Algebra ℝ A] (T : Subalgebra ℝ A)

theorem L1_mem {c : Fin n → Fin n → A} (hc : ∀ i j, c i j ∈ T) {u : Fin n → A} (hu : ∀ i, u i ∈ T) (i : Fin n) :
    L1 c u i ∈ T := Subalgebra.sum_mem _ fun j _ => Subalgebra.mul_mem _ (hc i j) (hu j)

theorem L2_mem {c : Fin n → Fin n → Fin n → A} (hc : ∀ i k j, c i k j ∈ T) {u v : Fin n → A} (hu : ∀ i, u i ∈ T)
    (hv : ∀ i, v i ∈ T) (i : Fin n) : L2 c u v i ∈ T := Subalgebra.sum_mem _ fun k _ => Subalgebra.mul_mem _
  (Subalgebra.sum_mem _ fun j _ => Subalgebra.mul_mem _ (hc i k j) (hu j)) (hv k)

theorem L3_mem {c : Fin n → Fin n → Fin n → Fin n → A} (hc : ∀ i l k j, c i l k j ∈ T) {u v w : Fin n → A}
    (hu : ∀ i, u i ∈ T) (hv : ∀ i, v i ∈ T) (hw : ∀ i, w i ∈ T) (i : Fin n) : L3 c u v w i ∈ T :=
  Subalgebra.sum_mem _ fun l _ => Subalgebra.mul_mem _ (Subalgebra.sum_mem _ fun k _ => Subalgebra.mul_mem _
    (Subalgebra.sum_mem _ fun j _ => Subalgebra.mul_mem _ (hc i l k j) (hu j)) (hv k)) (hw l)

end mem

open Classical in
/-- `f` near the solution, 0 elsewhere. -/
def cut (K : Set (Fin n → ℝ)) (f : (Fin n → ℝ) → Fin n → ℝ) (u : Fin n → ℝ) : Fin n → ℝ := if u ∈ K then f u else 0

section

variable {f : (Fin n → ℝ) → Fin n → ℝ} {y : ℝ → Fin n → ℝ} {ρ : ℝ} (S : Smooth4 f y t0 te ρ)

include S

theorem Smooth4.cut_eq {t : ℝ} (ht : t ∈ Set.Icc t0 te) {u : Fin n → ℝ} (hu : ‖u - y t‖ ≤ ρ) :
    cut (tube y t0 te ρ) f u = f u := if_pos (S.mem ht hu)

theorem Smooth4.f_bound : ∃ B : ℝ, 0 ≤ B ∧ ∀ x ∈ tube y t0 te ρ, ‖f x‖ ≤ B := by
  have hc : ContinuousOn f (tube y t0 te ρ) := fun x hx => (S.diff x hx).continuousAt.continuousWithinAt
  obtain ⟨B, hB⟩ := (tube_compact S.sol ρ).exists_bound_of_continuousOn hc
  exact ⟨max B 0, le_max_right _ _, fun x hx => (hB x hx).trans (le_max_left _ _)⟩

theorem Smooth4.cut_bound : ∃ B : ℝ, 0 ≤ B ∧ ∀ x, ‖cut (tube y t0 te ρ) f x‖ ≤ B := by
  obtain ⟨B, h0, hB⟩ := S.f_bound
  refine ⟨B, h0, fun x => ?_⟩
  unfold cut
  split_ifs with h
  · exact hB x h
  · simpa using h0

/-- the expansion. -/
def Smooth4.D {R : ℝ} (hR : ∀ t ∈ Set.Icc t0 te, ‖y t‖ ≤ R) :=
  cubicTaylor (cls (hB t0 te) (hB t0 te)) (fun i => cls (hB t0 te) (co0 f y i)) (fun i j => cls (hB t0 te) (co1 f y i j))
    (c2 := fun i k j => cls (hB t0 te) (co2 f y i k j)) (c3 := fun i l k j => cls (hB t0 te) (co3 f y i l k j))
    (fun i k j => by rw [S.s2]) (fun i l k j => by rw [S.s3]) (fun i l k j => by rw [S.s3'])
    (fun i => cls (hB t0 te) (yB hR i))

theorem Smooth4.inside {R : ℝ} (hR : ∀ t ∈ Set.Icc t0 te, ‖y t‖ ≤ R) : (S.D hR).Inside (Odes.timeOnly t0 te) where
  f := fun i => S.timeOnly (S.sm i)
  f1 := fun u hu i => L1_mem _ (fun i j => S.timeOnly (S.sm1 i j)) hu i
  f2 := fun u v hu hv i => L2_mem _ (fun i k j => S.timeOnly (S.sm2 i j k)) hu hv i
  f3 := fun u v w hu hv hw i => L3_mem _ (fun i l k j => S.timeOnly (S.sm3 i j k l)) hu hv hw i

/-- the field near the solution, from the expansion. -/
theorem Smooth4.lift {R : ℝ} (hR : ∀ t ∈ Set.Icc t0 te, ‖y t‖ ≤ R) (w : Fin n → bdd (Steps t0 te)) :
    ∃ b : Fin n → bdd (Steps t0 te),
      (∀ θ i, (b i).1 θ = cut (tube y t0 te ρ) f (fun j => y θ.t j + θ.h * (w j).1 θ) i) ∧
      ∀ i, cls (hB t0 te) (hB t0 te) * cls (hB t0 te) (b i) = cls (hB t0 te) (hB t0 te) *
        cubic (fun i => cls (hB t0 te) (co0 f y i)) (fun i j => cls (hB t0 te) (co1 f y i j))
          (fun i k j => cls (hB t0 te) (co2 f y i k j)) (fun i l k j => cls (hB t0 te) (co3 f y i l k j))
          (fun i => cls (hB t0 te) (yB hR i))
          ((fun i => cls (hB t0 te) (yB hR i)) + cls (hB t0 te) (hB t0 te) • fun j => cls (hB t0 te) (w j)) i := by
  obtain ⟨B, b0, hB1⟩ := S.cut_bound
  have hb : ∀ (θ : Steps t0 te) i, |cut (tube y t0 te ρ) f (fun j => y θ.t j + θ.h * (w j).1 θ) i| ≤ B := fun θ i =>
    (norm_le_pi_norm _ i).trans (hB1 _)
  refine ⟨fun i => toB fun θ => cut (tube y t0 te ρ) f (fun j => y θ.t j + θ.h * (w j).1 θ) i,
    fun θ i => toB_apply (fun θ => hb θ i) θ, fun i => ?_⟩
  obtain ⟨T, hT⟩ : ∃ T : Fin n → bdd (Steps t0 te), T = cubic (co0 f y) (co1 f y) (co2 f y) (co3 f y) (yB hR)
    (fun j => yB hR j + hB t0 te * w j) := ⟨_, rfl⟩
  have e : cubic (fun i => cls (hB t0 te) (co0 f y i)) (fun i j => cls (hB t0 te) (co1 f y i j))
          (fun i k j => cls (hB t0 te) (co2 f y i k j)) (fun i l k j => cls (hB t0 te) (co3 f y i l k j))
          (fun i => cls (hB t0 te) (yB hR i))
          ((fun i => cls (hB t0 te) (yB hR i)) + cls (hB t0 te) (hB t0 te) • fun j => cls (hB t0 te) (w j)) i
      = cls (hB t0 te) (T i) := by
    rw [hT, cubic_hom]
    congr 1
  rw [e, ← map_mul, ← map_mul, cls_eq]
  have hTv : ∀ θ : Steps t0 te, (T i).1 θ = ∑ k ∈ Finset.range 4, hom k (fun z => f z i) (y θ.t) (fun j => θ.h * (w j).1 θ) := by
    intro θ
    rw [← cubic_real, hT]
    refine (cubic_hom (ev θ) _ _ _ _ _ _ i).trans ?_
    congr 1
    · exact funext fun i => S.along (S.sm i) θ
    · exact funext fun i => funext fun j => S.along (S.sm1 i j) θ
    · exact funext fun i => funext fun k => funext fun j => S.along (S.sm2 i j k) θ
    · exact funext fun i => funext fun l => funext fun k => funext fun j => S.along (S.sm3 i j k l) θ
  obtain ⟨M, hM⟩ := (T i).2
  obtain ⟨W, w0, hW⟩ := bound_common w
  obtain ⟨C, c0, hC⟩ := hom_near (tube_compact S.sol ρ) 4 (fun z => f z i) (S.sm i)
  have hρ := S.pos
  refine ⟨C * W ^ 4 + (B + |M|) * (W / ρ) ^ 4, fun θ => ?_⟩
  show |θ.h * (toB fun θ => cut (tube y t0 te ρ) f (fun j => y θ.t j + θ.h * (w j).1 θ) i).1 θ - θ.h * (T i).1 θ|
    ≤ _ * |θ.h| ^ 5
  rw [toB_apply (fun θ => hb θ i) θ]
  have hh := θ.pos
  have hd : ‖fun j => θ.h * (w j).1 θ‖ ≤ θ.h * W := by
    rw [pi_norm_le_iff_of_nonneg (by positivity)]
    intro j
    rw [Real.norm_eq_abs, abs_mul, abs_of_nonneg hh]
    exact mul_le_mul_of_nonneg_left (hW j θ) hh
  have q : |cut (tube y t0 te ρ) f (fun j => y θ.t j + θ.h * (w j).1 θ) i - (T i).1 θ|
      ≤ (C * W ^ 4 + (B + |M|) * (W / ρ) ^ 4) * θ.h ^ 4 := by
    have hM0 := abs_nonneg M
    have n1 : 0 ≤ (B + |M|) * (W / ρ) ^ 4 * θ.h ^ 4 := by positivity
    have n2 : 0 ≤ C * W ^ 4 * θ.h ^ 4 := by positivity
    by_cases hs : θ.h * W ≤ ρ
    · have hin : ∀ s ∈ Set.Icc (0 : ℝ) 1, y θ.t + s • (fun j => θ.h * (w j).1 θ) ∈ tube y t0 te ρ := by
        intro s hs'
        refine S.mem θ.mem ?_
        rw [add_sub_cancel_left, norm_smul, Real.norm_eq_abs, abs_of_nonneg hs'.1]
        exact (mul_le_of_le_one_left (norm_nonneg _) hs'.2).trans (hd.trans hs)
      have h1 := hC (y θ.t) (fun j => θ.h * (w j).1 θ) hin
      have h2 := hin 1 ⟨by norm_num, le_rfl⟩
      rw [one_smul] at h2
      have e2 : (fun j => y θ.t j + θ.h * (w j).1 θ) = y θ.t + fun j => θ.h * (w j).1 θ := rfl
      rw [e2, cut, if_pos h2, hTv]
      refine h1.trans ?_
      have h3 := mul_le_mul_of_nonneg_left (pow_le_pow_left₀ (norm_nonneg _) hd 4) c0
      have e3 : C * (θ.h * W) ^ 4 = C * W ^ 4 * θ.h ^ 4 := by ring
      linarith
    · have h1 : |cut (tube y t0 te ρ) f (fun j => y θ.t j + θ.h * (w j).1 θ) i - (T i).1 θ| ≤ B + |M| :=
        (abs_sub _ _).trans (add_le_add (hb θ i) ((hM θ).trans (le_abs_self _)))
      have h2 : (1 : ℝ) ≤ (θ.h * W / ρ) ^ 4 := one_le_pow₀ (by rw [le_div_iff₀ hρ]; linarith)
      have h3 := mul_le_mul_of_nonneg_left h2 (by positivity : 0 ≤ B + |M|)
      have e3 : (B + |M|) * (θ.h * W / ρ) ^ 4 = (B + |M|) * (W / ρ) ^ 4 * θ.h ^ 4 := by ring
      linarith
  rw [← mul_sub, abs_mul, abs_of_nonneg hh]
  calc θ.h * _ ≤ θ.h * ((C * W ^ 4 + (B + |M|) * (W / ρ) ^ 4) * θ.h ^ 4) := mul_le_mul_of_nonneg_left q hh
    _ = _ := by ring

end

/-- a polynomial that satisfies the equation up to `E` stays near the solution. -/
theorem quart_near' {F : (Fin n → ℝ) → Fin n → ℝ} {y : ℝ → Fin n → ℝ} (hy : SolOn F y t0 te)
    {t h : ℝ} (ht : t0 ≤ t) (hh : 0 ≤ h) (hte : t + h ≤ te) {c1 c2 c3 c4 : Fin n → ℝ} {K E : ℝ}
    (hK : 0 ≤ K) (hE : 0 ≤ E)
    (hL : ∀ s, 0 ≤ s → s ≤ h → ‖F (quart (y t) c1 c2 c3 c4 s) - F (y (t + s))‖ ≤ K * ‖quart (y t) c1 c2 c3 c4 s - y (t + s)‖)
    (hd : ∀ s, 0 ≤ s → s ≤ h → ‖quart' c1 c2 c3 c4 s - F (quart (y t) c1 c2 c3 c4 s)‖ ≤ E) :
    ‖quart (y t) c1 c2 c3 c4 h - y (t + h)‖ ≤ E * h * Real.exp (K * h) := by
  have hD : ∀ s ∈ Set.Icc 0 h, HasDerivWithinAt (fun s => y (t + s)) (F (y (t + s))) (Set.Icc 0 h) s := by
    intro s hs
    have h1 := hy (t + s) ⟨by linarith [hs.1], by linarith [hs.2]⟩
    have h2 : HasDerivWithinAt (fun s : ℝ => t + s) 1 (Set.Icc 0 h) s :=
      ((hasDerivAt_id s).const_add t).hasDerivWithinAt
    have h3 := h1.scomp s h2 (fun x hx => ⟨by linarith [hx.1], by linarith [hx.2]⟩)
    rw [one_smul] at h3
    exact h3
  have hQ := fun s => hasDerivAt_quart (y t) c1 c2 c3 c4 s
  have key := norm_le_gronwallBound_of_norm_deriv_right_le
    (f := fun s => quart (y t) c1 c2 c3 c4 s - y (t + s))
    (f' := fun s => quart' c1 c2 c3 c4 s - F (y (t + s))) (δ := 0) (K := K) (ε := E) (a := 0) (b := h)
    (fun s hs => ((hQ s).continuousAt.continuousWithinAt).sub (hD s hs).continuousWithinAt)
    (fun s hs => by
      have h1 := hD s ⟨hs.1, hs.2.le⟩
      have h2 : Set.Icc 0 h ∈ nhdsWithin s (Set.Ici s) :=
        Filter.mem_of_superset (Icc_mem_nhdsGE hs.2) (Set.Icc_subset_Icc_left hs.1)
      exact (hQ s).hasDerivWithinAt.sub (h1.mono_of_mem_nhdsWithin h2))
    (by
      have e : quart (y t) c1 c2 c3 c4 0 = y t := by funext i; simp [quart]
      simp [e])
    (fun s hs => by
      have e : quart' c1 c2 c3 c4 s - F (y (t + s))
          = (F (quart (y t) c1 c2 c3 c4 s) - F (y (t + s)))
            + (quart' c1 c2 c3 c4 s - F (quart (y t) c1 c2 c3 c4 s)) := by abel
      rw [e]
      exact (norm_add_le _ _).trans (add_le_add (hL s hs.1 hs.2.le) (hd s hs.1 hs.2.le)))
    h ⟨hh, le_rfl⟩
  rw [sub_zero] at key
  exact key.trans (gronwall_le hK hE hh)

section

variable {f : (Fin n → ℝ) → Fin n → ℝ} {y : ℝ → Fin n → ℝ} {ρ : ℝ} (S : Smooth4 f y t0 te ρ)

include S

/-- the truncated series is the solution, up to a multiple of `h^5`. -/
theorem Smooth4.flow {R : ℝ} (hR : ∀ t ∈ Set.Icc t0 te, ‖y t‖ ≤ R) :
    ∃ p : Fin n → bdd (Steps t0 te), (∀ i, cls _ (p i) = (S.D hR).flow i) ∧
      ∃ C : ℝ, 0 ≤ C ∧ ∀ (θ : Steps t0 te) i, |(p i).1 θ - y (θ.t + θ.h) i| ≤ C * θ.h ^ 5 := by
  obtain ⟨D, hDd⟩ : ∃ D, D = S.D hR := ⟨_, rfl⟩
  have hD : D.Inside (Odes.timeOnly t0 te) := by rw [hDd]; exact S.inside hR
  rw [← hDd]
  choose w1 w2 w3 w4 using fun i => inside_v hD i
  choose g1 u1 a1 b1 using w1
  choose g2 u2 a2 b2 using w2
  choose g3 u3 a3 b3 using w3
  choose g4 u4 a4 b4 using w4
  obtain ⟨q, hq⟩ : ∃ q : Fin n → bdd (Steps t0 te), q = fun i => u1 i
    + hB t0 te * u2 i + hB t0 te ^ 2 * u3 i + hB t0 te ^ 3 * u4 i := ⟨_, rfl⟩
  obtain ⟨p, hp⟩ : ∃ p : Fin n → bdd (Steps t0 te), p = fun i => yB hR i + hB t0 te * q i := ⟨_, rfl⟩
  have hflow : D.flow = (fun i => cls (hB t0 te) (yB hR i)) + cls (hB t0 te) (hB t0 te) • fun i => cls (hB t0 te) (q i) := by
    funext i
    simp only [hq, map_add, map_mul, map_pow, b1, b2, b3, b4, Taylor.flow, Pi.add_apply, Pi.smul_apply, smul_eq_mul]
    ring
  have hcls : ∀ i, cls (hB t0 te) (p i) = D.flow i := by
    intro i
    rw [hflow]
    simp only [hp, map_add, map_mul, Pi.add_apply, Pi.smul_apply, smul_eq_mul]
  refine ⟨p, hcls, ?_⟩
  obtain ⟨b, hb1, hb2⟩ := S.lift hR q
  have hpv : ∀ θ : Steps t0 te, (fun j => y θ.t j + θ.h * (q j).1 θ) = fun i => (p i).1 θ := by
    intro θ
    rw [hp]
    rfl
  have hval : ∀ θ : Steps t0 te, (fun i => (p i).1 θ)
      = quart (y θ.t) (fun i => g1 i θ.t) (fun i => g2 i θ.t) (fun i => g3 i θ.t) (fun i => g4 i θ.t) θ.h := by
    intro θ
    funext i
    rw [hp, hq]
    show y θ.t i + θ.h * ((u1 i).1 θ + θ.h * (u2 i).1 θ + θ.h ^ 2 * (u3 i).1 θ + θ.h ^ 3 * (u4 i).1 θ) = _
    rw [a1, a2, a3, a4, quart]
    ring
  have hode : ∀ i, ∃ C, ∀ θ : Steps t0 te, |θ.h * g1 i θ.t + 2 * θ.h ^ 2 * g2 i θ.t
      + 3 * θ.h ^ 3 * g3 i θ.t + 4 * θ.h ^ 4 * g4 i θ.t
      - θ.h * cut (tube y t0 te ρ) f (fun i => (p i).1 θ) i| ≤ C * |θ.h| ^ 5 := by
    intro i
    have e := congrFun (D.flow_exact (eps_pow _)) i
    rw [hflow] at e
    simp only [Pi.add_apply, Pi.smul_apply, smul_eq_mul, ← b1, ← b2, ← b3, ← b4] at e
    rw [← hb2 i] at e
    simp only [← map_mul, ← map_pow, ← map_add, ← map_ofNat (cls (hB t0 te))] at e
    obtain ⟨C, hC⟩ := cls_eq.1 e
    refine ⟨C, fun θ => ?_⟩
    have h1 := hC θ
    have h2 := hb1 θ i
    rw [hpv] at h2
    rw [← h2, ← a1, ← a2, ← a3, ← a4]
    exact h1
  choose C hC using hode
  have hslope : ∀ (θ : Steps t0 te) i, θ.h = 0 → g1 i θ.t = f (y θ.t) i := by
    intro θ i h0
    have e : cls (hB t0 te) (u1 i) = cls (hB t0 te) (co0 f y i) := by
      rw [b1, hDd]; rfl
    obtain ⟨C, hC⟩ := cls_eq.1 e
    have h1 := hC θ
    rw [show (hB t0 te).1 θ = θ.h from rfl, h0, co0, S.along (S.sm i) θ, a1] at h1
    have h2 : |g1 i θ.t - f (y θ.t) i| ≤ 0 := by
      refine h1.trans (le_of_eq ?_)
      simp
    exact sub_eq_zero.1 (abs_eq_zero.1 (le_antisymm h2 (abs_nonneg _)))
  obtain ⟨W, W0, hW⟩ := bound_common q
  obtain ⟨B, B0, hB1⟩ := S.f_bound
  obtain ⟨Λ, l0, hΛ⟩ := tube_lip S.sol fun x hx => (S.diff x hx).of_le (by norm_num)
  have hρ := S.pos
  have hC0 : ∀ i, |C i| ≤ ∑ j, |C j| := fun i =>
    Finset.single_le_sum (f := fun j => |C j|) (fun j _ => abs_nonneg _) (Finset.mem_univ i)
  have hCs : 0 ≤ ∑ j, |C j| := Finset.sum_nonneg fun j _ => abs_nonneg _
  have hpn : ∀ θ : Steps t0 te, ‖(fun i => (p i).1 θ) - y θ.t‖ ≤ W * θ.h := by
    intro θ
    have hh := θ.pos
    rw [pi_norm_le_iff_of_nonneg (by positivity)]
    intro i
    rw [← hpv]
    have e : ((fun j => y θ.t j + θ.h * (q j).1 θ) - y θ.t) i = (q i).1 θ * θ.h := by
      simp only [Pi.sub_apply]; ring
    rw [e, Real.norm_eq_abs, abs_mul, abs_of_nonneg hh]
    exact mul_le_mul_of_nonneg_right (hW i θ) hh
  have hyn : ∀ θ : Steps t0 te, ‖y (θ.t + θ.h) - y θ.t‖ ≤ B * θ.h := fun θ =>
    sol_slow S.sol (fun t ht => hB1 _ (S.on ht)) θ.ge θ.pos θ.fits
  refine ⟨(∑ j, |C j|) * Real.exp Λ + (W + B) * ((W + B) / ρ) ^ 5, by positivity, fun θ i => ?_⟩
  have hh := θ.pos
  have n1 : 0 ≤ (W + B) * ((W + B) / ρ) ^ 5 * θ.h ^ 5 := by positivity
  have n2 : 0 ≤ (∑ j, |C j|) * Real.exp Λ * θ.h ^ 5 := by positivity
  by_cases hsm : (W + B) * θ.h ≤ ρ
  · have sub : ∀ s, 0 ≤ s → s ≤ θ.h → ∃ θ' : Steps t0 te, θ'.t = θ.t ∧ θ'.h = s := fun s h1 h2 =>
      ⟨⟨θ.t, s, θ.ge, h1, h2.trans θ.le, by linarith [θ.fits]⟩, rfl, rfl⟩
    have near : ∀ s, 0 ≤ s → s ≤ θ.h → (W + B) * s ≤ ρ := fun s _ h2 =>
      (mul_le_mul_of_nonneg_left h2 (by positivity)).trans hsm
    have hq1 : ∀ s, 0 ≤ s → s ≤ θ.h → ‖quart (y θ.t) (fun i => g1 i θ.t) (fun i => g2 i θ.t) (fun i => g3 i θ.t)
        (fun i => g4 i θ.t) s - y θ.t‖ ≤ ρ := by
      intro s h1 h2
      obtain ⟨θ', e1, e2⟩ := sub s h1 h2
      have h3 := hpn θ'
      rw [hval, e1, e2] at h3
      have := near s h1 h2
      have := mul_nonneg B0 h1
      linarith
    have main := quart_near' S.sol θ.ge θ.pos θ.fits (c1 := fun i => g1 i θ.t) (c2 := fun i => g2 i θ.t)
      (c3 := fun i => g3 i θ.t) (c4 := fun i => g4 i θ.t) (K := Λ)
      (E := (∑ j, |C j|) * θ.h ^ 4) l0 (by positivity)
      (fun s h1 h2 => by
        refine hΛ θ.t θ.mem _ _ (hq1 s h1 h2) ?_
        obtain ⟨θ', e1, e2⟩ := sub s h1 h2
        have h3 := hyn θ'
        rw [e1, e2] at h3
        have := near s h1 h2
        have := mul_nonneg W0 h1
        linarith)
      (fun s hs1 hs2 => by
        rw [pi_norm_le_iff_of_nonneg (by positivity)]
        intro i
        rw [Real.norm_eq_abs, Pi.sub_apply]
        obtain ⟨θ', e1, e2⟩ := sub s hs1 hs2
        have hv := hval θ'
        have h1 := hC i θ'
        have h2 := hslope θ' i
        rw [hv, e1, e2, S.cut_eq θ.mem (hq1 s hs1 hs2), abs_of_nonneg hs1] at h1
        rw [e1, e2] at h2
        rcases hs1.eq_or_lt with h0 | h0
        · have h3 := h2 h0.symm
          rw [← h0]
          simp only [quart']
          have e : quart (y θ.t) (fun i => g1 i θ.t) (fun i => g2 i θ.t) (fun i => g3 i θ.t)
              (fun i => g4 i θ.t) 0 = y θ.t := by funext i; simp [quart]
          rw [e, h3]
          simp
          positivity
        · have e : s * g1 i θ.t + 2 * s ^ 2 * g2 i θ.t + 3 * s ^ 3 * g3 i θ.t + 4 * s ^ 4 * g4 i θ.t
              - s * f (quart (y θ.t) (fun i => g1 i θ.t) (fun i => g2 i θ.t)
                (fun i => g3 i θ.t) (fun i => g4 i θ.t) s) i
              = s * (quart' (fun i => g1 i θ.t) (fun i => g2 i θ.t) (fun i => g3 i θ.t)
                (fun i => g4 i θ.t) s i - f (quart (y θ.t) (fun i => g1 i θ.t)
                (fun i => g2 i θ.t) (fun i => g3 i θ.t) (fun i => g4 i θ.t) s) i) := by
            simp only [quart']; ring
          rw [e, abs_mul, abs_of_pos h0] at h1
          have h4 : C i * s ^ 5 ≤ s * ((∑ j, |C j|) * θ.h ^ 4) := by
            have q1 : C i ≤ ∑ j, |C j| := (le_abs_self _).trans (hC0 i)
            have q2 : s ^ 4 ≤ θ.h ^ 4 := pow_le_pow_left₀ hs1 hs2 4
            have q3 : C i * s ^ 4 ≤ (∑ j, |C j|) * θ.h ^ 4 :=
              mul_le_mul q1 q2 (by positivity) hCs
            calc C i * s ^ 5 = s * (C i * s ^ 4) := by ring
              _ ≤ _ := mul_le_mul_of_nonneg_left q3 hs1
          exact le_of_mul_le_mul_left (h1.trans h4) h0)
    rw [← hval] at main
    have h1 := (norm_le_pi_norm ((fun i => (p i).1 θ) - y (θ.t + θ.h)) i).trans main
    rw [Real.norm_eq_abs, Pi.sub_apply] at h1
    refine h1.trans ?_
    have h2 : Real.exp (Λ * θ.h) ≤ Real.exp Λ := by
      refine Real.exp_le_exp.2 ?_
      have := mul_le_mul_of_nonneg_left θ.le l0
      linarith
    have h3 : (∑ j, |C j|) * θ.h ^ 4 * θ.h * Real.exp (Λ * θ.h) ≤ (∑ j, |C j|) * θ.h ^ 4 * θ.h * Real.exp Λ :=
      mul_le_mul_of_nonneg_left h2 (by positivity)
    have e4 : (∑ j, |C j|) * θ.h ^ 4 * θ.h * Real.exp Λ = (∑ j, |C j|) * Real.exp Λ * θ.h ^ 5 := by ring
    linarith
  · have h1 : |(p i).1 θ - y (θ.t + θ.h) i| ≤ (W + B) := by
      have h2 := norm_le_pi_norm ((fun i => (p i).1 θ) - y (θ.t + θ.h)) i
      rw [Real.norm_eq_abs, Pi.sub_apply] at h2
      refine h2.trans ?_
      have e : (fun i => (p i).1 θ) - y (θ.t + θ.h) = ((fun i => (p i).1 θ) - y θ.t) - (y (θ.t + θ.h) - y θ.t) := by abel
      rw [e]
      refine (norm_sub_le _ _).trans ?_
      have h3 := hpn θ
      have h4 := hyn θ
      have h5 := mul_le_mul_of_nonneg_left θ.le W0
      have h6 := mul_le_mul_of_nonneg_left θ.le B0
      linarith
    have h2 : (1 : ℝ) ≤ ((W + B) * θ.h / ρ) ^ 5 := one_le_pow₀ (by rw [le_div_iff₀ hρ]; linarith)
    have h3 := mul_le_mul_of_nonneg_left h2 (by positivity : 0 ≤ W + B)
    have e3 : (W + B) * ((W + B) * θ.h / ρ) ^ 5 = (W + B) * ((W + B) / ρ) ^ 5 * θ.h ^ 5 := by ring
    linarith

/-- the error of one step that starts on the solution; `D0` bounds the elementary differentials. -/
theorem Smooth4.local_error {R : ℝ} (hR : ∀ t ∈ Set.Icc t0 te, ‖y t‖ ≤ R) {η D0 : ℝ} (hD0 : 0 ≤ D0)
    (hel : ∀ t ∈ Set.Icc t0 te, ∀ k i, |elemF f (y t) k i| ≤ D0)
    (φ : Fin n → bdd (Steps t0 te)) (δ : W8 ℝ) (hδ : Below η δ)
    (hφ' : (fun i => cls (hB t0 te) (φ i)) = (S.D hR).flow + cls (hB t0 te) (hB t0 te) • (S.D hR).ser (δ.map cst)) :
    ∃ C : ℝ, 0 ≤ C ∧ ∀ θ : Steps t0 te,
      ‖(fun i => (φ i).1 θ) - y (θ.t + θ.h)‖ ≤ C * θ.h ^ 5 + 8 * η * D0 * θ.h := by
  obtain ⟨p, hp, Cp, cp0, hCp⟩ := S.flow hR
  let e : Fin 8 → Fin n → bdd (Steps t0 te) := elemC (co0 f y) (co1 f y) (co2 f y) (co3 f y)
  have eb : ∀ k i (θ : Steps t0 te), |(e k i).1 θ| ≤ D0 := by
    intro k i θ
    have h1 : (e k i).1 θ = elemF f (y θ.t) k i := by
      refine (elemC_hom (ev θ : bdd (Steps t0 te) →+* ℝ) _ _ _ _ k i).trans ?_
      unfold elemF
      congr 1
      · exact funext fun i => S.along (S.sm i) θ
      · exact funext fun i => funext fun j => S.along (S.sm1 i j) θ
      · exact funext fun i => funext fun k => funext fun j => S.along (S.sm2 i j k) θ
      · exact funext fun i => funext fun l => funext fun k => funext fun j => S.along (S.sm3 i j k l) θ
    rw [h1]
    exact hel θ.t θ.mem k i
  have hk := elemC_hom (cls (hB t0 te) : bdd (Steps t0 te) →+* Q (hB t0 te)) (co0 f y) (co1 f y) (co2 f y) (co3 f y)
  have b1 : ∀ i, cls (hB t0 te) (e 0 i) = (S.D hR).f i := fun i => hk 0 i
  have b2 : ∀ i, cls (hB t0 te) (e 1 i) = (S.D hR).f1 (S.D hR).f i := fun i => hk 1 i
  have b3 : ∀ i, cls (hB t0 te) (e 2 i) = (S.D hR).f2 (S.D hR).f (S.D hR).f i := fun i => hk 2 i
  have b4 : ∀ i, cls (hB t0 te) (e 3 i) = (S.D hR).f1 ((S.D hR).f1 (S.D hR).f) i := fun i => hk 3 i
  have b5 : ∀ i, cls (hB t0 te) (e 4 i) = (S.D hR).f3 (S.D hR).f (S.D hR).f (S.D hR).f i := fun i => hk 4 i
  have b6 : ∀ i, cls (hB t0 te) (e 5 i) = (S.D hR).f2 (S.D hR).f ((S.D hR).f1 (S.D hR).f) i := fun i => hk 5 i
  have b7 : ∀ i, cls (hB t0 te) (e 6 i) = (S.D hR).f1 ((S.D hR).f2 (S.D hR).f (S.D hR).f) i := fun i => hk 6 i
  have b8 : ∀ i, cls (hB t0 te) (e 7 i) = (S.D hR).f1 ((S.D hR).f1 ((S.D hR).f1 (S.D hR).f)) i := fun i => hk 7 i
  let c : ℝ → bdd (Steps t0 te) := fun r => algebraMap ℝ _ r
  have hc : ∀ r, cls (hB t0 te) (c r) = cst r := fun r => AlgHom.commutes _ r
  have key : ∀ i, cls (hB t0 te) (φ i) = cls (hB t0 te) (p i + hB t0 te * (c δ.t1 * e 0 i
      + hB t0 te * c δ.t2 * e 1 i
      + hB t0 te ^ 2 * (c δ.t3 * c (1 / 2) * e 2 i + c δ.t4 * e 3 i)
      + hB t0 te ^ 3 * (c δ.t5 * c (1 / 6) * e 4 i + c δ.t6 * e 5 i + c δ.t7 * c (1 / 2) * e 6 i
        + c δ.t8 * e 7 i))) := by
    intro i
    rw [congrFun hφ' i]
    simp only [map_add, map_mul, map_pow, hc, hp, b1, b2, b3, b4, b5, b6, b7, b8, Taylor.ser, W8.map,
      Pi.add_apply, Pi.smul_apply, smul_eq_mul]
  obtain ⟨C0, c00, hC0⟩ := const_common (p := fun i C => ∀ θ : Steps t0 te,
      |(φ i).1 θ - ((p i).1 θ + θ.h * (δ.t1 * (e 0 i).1 θ + θ.h * δ.t2 * (e 1 i).1 θ
        + θ.h ^ 2 * (δ.t3 * (1 / 2) * (e 2 i).1 θ + δ.t4 * (e 3 i).1 θ)
        + θ.h ^ 3 * (δ.t5 * (1 / 6) * (e 4 i).1 θ + δ.t6 * (e 5 i).1 θ + δ.t7 * (1 / 2) * (e 6 i).1 θ
          + δ.t8 * (e 7 i).1 θ)))| ≤ C * |θ.h| ^ 5)
    (fun i C D' hCD h θ => (h θ).trans (mul_le_mul_of_nonneg_right hCD (by positivity)))
    (fun i => cls_eq.1 (key i))
  refine ⟨C0 + Cp, by positivity, fun θ => ?_⟩
  have hη : 0 ≤ η := (abs_nonneg _).trans hδ.1
  have hh := θ.pos
  rw [pi_norm_le_iff_of_nonneg (by positivity)]
  intro i
  exact parts_le hh (hC0 i θ) (hCp θ i) (defect_le hδ hh θ.le (e := fun k => (e k i).1 θ) fun k => eb k i θ)

end

end

end Odes
