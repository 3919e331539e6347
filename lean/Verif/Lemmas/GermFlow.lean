import Verif.Lemmas.Germ
import Verif.Lemmas.GenHom
import Verif.Spec.PolyField
import Mathlib.Analysis.ODE.Gronwall
import Mathlib.Topology.Order.Compact
import Mathlib.Analysis.Normed.Group.Bounded
import Mathlib.Analysis.Calculus.Deriv.Prod
import Mathlib.Analysis.Calculus.Deriv.Polynomial
import Mathlib.Analysis.Calculus.Deriv.Pow
import Mathlib.Analysis.Calculus.Deriv.Add
import Mathlib.Analysis.Calculus.Deriv.Comp
import Mathlib.Analysis.Calculus.Deriv.Shift

/-!
# The truncated Taylor series of the solution and the solution itself
-/

namespace Odes

noncomputable section

open Spec Germ

variable {n : ℕ}

/-! ### polynomial fields and homomorphisms -/

theorem polyField_hom {A B : Type} [CommRing A] [Algebra ℝ A] [CommRing B] [Algebra ℝ B]
    (φ : A →ₐ[ℝ] B) (P : Fin n → MvPolynomial (Fin n) ℝ) (v : Fin n → A) (i : Fin n) :
    polyField P (fun j => φ (v j)) i = φ (polyField P v i) := by
  simp only [polyField]
  rw [← AlgHom.comp_apply, MvPolynomial.comp_aeval]

theorem aeval_hom {A B : Type} [CommRing A] [Algebra ℝ A] [CommRing B] [Algebra ℝ B]
    (φ : A →ₐ[ℝ] B) (p : MvPolynomial (Fin n) ℝ) (v : Fin n → A) :
    MvPolynomial.aeval (fun j => φ (v j)) p = φ (MvPolynomial.aeval v p) := by
  rw [← AlgHom.comp_apply, MvPolynomial.comp_aeval]

theorem step_algHom {A B : Type} [CommRing A] [Algebra ℝ A] [CommRing B] [Algebra ℝ B]
    (φ : A →ₐ[ℝ] B) (P : Fin n → MvPolynomial (Fin n) ℝ) (R : Gen.Formula ℝ) (h : A) (v : Fin n → A)
    (i : Fin n) :
    Gen.step (R.map cst) (polyField P) (φ h) (fun j => φ (v j)) i
      = φ (Gen.step (R.map cst) (polyField P) h v i) := by
  have e := Gen.step_hom (φ := φ) (F := polyField P) (G := polyField P)
    (fun a b => map_add φ a b) (fun a b => map_mul φ a b)
    (fun a b => map_sub φ a b) (map_one φ)
    (fun v i => polyField_hom φ P v i) (R.map cst) h v i
  rw [← e]
  have : (R.map (cst (J := A))).map φ = R.map (cst (J := B)) := by
    simp [Gen.Formula.map, cst]
  rw [this]

theorem formula_cst (R : Gen.Formula ℝ) : R.map (cst (J := ℝ)) = R := rfl

/-! ### functions that are bounded and Lipschitz on bounded sets -/

/-- functions of a step length in `[0, 1]` and a vector, bounded and Lipschitz in the vector on every
ball. -/
def loc (n : ℕ) : Subalgebra ℝ (ℝ × (Fin n → ℝ) → ℝ) where
  carrier := {g | ∀ R, ∃ L, 0 ≤ L ∧ ∀ h u v, 0 ≤ h → h ≤ 1 → ‖u‖ ≤ R → ‖v‖ ≤ R →
    |g (h, u)| ≤ L ∧ |g (h, u) - g (h, v)| ≤ L * ‖u - v‖}
  mul_mem' := by
    intro g k hg hk R
    obtain ⟨L, l0, hL⟩ := hg R
    obtain ⟨M, m0, hM⟩ := hk R
    refine ⟨2 * L * M, by positivity, fun h u v h0 h1 hu hv => ?_⟩
    obtain ⟨a1, a2⟩ := hL h u v h0 h1 hu hv
    obtain ⟨b1, b2⟩ := hM h u v h0 h1 hu hv
    obtain ⟨c1, -⟩ := hL h v v h0 h1 hv hv
    constructor
    · rw [Pi.mul_apply, abs_mul]
      have := mul_le_mul a1 b1 (abs_nonneg _) l0
      have : 0 ≤ L * M := by positivity
      linarith
    · have e : (g * k) (h, u) - (g * k) (h, v)
          = (g (h, u) - g (h, v)) * k (h, u) + g (h, v) * (k (h, u) - k (h, v)) := by
        simp only [Pi.mul_apply]; ring
      rw [e]
      refine (abs_add_le _ _).trans ?_
      rw [abs_mul, abs_mul]
      have p1 := mul_le_mul a2 b1 (abs_nonneg _) (by positivity)
      have p2 := mul_le_mul c1 b2 (abs_nonneg _) l0
      linarith
  add_mem' := by
    intro g k hg hk R
    obtain ⟨L, l0, hL⟩ := hg R
    obtain ⟨M, m0, hM⟩ := hk R
    refine ⟨L + M, by positivity, fun h u v h0 h1 hu hv => ?_⟩
    obtain ⟨a1, a2⟩ := hL h u v h0 h1 hu hv
    obtain ⟨b1, b2⟩ := hM h u v h0 h1 hu hv
    constructor
    · exact (abs_add_le _ _).trans (add_le_add a1 b1)
    · have e : (g + k) (h, u) - (g + k) (h, v)
          = (g (h, u) - g (h, v)) + (k (h, u) - k (h, v)) := by
        simp only [Pi.add_apply]; ring
      rw [e, add_mul]
      exact (abs_add_le _ _).trans (add_le_add a2 b2)
  algebraMap_mem' := by
    intro r R
    refine ⟨|r|, abs_nonneg _, fun h u v _ _ _ _ => ⟨le_of_eq rfl, ?_⟩⟩
    show |r - r| ≤ _
    rw [sub_self, abs_zero]
    positivity

/-- the value at a point. -/
def locEv (x : ℝ × (Fin n → ℝ)) : loc n →ₐ[ℝ] ℝ :=
  (Pi.evalAlgHom ℝ (fun _ : ℝ × (Fin n → ℝ) => ℝ) x).comp (loc n).val

/-- the step length as such a function. -/
def locH : loc n := ⟨fun x => x.1, fun R => ⟨1, by norm_num, fun h u v h0 h1 _ _ => ⟨by
  show |h| ≤ 1
  rw [abs_of_nonneg h0]; exact h1, by simp⟩⟩⟩

/-- the coordinates. -/
def locY (i : Fin n) : loc n := ⟨fun x => x.2 i, fun R => ⟨|R| + 1, by positivity,
  fun h u v _ _ hu _ => ⟨by
    have := norm_le_pi_norm u i
    rw [Real.norm_eq_abs] at this
    show |u i| ≤ _
    linarith [le_abs_self R], by
    have := norm_le_pi_norm (u - v) i
    rw [Real.norm_eq_abs, Pi.sub_apply] at this
    show |u i - v i| ≤ _
    have h2 : 0 ≤ |R| * ‖u - v‖ := by positivity
    linarith⟩⟩⟩

/-- finitely many of them have a common constant. -/
theorem loc_const (g : Fin n → loc n) (R : ℝ) : ∃ L, 0 ≤ L ∧ ∀ h u v, 0 ≤ h → h ≤ 1 → ‖u‖ ≤ R →
    ‖v‖ ≤ R → ‖fun i => (g i).1 (h, u)‖ ≤ L ∧
      ‖(fun i => (g i).1 (h, u)) - fun i => (g i).1 (h, v)‖ ≤ L * ‖u - v‖ := by
  choose L l0 hL using fun i => (g i).2 R
  refine ⟨∑ i, L i, Finset.sum_nonneg fun i _ => l0 i, fun h u v h0 h1 hu hv => ?_⟩
  have hle : ∀ i, L i ≤ ∑ j, L j := fun i =>
    Finset.single_le_sum (f := L) (fun j _ => l0 j) (Finset.mem_univ i)
  have hS : 0 ≤ ∑ j, L j := Finset.sum_nonneg fun i _ => l0 i
  constructor
  · rw [pi_norm_le_iff_of_nonneg hS]
    intro i
    rw [Real.norm_eq_abs]
    exact (hL i h u v h0 h1 hu hv).1.trans (hle i)
  · rw [pi_norm_le_iff_of_nonneg (by positivity)]
    intro i
    rw [Real.norm_eq_abs, Pi.sub_apply]
    exact (hL i h u v h0 h1 hu hv).2.trans (mul_le_mul_of_nonneg_right (hle i) (norm_nonneg _))

/-- a polynomial field is Lipschitz on every ball. -/
theorem polyField_lip (P : Fin n → MvPolynomial (Fin n) ℝ) (R : ℝ) : ∃ L, 0 ≤ L ∧
    ∀ u v : Fin n → ℝ, ‖u‖ ≤ R → ‖v‖ ≤ R → ‖polyField P u‖ ≤ L ∧
      ‖polyField P u - polyField P v‖ ≤ L * ‖u - v‖ := by
  obtain ⟨L, l0, hL⟩ := loc_const (fun i => polyField P (locY (n := n)) i) R
  have e : ∀ u : Fin n → ℝ, (fun i => (polyField P (locY (n := n)) i).1 (0, u)) = polyField P u := by
    intro u
    funext i
    exact (polyField_hom (locEv (n := n) (0, u)) P locY i).symm
  refine ⟨L, l0, fun u v hu hv => ?_⟩
  have := hL 0 u v le_rfl zero_le_one hu hv
  rw [e u, e v] at this
  exact this

/-! ### steps along a solution -/

/-- a step that starts at `t` and has the length `h`, inside `[t0, te]`. -/
structure Steps (t0 te : ℝ) where
  t : ℝ
  h : ℝ
  ge : t0 ≤ t
  pos : 0 ≤ h
  le : h ≤ 1
  fits : t + h ≤ te

variable {t0 te : ℝ}

/-- its length. -/
def hB (t0 te : ℝ) : bdd (Steps t0 te) :=
  ⟨fun θ => θ.h, 1, fun θ => by rw [abs_of_nonneg θ.pos]; exact θ.le⟩

/-- a function of the starting time. -/
def tB (g : ℝ → ℝ) {M : ℝ} (hg : ∀ t ∈ Set.Icc t0 te, |g t| ≤ M) : bdd (Steps t0 te) :=
  ⟨fun θ => g θ.t, M, fun θ => hg _ ⟨θ.ge, by linarith [θ.pos, θ.fits]⟩⟩

/-- the classes of functions of the starting time. -/
def timeOnly (t0 te : ℝ) : Subalgebra ℝ (Q (hB t0 te)) where
  carrier := {x | ∃ (g : ℝ → ℝ) (u : bdd (Steps t0 te)), (∀ θ, u.1 θ = g θ.t) ∧ cls _ u = x}
  mul_mem' := by
    rintro _ _ ⟨g, u, hu, rfl⟩ ⟨k, v, hv, rfl⟩
    exact ⟨fun t => g t * k t, u * v, fun θ => by
      show u.1 θ * v.1 θ = _
      rw [hu, hv], map_mul _ _ _⟩
  add_mem' := by
    rintro _ _ ⟨g, u, hu, rfl⟩ ⟨k, v, hv, rfl⟩
    exact ⟨fun t => g t + k t, u + v, fun θ => by
      show u.1 θ + v.1 θ = _
      rw [hu, hv], map_add _ _ _⟩
  algebraMap_mem' := fun r => ⟨fun _ => r, algebraMap ℝ _ r, fun _ => rfl, by
    rw [AlgHom.commutes]⟩

theorem gronwall_le {K ε x : ℝ} (hK : 0 ≤ K) (hε : 0 ≤ ε) (hx : 0 ≤ x) :
    gronwallBound 0 K ε x ≤ ε * x * Real.exp (K * x) := by
  rcases hK.eq_or_lt with rfl | hK
  · simp [gronwallBound]
  · rw [gronwallBound_of_K_ne_0 hK.ne']
    simp only [zero_mul, zero_add]
    have h1 := Real.add_one_le_exp (-(K * x))
    have h2 : Real.exp (K * x) - 1 ≤ K * x * Real.exp (K * x) := by
      have h3 := mul_le_mul_of_nonneg_right h1 (Real.exp_pos (K * x)).le
      rw [← Real.exp_add, neg_add_cancel, Real.exp_zero] at h3
      linarith
    calc ε / K * (Real.exp (K * x) - 1) ≤ ε / K * (K * x * Real.exp (K * x)) :=
          mul_le_mul_of_nonneg_left h2 (by positivity)
      _ = ε * x * Real.exp (K * x) := by field_simp

/-- the solution at the beginning of a step. -/
def yB {y : ℝ → Fin n → ℝ} {R : ℝ} (hR : ∀ t ∈ Set.Icc t0 te, ‖y t‖ ≤ R) (i : Fin n) :
    bdd (Steps t0 te) :=
  tB (fun t => y t i) (M := R) fun t ht => by
    have := norm_le_pi_norm (y t) i
    rw [Real.norm_eq_abs] at this
    exact this.trans (hR t ht)

theorem yB_timeOnly {y : ℝ → Fin n → ℝ} {R : ℝ} (hR : ∀ t ∈ Set.Icc t0 te, ‖y t‖ ≤ R) (i : Fin n) :
    cls (hB t0 te) (yB hR i) ∈ timeOnly t0 te :=
  ⟨fun t => y t i, yB hR i, fun _ => rfl, rfl⟩

theorem inside_v {ε : Q (hB t0 te)} {F : (Fin n → Q (hB t0 te)) → Fin n → Q (hB t0 te)}
    {y : Fin n → Q (hB t0 te)} {D : Taylor ε F y} {S : Subalgebra ℝ (Q (hB t0 te))} (hD : D.Inside S)
    (i : Fin n) : D.v1 i ∈ S ∧ D.v2 i ∈ S ∧ D.v3 i ∈ S ∧ D.v4 i ∈ S := by
  have c : ∀ r : ℝ, (cst r : Q (hB t0 te)) ∈ S := fun r => S.algebraMap_mem r
  have a1 := hD.f1 _ hD.f
  have a2 := hD.f2 _ _ hD.f hD.f
  have a3 := hD.f1 _ a1
  have a4 := hD.f3 _ _ _ hD.f hD.f hD.f
  have a5 := hD.f2 _ _ hD.f a1
  have a6 := hD.f1 _ a2
  have a7 := hD.f1 _ a3
  exact ⟨hD.f i, S.mul_mem (c _) (a1 i), S.mul_mem (c _) (S.add_mem (a2 i) (a3 i)),
    S.mul_mem (c _) (S.add_mem (S.add_mem (S.add_mem (a4 i) (S.mul_mem (c _) (a5 i))) (a6 i)) (a7 i))⟩

/-- the polynomial with given coefficients. -/
def quart (c0 c1 c2 c3 c4 : Fin n → ℝ) (s : ℝ) : Fin n → ℝ :=
  fun i => c0 i + s * c1 i + s ^ 2 * c2 i + s ^ 3 * c3 i + s ^ 4 * c4 i

/-- its derivative. -/
def quart' (c1 c2 c3 c4 : Fin n → ℝ) (s : ℝ) : Fin n → ℝ :=
  fun i => c1 i + 2 * s * c2 i + 3 * s ^ 2 * c3 i + 4 * s ^ 3 * c4 i

theorem hasDerivAt_quart (c0 c1 c2 c3 c4 : Fin n → ℝ) (s : ℝ) :
    HasDerivAt (quart c0 c1 c2 c3 c4) (quart' c1 c2 c3 c4 s) s := by
  rw [hasDerivAt_pi]
  intro i
  have h := (((((hasDerivAt_id s).mul_const (c1 i)).const_add (c0 i)).add
    ((hasDerivAt_pow 2 s).mul_const (c2 i))).add ((hasDerivAt_pow 3 s).mul_const (c3 i))).add
    ((hasDerivAt_pow 4 s).mul_const (c4 i))
  have e : quart' c1 c2 c3 c4 s i = 1 * c1 i + ((2 : ℕ) : ℝ) * s ^ (2 - 1) * c2 i
      + ((3 : ℕ) : ℝ) * s ^ (3 - 1) * c3 i + ((4 : ℕ) : ℝ) * s ^ (4 - 1) * c4 i := by
    simp only [quart']; norm_num
  rw [e]
  exact h

theorem quart_near {F : (Fin n → ℝ) → Fin n → ℝ} {y : ℝ → Fin n → ℝ} (hy : SolOn F y t0 te)
    {t h : ℝ} (ht : t0 ≤ t) (hh : 0 ≤ h) (hte : t + h ≤ te) {c1 c2 c3 c4 : Fin n → ℝ} {R K E : ℝ}
    (hK : 0 ≤ K) (hE : 0 ≤ E)
    (hL : ∀ u v : Fin n → ℝ, ‖u‖ ≤ R → ‖v‖ ≤ R → ‖F u - F v‖ ≤ K * ‖u - v‖)
    (hb : ∀ s, 0 ≤ s → s ≤ h → ‖quart (y t) c1 c2 c3 c4 s‖ ≤ R ∧ ‖y (t + s)‖ ≤ R)
    (hd : ∀ s, 0 ≤ s → s ≤ h → ‖quart' c1 c2 c3 c4 s - F (quart (y t) c1 c2 c3 c4 s)‖ ≤ E) :
    ‖quart (y t) c1 c2 c3 c4 h - y (t + h)‖ ≤ E * h * Real.exp (K * h) := by
  have hD : ∀ s ∈ Set.Icc 0 h, HasDerivWithinAt (fun s => y (t + s)) (F (y (t + s))) (Set.Icc 0 h) s := by
    intro s hs
    have h1 := hy (t + s) ⟨by linarith [hs.1], by linarith [hs.2]⟩
    have h2 : HasDerivWithinAt (fun s : ℝ => t + s) 1 (Set.Icc 0 h) s :=
      ((hasDerivAt_id s).const_add t).hasDerivWithinAt
    have h3 := h1.scomp s h2 (fun x hx => ⟨by linarith [hx.1], by linarith [hx.2]⟩)
    rw [one_smul] at h3
    exact h3
  have hQ := fun s => hasDerivAt_quart (y t) c1 c2 c3 c4 s
  have key := norm_le_gronwallBound_of_norm_deriv_right_le
    (f := fun s => quart (y t) c1 c2 c3 c4 s - y (t + s))
    (f' := fun s => quart' c1 c2 c3 c4 s - F (y (t + s))) (δ := 0) (K := K) (ε := E) (a := 0) (b := h)
    (fun s hs => ((hQ s).continuousAt.continuousWithinAt).sub (hD s hs).continuousWithinAt)
    (fun s hs => by
      have h1 := hD s ⟨hs.1, hs.2.le⟩
      have h2 : Set.Icc 0 h ∈ nhdsWithin s (Set.Ici s) :=
        Filter.mem_of_superset (Icc_mem_nhdsGE hs.2) (Set.Icc_subset_Icc_left hs.1)
      exact (hQ s).hasDerivWithinAt.sub (h1.mono_of_mem_nhdsWithin h2))
    (by
      have e : quart (y t) c1 c2 c3 c4 0 = y t := by funext i; simp [quart]
      simp [e])
    (fun s hs => by
      obtain ⟨b1, b2⟩ := hb s hs.1 hs.2.le
      have e : quart' c1 c2 c3 c4 s - F (y (t + s))
          = (F (quart (y t) c1 c2 c3 c4 s) - F (y (t + s)))
            + (quart' c1 c2 c3 c4 s - F (quart (y t) c1 c2 c3 c4 s)) := by abel
      rw [e]
      exact (norm_add_le _ _).trans (add_le_add (hL _ _ b1 b2) (hd s hs.1 hs.2.le)))
    h ⟨hh, le_rfl⟩
  rw [sub_zero] at key
  exact key.trans (gronwall_le hK hE hh)

/-- **the truncated series is the solution, up to a multiple of `h^5`**, uniformly for all steps. -/
theorem flow_near {P : Fin n → MvPolynomial (Fin n) ℝ} {y : ℝ → Fin n → ℝ}
    (hy : SolOn (polyField P) y t0 te) {R : ℝ} (hR : ∀ t ∈ Set.Icc t0 te, ‖y t‖ ≤ R)
    (D : Taylor (cls (hB t0 te) (hB t0 te)) (polyField P) (fun i => cls (hB t0 te) (yB hR i)))
    (hD : D.Inside (timeOnly t0 te)) (hf : D.f = polyField P (fun i => cls (hB t0 te) (yB hR i))) :
    ∃ p : Fin n → bdd (Steps t0 te), (∀ i, cls _ (p i) = D.flow i) ∧
      ∃ C, 0 ≤ C ∧ ∀ (θ : Steps t0 te) i, |(p i).1 θ - y (θ.t + θ.h) i| ≤ C * θ.h ^ 5 := by
  choose w1 w2 w3 w4 using fun i => inside_v hD i
  choose g1 u1 a1 b1 using w1
  choose g2 u2 a2 b2 using w2
  choose g3 u3 a3 b3 using w3
  choose g4 u4 a4 b4 using w4
  obtain ⟨p, hp⟩ : ∃ p : Fin n → bdd (Steps t0 te), p = fun i => yB hR i + hB t0 te * u1 i
    + hB t0 te ^ 2 * u2 i + hB t0 te ^ 3 * u3 i + hB t0 te ^ 4 * u4 i := ⟨_, rfl⟩
  have hcls : ∀ i, cls (hB t0 te) (p i) = D.flow i := by
    intro i
    simp only [hp, map_add, map_mul, map_pow, b1, b2, b3, b4, Taylor.flow, Pi.add_apply, Pi.smul_apply,
      smul_eq_mul]
  refine ⟨p, hcls, ?_⟩
  -- values
  have hval : ∀ θ : Steps t0 te, (fun i => (p i).1 θ)
      = quart (y θ.t) (fun i => g1 i θ.t) (fun i => g2 i θ.t) (fun i => g3 i θ.t) (fun i => g4 i θ.t) θ.h := by
    intro θ
    funext i
    rw [hp]
    show y θ.t i + θ.h * (u1 i).1 θ + θ.h ^ 2 * (u2 i).1 θ + θ.h ^ 3 * (u3 i).1 θ
      + θ.h ^ 4 * (u4 i).1 θ = _
    rw [a1, a2, a3, a4]
    rfl
  -- the polynomial satisfies the equation
  have hode : ∀ i, ∃ C, ∀ θ : Steps t0 te, |θ.h * g1 i θ.t + 2 * θ.h ^ 2 * g2 i θ.t
      + 3 * θ.h ^ 3 * g3 i θ.t + 4 * θ.h ^ 4 * g4 i θ.t
      - θ.h * polyField P (fun i => (p i).1 θ) i| ≤ C * |θ.h| ^ 5 := by
    intro i
    have e := congrFun (D.flow_exact (eps_pow _)) i
    have e1 : D.flow = fun i => cls (hB t0 te) (p i) := funext fun i => (hcls i).symm
    simp only [Pi.add_apply, Pi.smul_apply, smul_eq_mul, ← b1, ← b2, ← b3, ← b4] at e
    rw [e1, polyField_hom] at e
    simp only [← map_mul, ← map_pow, ← map_add, ← map_ofNat (cls (hB t0 te))] at e
    obtain ⟨C, hC⟩ := cls_eq.1 e
    refine ⟨C, fun θ => ?_⟩
    have h1 := hC θ
    have e2 : polyField P (fun i => (p i).1 θ) i = (polyField P p i).1 θ :=
      polyField_hom (ev θ) P p i
    rw [e2, ← a1, ← a2, ← a3, ← a4]
    exact h1
  choose C hC using hode
  -- at the beginning the slope is exact
  have hslope : ∀ (θ : Steps t0 te) i, θ.h = 0 → g1 i θ.t = polyField P (y θ.t) i := by
    intro θ i h0
    have e := congrFun hf i
    rw [show D.f i = D.v1 i from rfl, ← b1, polyField_hom] at e
    obtain ⟨C, hC⟩ := cls_eq.1 e
    have h1 := hC θ
    rw [show (hB t0 te).1 θ = θ.h from rfl, h0] at h1
    have e2 : polyField P (y θ.t) i = (polyField P (yB hR) i).1 θ := polyField_hom (ev θ) P (yB hR) i
    rw [e2, ← a1]
    have h2 : |(u1 i).1 θ - (polyField P (yB hR) i).1 θ| ≤ 0 := by
      refine h1.trans (le_of_eq ?_)
      simp
    exact sub_eq_zero.1 (abs_eq_zero.1 (le_antisymm h2 (abs_nonneg _)))
  -- bounds
  choose M hM using fun i => (p i).2
  have hM0 : ∀ i, |M i| ≤ ∑ j, |M j| := fun i =>
    Finset.single_le_sum (f := fun j => |M j|) (fun j _ => abs_nonneg _) (Finset.mem_univ i)
  have hC0 : ∀ i, |C i| ≤ ∑ j, |C j| := fun i =>
    Finset.single_le_sum (f := fun j => |C j|) (fun j _ => abs_nonneg _) (Finset.mem_univ i)
  have hMs : 0 ≤ ∑ j, |M j| := Finset.sum_nonneg fun j _ => abs_nonneg _
  have hCs : 0 ≤ ∑ j, |C j| := Finset.sum_nonneg fun j _ => abs_nonneg _
  obtain ⟨K, hK, hL⟩ := polyField_lip P (max R (∑ j, |M j|))
  refine ⟨(∑ j, |C j|) * Real.exp K, by positivity, fun θ i => ?_⟩
  have hpb : ∀ θ : Steps t0 te, ‖fun i => (p i).1 θ‖ ≤ ∑ j, |M j| := by
    intro θ
    rw [pi_norm_le_iff_of_nonneg hMs]
    intro i
    exact ((hM i θ).trans (le_abs_self _)).trans (hM0 i)
  have main := quart_near hy θ.ge θ.pos θ.fits (c1 := fun i => g1 i θ.t) (c2 := fun i => g2 i θ.t)
    (c3 := fun i => g3 i θ.t) (c4 := fun i => g4 i θ.t) (R := max R (∑ j, |M j|)) (K := K)
    (E := (∑ j, |C j|) * θ.h ^ 4) hK (by have := θ.pos; positivity)
    (fun u v hu hv => (hL u v hu hv).2)
    (fun s hs1 hs2 => by
      have h1 := hpb ⟨θ.t, s, θ.ge, hs1, hs2.trans θ.le, by linarith [θ.fits]⟩
      rw [hval] at h1
      exact ⟨h1.trans (le_max_right _ _),
        (hR _ ⟨by linarith [θ.ge], by linarith [θ.fits]⟩).trans (le_max_left _ _)⟩)
    (fun s hs1 hs2 => by
      rw [pi_norm_le_iff_of_nonneg (by have := θ.pos; positivity)]
      intro i
      rw [Real.norm_eq_abs, Pi.sub_apply]
      have hv := hval ⟨θ.t, s, θ.ge, hs1, hs2.trans θ.le, by linarith [θ.fits]⟩
      have h1 := hC i ⟨θ.t, s, θ.ge, hs1, hs2.trans θ.le, by linarith [θ.fits]⟩
      have h2 := hslope ⟨θ.t, s, θ.ge, hs1, hs2.trans θ.le, by linarith [θ.fits]⟩ i
      rw [hv] at h1
      simp only at h1 h2
      rcases hs1.eq_or_lt with h0 | h0
      · have h3 := h2 h0.symm
        rw [← h0]
        simp only [quart']
        have e : quart (y θ.t) (fun i => g1 i θ.t) (fun i => g2 i θ.t) (fun i => g3 i θ.t)
            (fun i => g4 i θ.t) 0 = y θ.t := by funext i; simp [quart]
        rw [e, h3]
        simp
        have := θ.pos
        positivity
      · have e : s * g1 i θ.t + 2 * s ^ 2 * g2 i θ.t + 3 * s ^ 3 * g3 i θ.t + 4 * s ^ 4 * g4 i θ.t
            - s * polyField P (quart (y θ.t) (fun i => g1 i θ.t) (fun i => g2 i θ.t)
              (fun i => g3 i θ.t) (fun i => g4 i θ.t) s) i
            = s * (quart' (fun i => g1 i θ.t) (fun i => g2 i θ.t) (fun i => g3 i θ.t)
              (fun i => g4 i θ.t) s i - polyField P (quart (y θ.t) (fun i => g1 i θ.t)
              (fun i => g2 i θ.t) (fun i => g3 i θ.t) (fun i => g4 i θ.t) s) i) := by
          simp only [quart']; ring
        rw [e, abs_mul, abs_of_pos h0] at h1
        have h4 : C i * s ^ 5 ≤ s * ((∑ j, |C j|) * θ.h ^ 4) := by
          have q1 : C i ≤ ∑ j, |C j| := (le_abs_self _).trans (hC0 i)
          have q2 : s ^ 4 ≤ θ.h ^ 4 := pow_le_pow_left₀ hs1 hs2 4
          have q3 : C i * s ^ 4 ≤ (∑ j, |C j|) * θ.h ^ 4 :=
            mul_le_mul q1 q2 (by positivity) hCs
          calc C i * s ^ 5 = s * (C i * s ^ 4) := by ring
            _ ≤ _ := mul_le_mul_of_nonneg_left q3 hs1
        exact le_of_mul_le_mul_left (h1.trans h4) h0)
  rw [← hval] at main
  have h1 := (norm_le_pi_norm ((fun i => (p i).1 θ) - y (θ.t + θ.h)) i).trans main
  rw [Real.norm_eq_abs, Pi.sub_apply] at h1
  refine h1.trans ?_
  have h2 : Real.exp (K * θ.h) ≤ Real.exp K := by
    refine Real.exp_le_exp.2 ?_
    have := mul_le_mul_of_nonneg_left θ.le hK
    linarith
  calc (∑ j, |C j|) * θ.h ^ 4 * θ.h * Real.exp (K * θ.h)
      ≤ (∑ j, |C j|) * θ.h ^ 4 * θ.h * Real.exp K :=
        mul_le_mul_of_nonneg_left h2 (by have := θ.pos; positivity)
    _ = (∑ j, |C j|) * Real.exp K * θ.h ^ 5 := by ring

end

end Odes
