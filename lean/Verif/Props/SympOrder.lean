import Verif.Props.SympErr
import Verif.Lemmas.GaussExact
import Verif.Lemmas.CollocReal

/-!
# Order `2s` of SymplecticRK (C123)

The tables of the program are near the exact Gauss methods, whose local error is of order `2s+1` on smooth problems.  The
scalar type is a binary floating point arithmetic with `p` bits, round to nearest, exponents without bound.
-/

namespace Odes.Symp

open Odes.Mem Odes.Colloc Spec Finset

variable {F : FP} {n : ℕ}

/-! ### the tables -/

theorem near_of {t : GTab} {g : GCert} {E : ℕ} (hE : 0 < E) (hg : g ∈ certs) (h : okNear t g E = true)
    (hE2 : E ≤ 10 ^ 33) :
    ∃ (c : Fin t.s → ℝ) (A : Fin t.s → Fin t.s → ℝ) (b : Fin t.s → ℝ), GaussMethod c A b ∧
      (∀ i j, |t.A i j - A i j| ≤ 1 / (2 * (E : ℝ))) ∧ ∀ j, |t.w j - b j| ≤ 1 / 10 ^ 48 := by
  simp only [okNear, Bool.and_eq_true, beq_iff_eq] at h
  obtain ⟨⟨h1, h2⟩, h3⟩ := h
  obtain ⟨c, A, b, hG, -, hA, hb⟩ := gauss_exact hg
  have hT0 : (0 : ℝ) < TT := by unfold TT; positivity
  have hE' : (0 : ℝ) < E := by exact_mod_cast hE
  have hE3 : (E : ℝ) ≤ 10 ^ 33 := by exact_mod_cast hE2
  obtain ⟨s, cc, rows, bb⟩ := g
  subst h1
  refine ⟨c, A, b, hG, fun i j => ?_, fun j => ?_⟩
  · have q := allLt_spec (allLt_spec h2 i i.2) j j.2
    rw [decide_eq_true_eq] at q
    have q' : |(t.iA i j : ℝ) * 10 ^ 90 - (GCert.iA ⟨t.s, cc, rows, bb⟩ i j : ℝ) * 10 ^ t.da| * (1000 * (E : ℝ)) ≤
        499 * (10 ^ t.da * 10 ^ 90) := by exact_mod_cast q
    have e1 : |t.A i j - (GCert.iA ⟨t.s, cc, rows, bb⟩ i j : ℝ) / TT| ≤ 499 / (1000 * (E : ℝ)) := by
      have e2 : t.A i j - (GCert.iA ⟨t.s, cc, rows, bb⟩ i j : ℝ) / TT =
          ((t.iA i j : ℝ) * 10 ^ 90 - (GCert.iA ⟨t.s, cc, rows, bb⟩ i j : ℝ) * 10 ^ t.da) / (10 ^ t.da * 10 ^ 90) := by
        unfold GTab.A TT
        rw [div_sub_div _ _ (by positivity) (by positivity)]
        congr 1
        ring
      rw [e2, abs_div, abs_of_pos (by positivity : (0 : ℝ) < 10 ^ t.da * 10 ^ 90), div_le_div_iff₀ (by positivity) (by positivity)]
      exact q'
    have e3 := abs_sub_le (t.A i j) ((GCert.iA ⟨t.s, cc, rows, bb⟩ i j : ℝ) / TT) (A i j)
    have e4 : (1 : ℝ) / 10 ^ 49 ≤ 1 / (1000 * (E : ℝ)) := one_div_le_one_div_of_le (by positivity) (by
      calc (1000 : ℝ) * E ≤ 1000 * 10 ^ 33 := by linarith
        _ ≤ 10 ^ 49 := by norm_num)
    have e5 : (1 : ℝ) / (2 * (E : ℝ)) = 499 / (1000 * (E : ℝ)) + 1 / (1000 * (E : ℝ)) := by field_simp; norm_num
    rw [e5]
    linarith [hA i j]
  · have q := allLt_spec h3 j j.2
    rw [decide_eq_true_eq] at q
    have q' : |(t.ib j : ℝ) * 10 ^ 90 - (GCert.ib ⟨t.s, cc, rows, bb⟩ j : ℝ) * 10 ^ t.db| * 10 ^ 85 ≤
        10 ^ t.db * 10 ^ 90 := by exact_mod_cast q
    have e1 : |t.w j - (GCert.ib ⟨t.s, cc, rows, bb⟩ j : ℝ) / TT| ≤ 1 / 10 ^ 85 := by
      have e2 : t.w j - (GCert.ib ⟨t.s, cc, rows, bb⟩ j : ℝ) / TT =
          ((t.ib j : ℝ) * 10 ^ 90 - (GCert.ib ⟨t.s, cc, rows, bb⟩ j : ℝ) * 10 ^ t.db) / (10 ^ t.db * 10 ^ 90) := by
        unfold GTab.w TT
        rw [div_sub_div _ _ (by positivity) (by positivity)]
        congr 1
        ring
      rw [e2, abs_div, abs_of_pos (by positivity : (0 : ℝ) < 10 ^ t.db * 10 ^ 90), div_le_div_iff₀ (by positivity) (by positivity),
        one_mul]
      exact q'
    have e3 := abs_sub_le (t.w j) ((GCert.ib ⟨t.s, cc, rows, bb⟩ j : ℝ) / TT) (b j)
    have e4 : (1 : ℝ) / 10 ^ 85 + 1 / 10 ^ 49 ≤ 1 / 10 ^ 48 := by norm_num
    linarith [hb j]

/-- C123 (tables): **each table of the program is a Gauss method**, the matrix up to `1/2·10^-12` (tables of `double`) and
`1/2·10^-33` (tables of `long double`), the weights up to `10^-48`. -/
theorem symp_table_gauss :
    (∀ t ∈ gaussD, ∃ (c : Fin t.s → ℝ) (A : Fin t.s → Fin t.s → ℝ) (b : Fin t.s → ℝ), GaussMethod c A b ∧
      (∀ i j, |t.A i j - A i j| ≤ 1 / (2 * 10 ^ 12)) ∧ ∀ j, |t.w j - b j| ≤ 1 / 10 ^ 48) ∧
    ∀ t ∈ gaussL, ∃ (c : Fin t.s → ℝ) (A : Fin t.s → Fin t.s → ℝ) (b : Fin t.s → ℝ), GaussMethod c A b ∧
      (∀ i j, |t.A i j - A i j| ≤ 1 / (2 * 10 ^ 33)) ∧ ∀ j, |t.w j - b j| ≤ 1 / 10 ^ 48 := by
  constructor
  · intro t ht
    obtain ⟨g, hg, h⟩ := List.any_eq_true.1 (List.all_eq_true.1 gaussD_near t ht)
    have := near_of (E := 10 ^ 12) (by norm_num) hg (by exact_mod_cast h) (by norm_num)
    simpa only [Nat.cast_pow, Nat.cast_ofNat] using this
  · intro t ht
    obtain ⟨g, hg, h⟩ := List.any_eq_true.1 (List.all_eq_true.1 gaussL_near t ht)
    have := near_of (E := 10 ^ 33) (by norm_num) hg (by exact_mod_cast h) (by norm_num)
    simpa only [Nat.cast_pow, Nat.cast_ofNat] using this

/-! ### one step -/

/-- the numbers which appear in the bound: `ε` unit roundoff; `Λ`, `β` bounds of the sums of the absolute values of the
lines of the matrices and of the weights; `τ`, `σ` sums of the differences between the table and the exact method; `η` error
of the function; `L`, `ρ` Lipschitz constant and radius of the neighbourhood; `θ` square root of the threshold of the
test; `h` step; `M0`, `M1` bounds of the solution and of `f` in the neighbourhood; `C` constant of the local error; `s`
number of stages. -/
structure OCst where
  ε : ℝ
  Λ : ℝ
  β : ℝ
  τ : ℝ
  σ : ℝ
  η : ℝ
  L : ℝ
  ρ : ℝ
  θ : ℝ
  h : ℝ
  M0 : ℝ
  M1 : ℝ
  C : ℝ
  s : ℕ

namespace OCst

variable (k : OCst)

/-- bound of the slopes. -/
def V : ℝ := k.M1 + k.η
/-- bound of the values. -/
def U : ℝ := k.M0 + k.ρ
/-- bound of the compensation. -/
def κ : ℝ := 2 * k.ε * (k.U + 8 * (k.h * k.β * k.V))
/-- bound of the rounding errors of the sums of the stages. -/
def r : ℝ := 20 * k.ε * (k.U + k.h * k.Λ * k.V)
/-- what one step adds to the error, divided by `h`. -/
noncomputable def G : ℝ :=
  2 * k.β * (k.L * (k.κ + k.r + 4 * k.θ + k.h * k.τ * k.V) + k.η) + k.σ * k.V + 28 * k.ε * k.β * k.V +
    7 * k.ε * k.κ / k.h + k.C * k.h ^ (2 * k.s)

/-- signs and sizes. -/
structure Ok : Prop where
  ε0 : 0 ≤ k.ε
  ε1 : k.ε ≤ 1 / 1024
  Λ0 : 0 ≤ k.Λ
  β0 : 0 ≤ k.β
  τ0 : 0 ≤ k.τ
  σ0 : 0 ≤ k.σ
  η0 : 0 ≤ k.η
  L0 : 0 ≤ k.L
  ρ0 : 0 < k.ρ
  θ0 : 0 ≤ k.θ
  h0 : 0 < k.h
  m0 : 0 ≤ k.M0
  m1 : 0 ≤ k.M1
  C0 : 0 ≤ k.C
  step : k.h * k.Λ * k.L ≤ 1 / 2

variable {k}

theorem Ok.V0 (H : k.Ok) : 0 ≤ k.V := add_nonneg H.m1 H.η0

theorem Ok.U0 (H : k.Ok) : 0 ≤ k.U := add_nonneg H.m0 H.ρ0.le

theorem Ok.κ0 (H : k.Ok) : 0 ≤ k.κ := by
  have := H.U0; have := H.V0; have := H.h0; have := H.β0; have := H.ε0
  unfold κ; positivity

theorem Ok.r0 (H : k.Ok) : 0 ≤ k.r := by
  have := H.U0; have := H.V0; have := H.h0; have := H.Λ0; have := H.ε0
  unfold r; positivity

theorem Ok.G0 (H : k.Ok) : 0 ≤ k.G := by
  have := H.V0; have := H.h0; have := H.β0; have := H.ε0; have := H.κ0; have := H.r0; have := H.θ0
  have := H.τ0; have := H.σ0; have := H.η0; have := H.L0; have := H.C0
  unfold G; positivity

end OCst

/-- hypotheses on the configuration: tables `A`, `b` rounded; exact method `A1`, `b1`; threshold of the test. -/
structure OTabs (c : Cfg F.T n) (A : ℕ → ℕ → ℝ) (b : ℕ → ℝ) (A1 : Fin c.s → Fin c.s → ℝ) (b1 : Fin c.s → ℝ) (k : OCst) :
    Prop where
  eps : k.ε = F.eps
  la : ∀ i j, i < c.s → j < c.s → |(c.la.getD (i * c.s + j) 0).1 - A i j| ≤ F.eps * |A i j|
  lb : ∀ i, i < c.s → |(c.lb.getD i 0).1 - b i| ≤ F.eps * |b i|
  sumA : ∀ i, i < c.s → ∑ j : Fin c.s, |A i j| ≤ k.Λ
  sumB : ∑ j : Fin c.s, |b j| ≤ k.β
  sumA1 : ∀ i, ∑ j, |A1 i j| ≤ k.Λ
  sumB1 : ∑ j, |b1 j| ≤ k.β
  nearA : ∀ i : Fin c.s, ∑ j : Fin c.s, |A i j - A1 i j| ≤ k.τ
  nearB : ∑ j : Fin c.s, |b j - b1 j| ≤ k.σ
  small : ∀ x, c.small x → x.1 ≤ k.θ ^ 2

/-- two sums with different weights and different vectors. -/
theorem sums_near {s : ℕ} {w w1 : Fin s → ℝ} {K k1 : Fin s → Fin n → ℝ} {τ S V D : ℝ} (hw : ∑ j, |w j - w1 j| ≤ τ)
    (hS : ∑ j, |w1 j| ≤ S) (hV : 0 ≤ V) (hD : 0 ≤ D) (hK : ∀ j, ‖K j‖ ≤ V) (hk : ∀ j, ‖K j - k1 j‖ ≤ D) :
    ‖∑ j, w j • K j - ∑ j, w1 j • k1 j‖ ≤ τ * V + S * D := by
  have e : ∑ j, w j • K j - ∑ j, w1 j • k1 j = ∑ j, (w j - w1 j) • K j + ∑ j, w1 j • (K j - k1 j) := by
    rw [← sum_sub_distrib, ← sum_add_distrib]
    refine sum_congr rfl fun j _ => ?_
    rw [sub_smul, smul_sub]; abel
  rw [e]
  refine (norm_add_le _ _).trans (add_le_add ?_ ?_)
  · calc ‖∑ j, (w j - w1 j) • K j‖ ≤ ∑ j, |w j - w1 j| * V := by
          refine (norm_sum_le _ _).trans (sum_le_sum fun j _ => ?_)
          rw [norm_smul, Real.norm_eq_abs]
          exact mul_le_mul_of_nonneg_left (hK j) (abs_nonneg _)
      _ = (∑ j, |w j - w1 j|) * V := by rw [sum_mul]
      _ ≤ _ := mul_le_mul_of_nonneg_right hw hV
  · calc ‖∑ j, w1 j • (K j - k1 j)‖ ≤ ∑ j, |w1 j| * D := by
          refine (norm_sum_le _ _).trans (sum_le_sum fun j _ => ?_)
          rw [norm_smul, Real.norm_eq_abs]
          exact mul_le_mul_of_nonneg_left (hk j) (abs_nonneg _)
      _ = (∑ j, |w1 j|) * D := by rw [sum_mul]
      _ ≤ _ := mul_le_mul_of_nonneg_right hS hD

theorem sum_norm_le {s : ℕ} {w : Fin s → ℝ} {K : Fin s → Fin n → ℝ} {S V h : ℝ} (hS : ∑ j, |w j| ≤ S) (hV : 0 ≤ V)
    (hh : 0 ≤ h) (hK : ∀ j, ‖K j‖ ≤ V) : ‖h • ∑ j, w j • K j‖ ≤ h * S * V := by
  rw [norm_smul, Real.norm_eq_abs, abs_of_nonneg hh, mul_assoc]
  refine mul_le_mul_of_nonneg_left ?_ hh
  calc ‖∑ j, w j • K j‖ ≤ ∑ j, |w j| * V := by
        refine (norm_sum_le _ _).trans (sum_le_sum fun j _ => ?_)
        rw [norm_smul, Real.norm_eq_abs]
        exact mul_le_mul_of_nonneg_left (hK j) (abs_nonneg _)
    _ = (∑ j, |w j|) * V := by rw [sum_mul]
    _ ≤ _ := mul_le_mul_of_nonneg_right hS hV

/-- the error of one successful step from `v` (a point of the solution); `k1` are the slopes of the exact method from
`v`. -/
theorem step_order {c : Cfg F.T n} (hT : Tab c) (hS : Scal c) (hnar : ∀ x, c.narrow x = x) {A : ℕ → ℕ → ℝ}
    {b : ℕ → ℝ} {A1 : Fin c.s → Fin c.s → ℝ} {b1 : Fin c.s → ℝ} {k : OCst} (hk : k.Ok) (ht : OTabs c A b A1 b1 k)
    {f : (Fin n → ℝ) → Fin n → ℝ} {v v' : Fin n → ℝ} (hv : ‖v‖ ≤ k.M0)
    (hM : ∀ x, ‖x - v‖ ≤ k.ρ → ‖f x‖ ≤ k.M1)
    (hL : ∀ x z, ‖x - v‖ ≤ k.ρ → ‖z - v‖ ≤ k.ρ → ‖f x - f z‖ ≤ k.L * ‖x - z‖)
    (hη : ∀ x, ‖val x - v‖ ≤ k.ρ → ‖val (c.f x) - f (val x)‖ ≤ k.η)
    {k1 : Fin c.s → Fin n → ℝ} (hk1 : ∀ i, k1 i = f (v + k.h • ∑ j, A1 i j • k1 j))
    (hk2 : ∀ i, ‖k.h • ∑ j, A1 i j • k1 j‖ ≤ k.ρ)
    (hk3 : ‖v + k.h • ∑ j, b1 j • k1 j - v'‖ ≤ k.C * k.h ^ (2 * k.s + 1))
    {st st' : St F.T n} (hist : Inv c st) {h : F.T} (hh : h.1 = k.h) {u u' : Fin n → F.T}
    (hs : step c h u true st = some (true, u', st')) {e : ℝ}
    (he : ‖val u + val st.e - v‖ ≤ e) (hκ : ‖val st.e‖ ≤ k.κ)
    (hρ : e + k.κ + k.h * k.Λ * k.V + k.r ≤ k.ρ) :
    ‖val u' + val st'.e - v'‖ ≤ (1 + 2 * (k.h * k.β * k.L)) * e + k.h * k.G ∧
    ‖val st'.e‖ ≤ k.κ := by
  have hε := hk.ε0; have hh0 := hk.h0; have hΛ0 := hk.Λ0; have hβ0 := hk.β0; have hη0 := hk.η0
  have hL0 := hk.L0; have hρ0 := hk.ρ0; have hθ0 := hk.θ0; have hV0 := hk.V0; have hU0 := hk.U0
  have hκ0 := hk.κ0; have hr0 := hk.r0; have hτ0 := hk.τ0; have hσ0 := hk.σ0
  have he0 : 0 ≤ e := (norm_nonneg _).trans he
  have hs0 : 0 < c.s := by have := hT.two; omega
  have hhV : 0 ≤ k.h * k.Λ * k.V := by positivity
  have hu : ‖val u - v‖ ≤ e + k.κ := by
    have : val u - v = (val u + val st.e - v) - val st.e := by abel
    rw [this]
    exact (norm_sub_le _ _).trans (add_le_add he hκ)
  have huU : ‖val u‖ ≤ k.U := by
    have h1 : val u = (val u - v) + v := by abel
    rw [h1]
    refine (norm_add_le _ _).trans ?_
    unfold OCst.U
    linarith
  obtain ⟨-, -, -, Y0, hY0, h1⟩ := step_cases hT hS hist hs
  have hY0 := hY0 (Or.inl rfl)
  rcases h1 with ⟨-, m, -, hstop, -, -, -, -, hdel, hu', he'⟩ | ⟨hfl, -⟩
  swap
  · cases hfl
  simp only [hnar] at hstop hdel
  set a := fun i j => c.la.getD (i * c.s + j) 0 * h with ha
  set I := iter a c.s c.f u Y0 with hI
  have slope : ∀ x : Fin n → F.T, ‖val x - v‖ ≤ k.ρ → ‖val (c.f x)‖ ≤ k.V := by
    intro x h3
    have e : val (c.f x) = f (val x) + (val (c.f x) - f (val x)) := by abel
    rw [e]
    exact (norm_add_le _ _).trans (add_le_add (hM _ h3) (hη _ h3))
  -- rounding errors of one sweep
  have round : ∀ p, (∀ j : Fin c.s, ‖val (I p j) - v‖ ≤ k.ρ) → ∀ i : Fin c.s,
      ‖val (I (p + 1) i) - (val u + k.h • ∑ j : Fin c.s, A i j • val (c.f (I p j)))‖ ≤ k.r := by
    intro p hp i
    have := stage_round (n := n) (u := u) hT.max (ht.eps ▸ hk.ε1) (a := fun j => c.la.getD (i * c.s + j) 0)
      (A := A i) (h := h) (fun j hj => ht.la i j i.2 hj) (by rw [hh]; exact hh0.le) (ht.sumA i i.2)
      (K := fun j => c.f (I p j)) huU hV0 (fun j hj => slope _ (hp ⟨j, hj⟩))
    rw [hh, ← ht.eps] at this
    exact this
  -- all iterates are near the solution
  have tube : ∀ p, ∀ i : Fin c.s, ‖val (I p i) - v‖ ≤ k.ρ := by
    intro p
    induction p with
    | zero =>
      intro i
      have e1 : I 0 i = u := hY0 i i.2
      rw [e1]
      linarith
    | succ p ih =>
      intro i
      have h2 := round p ih i
      have h3 := sum_norm_le (ht.sumA i i.2) hV0 hh0.le (K := fun j : Fin c.s => val (c.f (I p j))) fun j => slope _ (ih j)
      have e2 : val (I (p + 1) i) - v = (val u - v) + k.h • ∑ j : Fin c.s, A i j • val (c.f (I p j)) +
          (val (I (p + 1) i) - (val u + k.h • ∑ j : Fin c.s, A i j • val (c.f (I p j)))) := by abel
      rw [e2]
      refine (norm_add_le _ _).trans ?_
      have h4 := norm_add_le (val u - v) (k.h • ∑ j : Fin c.s, A i j • val (c.f (I p j)))
      linarith
  -- the test
  have test : ∀ i : Fin c.s, ‖val (I (m + 1) i) - val (I m i)‖ ≤ 4 * k.θ := by
    intro i
    rw [pi_norm_le_iff_of_nonneg (by positivity)]
    intro l
    have h2 := ht.small _ hstop.1
    exact sq_small hθ0 (((resid_ge _ _ _).2 i i.2 l).trans h2)
  have stage : ∀ i : Fin c.s, ‖val (I m i) - (val u + k.h • ∑ j : Fin c.s, A i j • val (c.f (I m j)))‖ ≤
      k.r + 4 * k.θ := by
    intro i
    have e2 : val (I m i) - (val u + k.h • ∑ j : Fin c.s, A i j • val (c.f (I m j))) =
        (val (I (m + 1) i) - (val u + k.h • ∑ j : Fin c.s, A i j • val (c.f (I m j)))) -
        (val (I (m + 1) i) - val (I m i)) := by abel
    rw [e2]
    exact (norm_sub_le _ _).trans (add_le_add (round m (tube m) i) (test i))
  -- error of the stages
  obtain ⟨Y, hY⟩ : ∃ Y : Fin c.s → Fin n → ℝ, ∀ i, Y i = v + k.h • ∑ j, A1 i j • k1 j := ⟨_, fun _ => rfl⟩
  have hYρ : ∀ i, ‖Y i - v‖ ≤ k.ρ := fun i => by rw [hY, add_sub_cancel_left]; exact hk2 i
  obtain ⟨i0, -, hmax⟩ := exists_max_image univ (fun i : Fin c.s => ‖val (I m i) - Y i‖) ⟨⟨0, hs0⟩, mem_univ _⟩
  obtain ⟨E, hE⟩ : ∃ E, E = ‖val (I m i0) - Y i0‖ := ⟨_, rfl⟩
  have hE0 : 0 ≤ E := by rw [hE]; exact norm_nonneg _
  have hmax' : ∀ i : Fin c.s, ‖val (I m i) - Y i‖ ≤ E := fun i => by rw [hE]; exact hmax i (mem_univ _)
  have hKk : ∀ j : Fin c.s, ‖val (c.f (I m j)) - k1 j‖ ≤ k.η + k.L * E := by
    intro j
    have e1 : val (c.f (I m j)) - k1 j = (val (c.f (I m j)) - f (val (I m j))) + (f (val (I m j)) - f (Y j)) := by
      rw [hY j, ← hk1 j]; abel
    rw [e1]
    refine (norm_add_le _ _).trans (add_le_add (hη _ (tube m j)) ?_)
    exact (hL _ _ (tube m j) (hYρ j)).trans (mul_le_mul_of_nonneg_left (hmax' j) hL0)
  have hD : 0 ≤ k.η + k.L * E := by positivity
  have hEb : E ≤ 2 * (e + k.κ + k.h * k.τ * k.V + k.h * k.Λ * k.η + k.r + 4 * k.θ) := by
    have h2 := sums_near (ht.nearA i0) (ht.sumA1 i0) hV0 hD (K := fun j => val (c.f (I m j))) (k1 := k1)
      (fun j => slope _ (tube m j)) hKk
    have e2 : val (I m i0) - Y i0 = (val u - v) +
        k.h • (∑ j : Fin c.s, A i0 j • val (c.f (I m j)) - ∑ j, A1 i0 j • k1 j) +
        (val (I m i0) - (val u + k.h • ∑ j : Fin c.s, A i0 j • val (c.f (I m j)))) := by
      rw [hY i0, smul_sub]; abel
    have h3 : ‖k.h • (∑ j : Fin c.s, A i0 j • val (c.f (I m j)) - ∑ j, A1 i0 j • k1 j)‖ ≤
        k.h * (k.τ * k.V + k.Λ * (k.η + k.L * E)) := by
      rw [norm_smul, Real.norm_eq_abs, abs_of_pos hh0]
      exact mul_le_mul_of_nonneg_left h2 hh0.le
    have h4 := norm_add_le ((val u - v) +
        k.h • (∑ j : Fin c.s, A i0 j • val (c.f (I m j)) - ∑ j, A1 i0 j • k1 j))
        (val (I m i0) - (val u + k.h • ∑ j : Fin c.s, A i0 j • val (c.f (I m j))))
    have h5 := norm_add_le (val u - v) (k.h • (∑ j : Fin c.s, A i0 j • val (c.f (I m j)) - ∑ j, A1 i0 j • k1 j))
    rw [← e2, ← hE] at h4
    have h6 := stage i0
    have h7 := mul_le_mul_of_nonneg_right hk.step hE0
    have e3 : k.h * (k.τ * k.V + k.Λ * (k.η + k.L * E)) =
        k.h * k.τ * k.V + k.h * k.Λ * k.η + k.h * k.Λ * k.L * E := by ring
    linarith
  -- the increment
  have hx : ‖k.h • ∑ j : Fin c.s, b j • val (c.f (I m j))‖ ≤ k.h * k.β * k.V :=
    sum_norm_le ht.sumB hV0 hh0.le fun j => slope _ (tube m j)
  have hdel' : ‖val st'.delta - k.h • ∑ j : Fin c.s, b j • val (c.f (I m j))‖ ≤
      20 * F.eps * (k.h * k.β * k.V) := by
    have := stage_round (n := n) (u := fun _ => 0) hT.max (ht.eps ▸ hk.ε1) (a := fun j => c.lb.getD j 0)
      (A := b) (h := h) (fun j hj => ht.lb j hj) (by rw [hh]; exact hh0.le) ht.sumB
      (K := fun j => c.f (I m j)) (U := 0)
      (by rw [pi_norm_le_iff_of_nonneg le_rfl]; intro l; exact (abs_zero (α := ℝ)).le) hV0
      (fun j hj => slope _ (tube m ⟨j, hj⟩))
    rw [hh, zero_add] at this
    refine le_of_eq_of_le ?_ this
    congr 1
    have z : val (F := F) (fun _ : Fin n => 0) = 0 := rfl
    rw [z, zero_add]
    congr 1
    funext l
    show (st'.delta l).1 = _
    rw [hdel l]
    rfl
  obtain ⟨w1, w2⟩ := comp_round (ht.eps ▸ hk.ε1) huU hκ (by positivity) hx hdel' hu' he'
  rw [← ht.eps] at w1 w2
  constructor
  · have h2 := sums_near ht.nearB ht.sumB1 hV0 hD (K := fun j => val (c.f (I m j))) (k1 := k1)
      (fun j => slope _ (tube m j)) hKk
    have h3 : ‖k.h • (∑ j : Fin c.s, b j • val (c.f (I m j)) - ∑ j, b1 j • k1 j)‖ ≤
        k.h * (k.σ * k.V + k.β * (k.η + k.L * E)) := by
      rw [norm_smul, Real.norm_eq_abs, abs_of_pos hh0]
      exact mul_le_mul_of_nonneg_left h2 hh0.le
    have e2 : val u' + val st'.e - v' =
        ((val u' + val st'.e) - ((val u + val st.e) + k.h • ∑ j : Fin c.s, b j • val (c.f (I m j)))) +
        (val u + val st.e - v) + k.h • (∑ j : Fin c.s, b j • val (c.f (I m j)) - ∑ j, b1 j • k1 j) +
        (v + k.h • ∑ j, b1 j • k1 j - v') := by
      rw [smul_sub]; abel
    have n1 := norm_add_le (((val u' + val st'.e) - ((val u + val st.e) + k.h • ∑ j : Fin c.s, b j • val (c.f (I m j)))) +
        (val u + val st.e - v) + k.h • (∑ j : Fin c.s, b j • val (c.f (I m j)) - ∑ j, b1 j • k1 j))
        (v + k.h • ∑ j, b1 j • k1 j - v')
    have n2 := norm_add_le (((val u' + val st'.e) - ((val u + val st.e) + k.h • ∑ j : Fin c.s, b j • val (c.f (I m j)))) +
        (val u + val st.e - v)) (k.h • (∑ j : Fin c.s, b j • val (c.f (I m j)) - ∑ j, b1 j • k1 j))
    have n3 := norm_add_le ((val u' + val st'.e) - ((val u + val st.e) + k.h • ∑ j : Fin c.s, b j • val (c.f (I m j))))
        (val u + val st.e - v)
    rw [← e2] at n1
    have g1 := mul_le_mul_of_nonneg_left hEb (by positivity : 0 ≤ k.h * k.β * k.L)
    have g2 := mul_le_mul_of_nonneg_right hk.step (by positivity : 0 ≤ 2 * (k.h * k.β * k.η))
    have e3 : k.h * k.G = 2 * (k.h * k.β) * (k.L * (k.κ + k.r + 4 * k.θ + k.h * k.τ * k.V) + k.η) + k.h * (k.σ * k.V) +
        28 * k.ε * (k.h * k.β * k.V) + 7 * k.ε * k.κ + k.C * k.h ^ (2 * k.s + 1) := by
      unfold OCst.G
      rw [pow_succ]
      field_simp
    rw [e3]
    have e4 : k.h * (k.σ * k.V + k.β * (k.η + k.L * E)) = k.h * (k.σ * k.V) + k.h * k.β * k.η + k.h * k.β * k.L * E := by ring
    have e5 : k.h * k.β * k.L * (2 * (e + k.κ + k.h * k.τ * k.V + k.h * k.Λ * k.η + k.r + 4 * k.θ)) =
        2 * (k.h * k.β * k.L) * e + 2 * (k.h * k.β) * (k.L * (k.κ + k.r + 4 * k.θ + k.h * k.τ * k.V)) +
        k.h * k.Λ * k.L * (2 * (k.h * k.β * k.η)) := by ring
    have e6 : 2 * (k.h * k.β) * (k.L * (k.κ + k.r + 4 * k.θ + k.h * k.τ * k.V) + k.η) =
        2 * (k.h * k.β) * (k.L * (k.κ + k.r + 4 * k.θ + k.h * k.τ * k.V)) + 2 * (k.h * k.β * k.η) := by ring
    have e7 : (1 + 2 * (k.h * k.β * k.L)) * e = e + 2 * (k.h * k.β * k.L) * e := by ring
    rw [e6, e7]
    rw [e4] at h3
    rw [e5] at g1
    linarith
  · refine w2.trans ?_
    have hB : 0 ≤ k.h * k.β * k.V := by positivity
    have g : k.U + 7 * k.κ + 7 * (k.h * k.β * k.V) ≤ 2 * (k.U + 8 * (k.h * k.β * k.V)) := by
      have : k.κ ≤ 1 / 512 * (k.U + 8 * (k.h * k.β * k.V)) := by
        unfold OCst.κ
        refine mul_le_mul_of_nonneg_right ?_ (by positivity)
        linarith [hk.ε1]
      linarith
    refine (mul_le_mul_of_nonneg_left g hε).trans_eq ?_
    unfold OCst.κ; ring

/-! ### runs -/

/-- the method with the table `t` (its numbers rounded) and a test `small`. -/
noncomputable def cfgT (F : FP) (t : GTab) (small : F.T → Prop) (itermax : ℤ) (f : (Fin n → F.T) → Fin n → F.T) :
    Cfg F.T n := { cfgFt F t itermax f with small := small }

/-- the method with the table `t` and the test of `long double` (`v<1e-310`, Ftest.hpp 40-58). -/
noncomputable def cfgLt (F : FP) (t : GTab) (itermax : ℤ) (f : (Fin n → F.T) → Fin n → F.T) : Cfg F.T n :=
  cfgT F t (fun v => v.1 < 1 / 10 ^ 310) itermax f

/-- the constants of the bound for a table with `s` stages printed with `d` digits. -/
noncomputable def ocst (F : FP) (d s : ℕ) (η L ρ h M0 M1 C : ℝ) : OCst where
  ε := F.eps
  Λ := 1 + 1 / 10 ^ 10
  β := 1 + 1 / 10 ^ 11
  τ := s / (2 * 10 ^ d)
  σ := s / 10 ^ 48
  η := η
  L := L
  ρ := ρ
  θ := 1 / 10 ^ 153
  h := h
  M0 := M0
  M1 := M1
  C := C
  s := s

theorem ocst_ok {F : FP} (hp : 10 ≤ F.p) {d s : ℕ} {η L ρ h M0 M1 C : ℝ} (hη : 0 ≤ η) (hL : 0 ≤ L) (hρ : 0 < ρ) (hh : 0 < h)
    (h0 : 0 ≤ M0) (h1 : 0 ≤ M1) (hC : 0 ≤ C) (hs : h * L ≤ 1 / 3) : (ocst F d s η L ρ h M0 M1 C).Ok where
  ε0 := F.eps_pos.le
  ε1 := by
    show F.eps ≤ _
    unfold FP.eps
    refine one_div_le_one_div_of_le (by norm_num) ?_
    calc (1024 : ℝ) = 2 ^ 10 := by norm_num
      _ ≤ 2 ^ F.p := pow_le_pow_right₀ (by norm_num) hp
  Λ0 := by show (0 : ℝ) ≤ 1 + 1 / 10 ^ 10; positivity
  β0 := by show (0 : ℝ) ≤ 1 + 1 / 10 ^ 11; positivity
  τ0 := by show (0 : ℝ) ≤ s / (2 * 10 ^ d); positivity
  σ0 := by show (0 : ℝ) ≤ s / 10 ^ 48; positivity
  η0 := hη
  L0 := hL
  ρ0 := hρ
  θ0 := by show (0 : ℝ) ≤ 1 / 10 ^ 153; positivity
  h0 := hh
  m0 := h0
  m1 := h1
  C0 := hC
  step := by
    show h * (1 + 1 / 10 ^ 10) * L ≤ _
    have : h * (1 + 1 / 10 ^ 10) * L = (1 + 1 / 10 ^ 10) * (h * L) := by ring
    rw [this]
    have h2 : 0 ≤ h * L := by positivity
    norm_num at *
    linarith

theorem ocst_tabs {t : GTab} {d : ℕ} (htt : t ∈ gaussD ++ gaussL) (hd : 12 ≤ d) {A1 : Fin t.s → Fin t.s → ℝ} {b1 : Fin t.s → ℝ}
    (hA : ∀ i j, |t.A i j - A1 i j| ≤ 1 / (2 * 10 ^ d)) (hb : ∀ j, |t.w j - b1 j| ≤ 1 / 10 ^ 48) (itermax : ℤ)
    {small : F.T → Prop} (hsm : ∀ x, small x → x.1 ≤ 5 / 10 ^ 308) (f : (Fin n → F.T) → Fin n → F.T)
    (η L ρ h M0 M1 C : ℝ) :
    OTabs (cfgT F t small itermax f) (fun i j => t.la.getD (i * t.s + j) 0) (fun i => t.lb.getD i 0) A1 b1
      (ocst F d t.s η L ρ h M0 M1 C) := by
  have hla : ∀ i j : Fin t.s, t.la.getD (i * t.s + j) 0 = t.A i j := la_getD (mem_shape htt).1
  have hlb : ∀ i : Fin t.s, t.lb.getD i 0 = t.w i := lb_getD
  have hs16 : (t.s : ℝ) ≤ 16 := by exact_mod_cast (mem_s htt).2
  have nearA : ∀ i : Fin t.s, ∑ j : Fin t.s, |t.A i j - A1 i j| ≤ t.s / (2 * 10 ^ d) := fun i =>
    (sum_le_sum fun j _ => hA i j).trans_eq (by rw [sum_const, card_univ, Fintype.card_fin, nsmul_eq_mul]; ring)
  have nearB : ∑ j : Fin t.s, |t.w j - b1 j| ≤ t.s / 10 ^ 48 :=
    (sum_le_sum fun j _ => hb j).trans_eq (by rw [sum_const, card_univ, Fintype.card_fin, nsmul_eq_mul]; ring)
  have hd' : (t.s : ℝ) / (2 * 10 ^ d) ≤ 1 / 10 ^ 10 := by
    have : (10 : ℝ) ^ 12 ≤ 10 ^ d := pow_le_pow_right₀ (by norm_num) hd
    rw [div_le_div_iff₀ (by positivity) (by positivity)]
    norm_num at this ⊢
    linarith
  have hb' : (t.s : ℝ) / 10 ^ 48 ≤ 1 / 10 ^ 12 := by
    rw [div_le_div_iff₀ (by positivity) (by positivity)]
    norm_num
    linarith
  have S1 := symp_table_sums.1 t htt
  have S2 := symp_table_sums.2 t htt
  refine ⟨rfl, ?_, ?_, ?_, ?_, ?_, ?_, ?_, ?_, ?_⟩
  · intro i j _ _
    show |((t.la.map F.round).getD (i * t.s + j) 0).1 - _| ≤ _
    rw [getD_map _ _ _ 0 _ round_zero]
    exact F.err _
  · intro i _
    show |((t.lb.map F.round).getD i 0).1 - _| ≤ _
    rw [getD_map _ _ _ 0 _ round_zero]
    exact F.err _
  · intro i hi
    show ∑ j : Fin t.s, |t.la.getD (i * t.s + j) 0| ≤ 1 + 1 / 10 ^ 10
    have e : ∑ j : Fin t.s, |t.la.getD (i * t.s + j) 0| = ∑ j, |t.A ⟨i, hi⟩ j| :=
      sum_congr rfl fun j _ => by rw [← hla ⟨i, hi⟩ j]
    rw [e]
    refine (S1 ⟨i, hi⟩).trans (by norm_num)
  · show ∑ j : Fin t.s, |t.lb.getD j 0| ≤ 1 + 1 / 10 ^ 11
    simp only [hlb]
    exact S2.trans (by norm_num)
  · intro i
    show ∑ j : Fin t.s, |A1 i j| ≤ 1 + 1 / 10 ^ 10
    calc ∑ j : Fin t.s, |A1 i j| ≤ ∑ j : Fin t.s, (|t.A i j| + |t.A i j - A1 i j|) := by
          refine sum_le_sum fun j _ => ?_
          have := abs_sub_abs_le_abs_sub (A1 i j) (t.A i j)
          rw [abs_sub_comm] at this
          linarith
      _ = ∑ j : Fin t.s, |t.A i j| + ∑ j : Fin t.s, |t.A i j - A1 i j| := sum_add_distrib
      _ ≤ _ := by linarith [S1 i, nearA i]
  · show ∑ j : Fin t.s, |b1 j| ≤ 1 + 1 / 10 ^ 11
    calc ∑ j : Fin t.s, |b1 j| ≤ ∑ j : Fin t.s, (|t.w j| + |t.w j - b1 j|) := by
          refine sum_le_sum fun j _ => ?_
          have := abs_sub_abs_le_abs_sub (b1 j) (t.w j)
          rw [abs_sub_comm] at this
          linarith
      _ = ∑ j : Fin t.s, |t.w j| + ∑ j : Fin t.s, |t.w j - b1 j| := sum_add_distrib
      _ ≤ _ := by
        norm_num at *
        linarith
  · intro i
    show ∑ j : Fin t.s, |t.la.getD ((i : Fin t.s) * t.s + j) 0 - A1 i j| ≤ t.s / (2 * 10 ^ d)
    refine le_of_eq_of_le (sum_congr rfl fun j _ => ?_) (nearA i)
    rw [hla i j]
  · show ∑ j : Fin t.s, |t.lb.getD j 0 - b1 j| ≤ t.s / 10 ^ 48
    simp only [hlb]
    exact nearB
  · intro x hx
    refine (hsm x hx).trans ?_
    show (5 : ℝ) / 10 ^ 308 ≤ (1 / 10 ^ 153) ^ 2
    have key : ∀ x : ℝ, 0 < x → 5 * x ≤ 1 * (x * 10 ^ 2) := fun x hx => by nlinarith
    rw [div_pow, ← pow_mul, one_pow, div_le_div_iff₀ (by positivity) (by positivity),
      show (308 : ℕ) = 153 * 2 + 2 from rfl, pow_add _ (153 * 2) 2]
    exact key _ (by positivity)

/-- the hypotheses on the problem: `y` is a solution on `[t0, t1]`, bounded by `M0`; at distance at most `ρ` of it `f` is `N`
times continuously differentiable, bounded by `M1` and Lipschitz with the constant `L`. -/
structure Smoothly (f : (Fin n → ℝ) → Fin n → ℝ) (y : ℝ → Fin n → ℝ) (t0 t1 ρ : ℝ) (N : ℕ) (L M0 M1 : ℝ) : Prop where
  sol : SolOn f y t0 t1
  pos : 0 < ρ
  smooth : ∀ t ∈ Set.Icc t0 t1, ∀ x, ‖x - y t‖ ≤ ρ → ContDiffAt ℝ N f x
  bound0 : ∀ t ∈ Set.Icc t0 t1, ‖y t‖ ≤ M0
  bound1 : ∀ t ∈ Set.Icc t0 t1, ∀ x, ‖x - y t‖ ≤ ρ → ‖f x‖ ≤ M1
  lip : ∀ t ∈ Set.Icc t0 t1, ∀ x z, ‖x - y t‖ ≤ ρ → ‖z - y t‖ ≤ ρ → ‖f x - f z‖ ≤ L * ‖x - z‖

/-- C123, for the two families of tables. -/
theorem symp_order {t : GTab} {d : ℕ} (htt : t ∈ gaussD ++ gaussL) (hd : 12 ≤ d) {c1 : Fin t.s → ℝ} {A1 : Fin t.s → Fin t.s → ℝ}
    {b1 : Fin t.s → ℝ} (hG : GaussMethod c1 A1 b1) (hA : ∀ i j, |t.A i j - A1 i j| ≤ 1 / (2 * 10 ^ d))
    (hb : ∀ j, |t.w j - b1 j| ≤ 1 / 10 ^ 48) {f : (Fin n → ℝ) → Fin n → ℝ} {y : ℝ → Fin n → ℝ} {t0 t1 ρ L M0 M1 : ℝ}
    (ht01 : t0 ≤ t1) (hL0 : 0 ≤ L) (hf : Smoothly f y t0 t1 ρ (2 * t.s) L M0 M1) :
    ∃ h0 C : ℝ, 0 < h0 ∧ 0 ≤ C ∧ ∀ (F : FP) (_ : 10 ≤ F.p) (small : F.T → Prop) (_ : ∀ x, small x → x.1 ≤ 5 / 10 ^ 308)
      (itermax : ℤ) (fF : (Fin n → F.T) → Fin n → F.T) (η : ℝ) (_ : 0 ≤ η)
      (_ : ∀ x, ∀ t ∈ Set.Icc t0 t1, ‖val x - y t‖ ≤ ρ → ‖val (fF x) - f (val x)‖ ≤ η)
      (h : F.T) (_ : 0 < h.1) (_ : h.1 ≤ h0) (_ : h.1 * L ≤ 1 / 3)
      (junk st0 : St F.T n) (_ : construct (cfgT F t small itermax fF) junk = some (.ok st0))
      (u0 : Fin n → F.T) (e0 : ℝ) (_ : ‖val u0 - y t0‖ ≤ e0) (G κ r V : ℝ) (_ : G = (ocst F d t.s η L ρ h.1 M0 M1 C).G)
      (_ : κ = (ocst F d t.s η L ρ h.1 M0 M1 C).κ) (_ : r = (ocst F d t.s η L ρ h.1 M0 M1 C).r) (_ : V = M1 + η)
      (_ : Real.exp (2 * (1 + 1 / 10 ^ 11) * L * (t1 - t0)) * (e0 + (t1 - t0) * G) + κ + h.1 * (1 + 1 / 10 ^ 10) * V + r ≤ ρ)
      (N : ℕ) (u : Fin n → F.T) (st : St F.T n) (_ : RunF (cfgT F t small itermax fF) h N u0 st0 u st)
      (_ : t0 + N * h.1 ≤ t1),
      ‖val u + val st.e - y (t0 + N * h.1)‖ ≤ Real.exp (2 * (1 + 1 / 10 ^ 11) * L * (N * h.1)) * (e0 + N * h.1 * G) ∧
      ‖val u - y (t0 + N * h.1)‖ ≤ Real.exp (2 * (1 + 1 / 10 ^ 11) * L * (N * h.1)) * (e0 + N * h.1 * G) + κ := by
  have hs2 := (mem_s htt).1
  obtain ⟨h0, C, h0p, c0, hloc⟩ := colloc_local (gauss_data hG) hf.sol hf.pos (fun x ⟨τ, hτ, hx⟩ => hf.smooth τ hτ x hx)
    (by omega) (gauss_A hG) (gauss_b hG)
  refine ⟨h0, C, h0p, c0, ?_⟩
  intro F hp small hsm itermax fF η hη0 hη h hh hh0 hhL junk st0 hst u0 e0 he0 G κ r V eG eκ er eV hρ N u st hrun hN
  have hm0 : 0 ≤ M0 := (norm_nonneg _).trans (hf.bound0 t0 ⟨le_rfl, ht01⟩)
  have hm1 : 0 ≤ M1 := (norm_nonneg _).trans (hf.bound1 t0 ⟨le_rfl, ht01⟩ (y t0) (by rw [sub_self, norm_zero]; exact hf.pos.le))
  have hok := ocst_ok (d := d) (s := t.s) hp hη0 hL0 hf.pos hh hm0 hm1 c0 hhL
  have htab := ocst_tabs htt hd hA hb itermax hsm fF η L ρ h.1 M0 M1 C
  have hT0 := cfgFt_tab (F := F) htt itermax fF
  have hT : Tab (cfgT F t small itermax fF) := ⟨hT0.1, hT0.2, hT0.3, hT0.4, hT0.5⟩
  have hS0 := cfgFt_scal (F := F) t itermax fF
  have hS : Scal (cfgT F t small itermax fF) := ⟨hS0.1, hS0.2⟩
  have hz : val st0.e = 0 := by
    funext l
    show (st0.e l).1 = 0
    rw [(construct_inv hT hS hst).2.1 l]
    rfl
  have hG0 : 0 ≤ G := by rw [eG]; exact hok.G0
  have e00 : 0 ≤ e0 := (norm_nonneg _).trans he0
  have hβ : (0 : ℝ) ≤ 1 + 1 / 10 ^ 11 := by positivity
  have hist0 : Hist (cfgT F t small itermax fF) st0 := Hist.new hst
  have he0' : ‖val u0 + val st0.e - y t0‖ ≤ e0 := by rwa [hz, add_zero]
  have hκ0 : ‖val st0.e‖ ≤ κ := by rw [hz, norm_zero, eκ]; exact hok.κ0
  clear hz he0 hst
  suffices Hist (cfgT F t small itermax fF) st ∧ ‖val st.e‖ ≤ κ ∧ ‖val u + val st.e - y (t0 + N * h.1)‖ ≤
      Real.exp (2 * (1 + 1 / 10 ^ 11) * L * (N * h.1)) * (e0 + N * h.1 * G) by
    obtain ⟨-, h1, h2⟩ := this
    refine ⟨h2, ?_⟩
    have e : val u - y (t0 + N * h.1) = (val u + val st.e - y (t0 + N * h.1)) - val st.e := by abel
    rw [e]
    exact (norm_sub_le _ _).trans (add_le_add h2 h1)
  induction hrun with
  | zero => exact ⟨hist0, hκ0, by simpa using he0'⟩
  | @succ N u0 st0 u st u' st' hrun hs ih =>
    have hN' : t0 + N * h.1 ≤ t1 := by push_cast at hN; linarith
    obtain ⟨i1, i2, i3⟩ := ih hN' hist0 he0' hκ0
    have hNh : N * h.1 + h.1 ≤ t1 - t0 := by push_cast at hN; linarith
    have hN0 : 0 ≤ N * h.1 := by positivity
    have hbig : Real.exp (2 * (1 + 1 / 10 ^ 11) * L * (N * h.1)) * (e0 + N * h.1 * G) ≤
        Real.exp (2 * (1 + 1 / 10 ^ 11) * L * (t1 - t0)) * (e0 + (t1 - t0) * G) := by
      have g1 : N * h.1 ≤ t1 - t0 := by linarith
      have g2 : 0 ≤ t1 - t0 := le_trans (by positivity) g1
      refine mul_le_mul (Real.exp_le_exp.2 ?_) ?_ (by positivity) (Real.exp_pos _).le
      · exact mul_le_mul_of_nonneg_left g1 (by positivity)
      · linarith [mul_le_mul_of_nonneg_right g1 hG0]
    have hmem : t0 + N * h.1 ∈ Set.Icc t0 t1 := ⟨by linarith, hN'⟩
    obtain ⟨k1, q1, q2, q3⟩ := hloc (t0 + N * h.1) h.1 hmem.1 hh.le hh0 (by linarith)
    obtain ⟨s1, s2⟩ := step_order hT hS (fun _ => rfl) hok htab (f := f) (v := y (t0 + N * h.1))
      (v' := y (t0 + N * h.1 + h.1)) (hf.bound0 _ hmem) (hf.bound1 _ hmem) (hf.lip _ hmem)
      (fun x hx => hη x _ hmem hx) q1 q2 q3 (i1.inv hT hS) rfl hs i3 (by rw [← eκ]; exact i2) (by
        show _ + (ocst F d t.s η L ρ h.1 M0 M1 C).κ + h.1 * (1 + 1 / 10 ^ 10) * (M1 + η) + (ocst F d t.s η L ρ h.1 M0 M1 C).r ≤ ρ
        rw [← eκ, ← er, ← eV]
        linarith)
    refine ⟨Hist.step h u u' true true i1 hs, by rw [eκ]; exact s2, ?_⟩
    have e1 : t0 + N * h.1 + h.1 = t0 + ((N + 1 : ℕ) : ℝ) * h.1 := by push_cast; ring
    rw [e1, ← eG] at s1
    have g := gronwall_step (N := N) (x := 2 * (h.1 * (1 + 1 / 10 ^ 11) * L)) (e0 := e0)
      (e := Real.exp (2 * (1 + 1 / 10 ^ 11) * L * (N * h.1)) * (e0 + N * h.1 * G)) (g := h.1 * G) (by positivity)
      e00 (by positivity) (le_of_eq (by
        congr 1
        · congr 1; ring
        · ring)) s1
    refine g.trans_eq ?_
    congr 1
    · congr 1; ring
    · ring

/-- C123: **order `2s` with the tables of `double`.**  `h0` and `C` depend on the problem and on the number of stages only.
The error after `N` steps is at most `exp(2βLT)(e0+TG)`, where `G` contains `C h^{2s}`, the rounding errors, the threshold of the
test, the error `η` of the function and the precision of the table (`s/2·10^-12` times `2βLhV`). -/
theorem symp_double_order {t : GTab} (ht : t ∈ gaussD) {f : (Fin n → ℝ) → Fin n → ℝ} {y : ℝ → Fin n → ℝ} {t0 t1 ρ L M0 M1 : ℝ}
    (ht01 : t0 ≤ t1) (hL0 : 0 ≤ L) (hf : Smoothly f y t0 t1 ρ (2 * t.s) L M0 M1) :
    ∃ h0 C : ℝ, 0 < h0 ∧ 0 ≤ C ∧ ∀ (F : FP) (_ : 10 ≤ F.p) (itermax : ℤ) (fF : (Fin n → F.T) → Fin n → F.T) (η : ℝ) (_ : 0 ≤ η)
      (_ : ∀ x, ∀ t ∈ Set.Icc t0 t1, ‖val x - y t‖ ≤ ρ → ‖val (fF x) - f (val x)‖ ≤ η)
      (h : F.T) (_ : 0 < h.1) (_ : h.1 ≤ h0) (_ : h.1 * L ≤ 1 / 3)
      (junk st0 : St F.T n) (_ : construct (cfgFt F t itermax fF) junk = some (.ok st0))
      (u0 : Fin n → F.T) (e0 : ℝ) (_ : ‖val u0 - y t0‖ ≤ e0) (G κ r V : ℝ) (_ : G = (ocst F 12 t.s η L ρ h.1 M0 M1 C).G)
      (_ : κ = (ocst F 12 t.s η L ρ h.1 M0 M1 C).κ) (_ : r = (ocst F 12 t.s η L ρ h.1 M0 M1 C).r) (_ : V = M1 + η)
      (_ : Real.exp (2 * (1 + 1 / 10 ^ 11) * L * (t1 - t0)) * (e0 + (t1 - t0) * G) + κ + h.1 * (1 + 1 / 10 ^ 10) * V + r ≤ ρ)
      (N : ℕ) (u : Fin n → F.T) (st : St F.T n) (_ : RunF (cfgFt F t itermax fF) h N u0 st0 u st)
      (_ : t0 + N * h.1 ≤ t1),
      ‖val u + val st.e - y (t0 + N * h.1)‖ ≤ Real.exp (2 * (1 + 1 / 10 ^ 11) * L * (N * h.1)) * (e0 + N * h.1 * G) ∧
      ‖val u - y (t0 + N * h.1)‖ ≤ Real.exp (2 * (1 + 1 / 10 ^ 11) * L * (N * h.1)) * (e0 + N * h.1 * G) + κ := by
  obtain ⟨c1, A1, b1, hG, hA, hb⟩ := symp_table_gauss.1 t ht
  obtain ⟨h0, C, p1, p2, p3⟩ := symp_order (d := 12) (List.mem_append_left _ ht) le_rfl hG hA hb ht01 hL0 hf
  exact ⟨h0, C, p1, p2, fun F hp => p3 F hp (fun v => v.1 ≤ 5 / 10 ^ 308) fun _ hx => hx⟩

/-- C123: **order `2s` with the tables and the test of `long double`.** -/
theorem symp_long_order {t : GTab} (ht : t ∈ gaussL) {f : (Fin n → ℝ) → Fin n → ℝ} {y : ℝ → Fin n → ℝ} {t0 t1 ρ L M0 M1 : ℝ}
    (ht01 : t0 ≤ t1) (hL0 : 0 ≤ L) (hf : Smoothly f y t0 t1 ρ (2 * t.s) L M0 M1) :
    ∃ h0 C : ℝ, 0 < h0 ∧ 0 ≤ C ∧ ∀ (F : FP) (_ : 10 ≤ F.p) (itermax : ℤ) (fF : (Fin n → F.T) → Fin n → F.T) (η : ℝ) (_ : 0 ≤ η)
      (_ : ∀ x, ∀ t ∈ Set.Icc t0 t1, ‖val x - y t‖ ≤ ρ → ‖val (fF x) - f (val x)‖ ≤ η)
      (h : F.T) (_ : 0 < h.1) (_ : h.1 ≤ h0) (_ : h.1 * L ≤ 1 / 3)
      (junk st0 : St F.T n) (_ : construct (cfgLt F t itermax fF) junk = some (.ok st0))
      (u0 : Fin n → F.T) (e0 : ℝ) (_ : ‖val u0 - y t0‖ ≤ e0) (G κ r V : ℝ) (_ : G = (ocst F 33 t.s η L ρ h.1 M0 M1 C).G)
      (_ : κ = (ocst F 33 t.s η L ρ h.1 M0 M1 C).κ) (_ : r = (ocst F 33 t.s η L ρ h.1 M0 M1 C).r) (_ : V = M1 + η)
      (_ : Real.exp (2 * (1 + 1 / 10 ^ 11) * L * (t1 - t0)) * (e0 + (t1 - t0) * G) + κ + h.1 * (1 + 1 / 10 ^ 10) * V + r ≤ ρ)
      (N : ℕ) (u : Fin n → F.T) (st : St F.T n) (_ : RunF (cfgLt F t itermax fF) h N u0 st0 u st)
      (_ : t0 + N * h.1 ≤ t1),
      ‖val u + val st.e - y (t0 + N * h.1)‖ ≤ Real.exp (2 * (1 + 1 / 10 ^ 11) * L * (N * h.1)) * (e0 + N * h.1 * G) ∧
      ‖val u - y (t0 + N * h.1)‖ ≤ Real.exp (2 * (1 + 1 / 10 ^ 11) * L * (N * h.1)) * (e0 + N * h.1 * G) + κ := by
  obtain ⟨c1, A1, b1, hG, hA, hb⟩ := symp_table_gauss.2 t ht
  obtain ⟨h0, C, p1, p2, p3⟩ := symp_order (d := 33) (List.mem_append_right _ ht) (by norm_num) hG hA hb ht01 hL0 hf
  refine ⟨h0, C, p1, p2, fun F hp => p3 F hp (fun v => v.1 < 1 / 10 ^ 310) fun x hx => hx.le.trans ?_⟩
  have key : ∀ x : ℝ, 0 < x → 1 * x ≤ 5 * (x * 10 ^ 2) := fun x hx => by nlinarith
  rw [div_le_div_iff₀ (by positivity) (by positivity), show (310 : ℕ) = 308 + 2 from rfl, pow_add _ 308 2]
  exact key _ (by positivity)

/-! ### the hypotheses are met -/

/-- the free particle with velocity 1 on `[0,1]`. -/
theorem free_smoothly (N : ℕ) : Smoothly free (fun t => freeY 0 t) 0 1 1 N 1 1 2 where
  sol t _ := by
    have h := (freeY_smooth 1).deriv 0 (by norm_num)
    have e : free (freeY 0 t) = freeY 1 t := by funext i; fin_cases i <;> rfl
    show HasDerivWithinAt (freeY 0) (free (freeY 0 t)) _ _
    rw [e]
    rename_i ht
    exact (h t ht.1 ht.2).hasDerivWithinAt
  pos := one_pos
  smooth t _ x _ := by
    refine contDiffAt_pi.2 fun i => ?_
    fin_cases i
    · exact (contDiff_apply ℝ ℝ (1 : Fin 2)).contDiffAt
    · exact contDiffAt_const
  bound0 t ht := (freeY_smooth 0).bound 0 le_rfl t ht.1 ht.2
  bound1 t ht x hx := by
    refine (pi_norm_le_iff_of_nonneg (by norm_num)).2 fun i => ?_
    fin_cases i
    · have h1 := norm_le_pi_norm (x - freeY 0 t) 1
      have h2 : |x 1 - 1| ≤ 1 := h1.trans hx
      show |x 1| ≤ 2
      rw [abs_le] at h2 ⊢
      constructor <;> linarith
    · show |(0 : ℝ)| ≤ 2
      simp
  lip t _ x z _ _ := by
    rw [one_mul, pi_norm_le_iff_of_nonneg (norm_nonneg _)]
    intro i
    fin_cases i
    · exact norm_le_pi_norm (x - z) 1
    · show |(0 : ℝ) - 0| ≤ _
      simp

/-- step `2^-k`. -/
noncomputable def twoPow (F : FP) (k : ℕ) : F.T := ⟨2 ^ (-k : ℤ), Flt.two_zpow F.hp _⟩

theorem free_cst_order {F : FP} {h C : ℝ} (hh : 0 < h) (h16 : h ≤ 1 / 16) (hC0 : 0 ≤ C) (hC : C * h ^ (2 * 2) ≤ 1 / 100)
    (hε : F.eps ≤ h / 10 ^ 6) :
    Real.exp (2 * (1 + 1 / 10 ^ 11) * 1 * (1 - 0)) * (0 + (1 - 0) * (ocst F 12 2 0 1 1 h 1 2 C).G) +
      (ocst F 12 2 0 1 1 h 1 2 C).κ + h * (1 + 1 / 10 ^ 10) * (2 + 0) + (ocst F 12 2 0 1 1 h 1 2 C).r ≤ 1 := by
  have hε0 := F.eps_pos
  obtain ⟨k, hk⟩ : ∃ k, k = ocst F 12 2 0 1 1 h 1 2 C := ⟨_, rfl⟩
  rw [← hk]
  have hV : k.V = 2 := by rw [hk]; show (2 : ℝ) + 0 = 2; norm_num
  have hU : k.U = 2 := by rw [hk]; show (1 : ℝ) + 1 = 2; norm_num
  have hκ : k.κ = 2 * F.eps * (2 + 8 * (h * (1 + 1 / 10 ^ 11) * 2)) := by
    unfold OCst.κ; rw [hV, hU, hk]; rfl
  have hr : k.r = 20 * F.eps * (2 + h * (1 + 1 / 10 ^ 10) * 2) := by
    unfold OCst.r; rw [hV, hU, hk]; rfl
  have hεh : F.eps * h ≤ F.eps * (1 / 16) := mul_le_mul_of_nonneg_left h16 hε0.le
  have hεh0 : 0 ≤ F.eps * h := by positivity
  have hκ0 : 0 ≤ k.κ := by rw [hκ]; positivity
  have hκ1 : k.κ ≤ 8 * F.eps := by rw [hκ]; norm_num; nlinarith
  have hr1 : k.r ≤ 50 * F.eps := by rw [hr]; norm_num; nlinarith
  have hε1 : F.eps ≤ 1 / 10 ^ 7 := hε.trans (by norm_num at *; linarith)
  have hθ : (1 : ℝ) / 10 ^ 153 ≤ 1 / 10 ^ 13 :=
    one_div_le_one_div_of_le (by positivity) (pow_le_pow_right₀ (by norm_num) (by norm_num))
  have h7 : 7 * F.eps * k.κ / h ≤ 56 / 10 ^ 6 * F.eps := by
    rw [div_le_iff₀ hh]
    have := mul_le_mul hε hκ1 hκ0 (by positivity)
    norm_num at *
    nlinarith
  have hG : k.G ≤ 2 / 100 := by
    have e : k.G = 2 * (1 + 1 / 10 ^ 11) * (1 * (k.κ + k.r + 4 * (1 / 10 ^ 153) + h * ((2 : ℕ) / (2 * 10 ^ 12)) * k.V) + 0) +
        ((2 : ℕ) / 10 ^ 48) * k.V + 28 * F.eps * (1 + 1 / 10 ^ 11) * k.V + 7 * F.eps * k.κ / h + C * h ^ (2 * 2) := by
      unfold OCst.G; rw [hk]; rfl
    rw [e, hV]
    generalize (1 : ℝ) / 10 ^ 153 = θ at hθ
    generalize 7 * F.eps * k.κ / h = q at h7
    norm_num at *
    linarith
  have hexp : Real.exp (2 * (1 + 1 / 10 ^ 11) * 1 * (1 - 0)) ≤ 21 := by
    have h1 : Real.exp (2 * (1 + 1 / 10 ^ 11) * 1 * (1 - 0)) ≤ Real.exp 3 := Real.exp_le_exp.2 (by norm_num)
    refine h1.trans ?_
    have h2 : Real.exp 3 = Real.exp 1 ^ 3 := by rw [← Real.exp_nat_mul]; norm_num
    rw [h2]
    have := Real.exp_one_lt_d9
    calc Real.exp 1 ^ 3 ≤ 2.7182818286 ^ 3 := pow_le_pow_left₀ (Real.exp_pos _).le this.le _
      _ ≤ 21 := by norm_num
  have hG0 : 0 ≤ k.G := by
    have : 0 ≤ k.r := by rw [hr]; positivity
    have e : k.G = 2 * (1 + 1 / 10 ^ 11) * (1 * (k.κ + k.r + 4 * (1 / 10 ^ 153) + h * ((2 : ℕ) / (2 * 10 ^ 12)) * k.V) + 0) +
        ((2 : ℕ) / 10 ^ 48) * k.V + 28 * F.eps * (1 + 1 / 10 ^ 11) * k.V + 7 * F.eps * k.κ / h + C * h ^ (2 * 2) := by
      unfold OCst.G; rw [hk]; rfl
    rw [e, hV]
    positivity
  have := mul_le_mul hexp (show 0 + (1 - 0) * k.G ≤ 2 / 100 by linarith) (by linarith) (by norm_num)
  norm_num at *
  linarith

/-- the hypotheses of `symp_double_order` are met: free particle, steps `2^-k` small enough, then enough bits; all runs
exist, and the error is at most the bound, of order `h^4` down to the precision of the arithmetic and of the tables. -/
theorem free_order : ∃ (k0 : ℕ) (C : ℝ), 0 ≤ C ∧ ∀ k, k0 ≤ k → ∃ p0 : ℕ, ∀ (F : FP) (_ : p0 ≤ F.p) (junk : St F.T 2),
    ∃ st0, construct (cfgFt F gaussD2 100 freeF) junk = some (.ok st0) ∧ ∀ N : ℕ, N ≤ 2 ^ k →
      ∃ u st, RunF (cfgFt F gaussD2 100 freeF) (twoPow F k) N ![0, 1] st0 u st ∧
        ‖val u + val st.e - freeY 0 (N * (twoPow F k).1)‖ ≤ Real.exp (2 * (1 + 1 / 10 ^ 11) * (N * (twoPow F k).1)) *
          (N * (twoPow F k).1 * (ocst F 12 2 0 1 1 (twoPow F k).1 1 2 C).G) := by
  obtain ⟨h0, C, h0p, c0, hmain⟩ := symp_double_order (t := gaussD2) (by simp [gaussD]) zero_le_one zero_le_one
    (free_smoothly (2 * gaussD2.s))
  obtain ⟨k1, hk1⟩ := exists_pow_lt_of_lt_one h0p (by norm_num : (1 / 2 : ℝ) < 1)
  obtain ⟨k2, hk2⟩ := exists_pow_lt_of_lt_one (show 0 < 1 / (100 * (C + 1)) by positivity) (by norm_num : (1 / 2 : ℝ) < 1)
  refine ⟨k1 + k2 + 4, C, c0, fun k hk => ⟨k + 30, fun F hp junk => ?_⟩⟩
  have hval : (twoPow F k).1 = (1 / 2) ^ k := by
    show (2 : ℝ) ^ (-k : ℤ) = _
    rw [zpow_neg, zpow_natCast, one_div, inv_pow]
  have mono : ∀ j, j ≤ k → ((1 : ℝ) / 2) ^ k ≤ (1 / 2) ^ j := fun j hj => pow_le_pow_of_le_one (by norm_num) (by norm_num) hj
  have hh : 0 < (twoPow F k).1 := by rw [hval]; positivity
  have hh0 : (twoPow F k).1 ≤ h0 := by rw [hval]; exact (mono k1 (by omega)).trans hk1.le
  have h16 : (twoPow F k).1 ≤ 1 / 16 := by rw [hval]; exact (mono 4 (by omega)).trans (by norm_num)
  have hC : C * (twoPow F k).1 ^ (2 * 2) ≤ 1 / 100 := by
    have a1 : (twoPow F k).1 ≤ 1 / (100 * (C + 1)) := by rw [hval]; exact (mono k2 (by omega)).trans hk2.le
    have a2 : (twoPow F k).1 ^ (2 * 2) ≤ (twoPow F k).1 := pow_le_of_le_one hh.le (h16.trans (by norm_num)) (by norm_num)
    have a3 : C * (twoPow F k).1 ^ (2 * 2) ≤ C * (1 / (100 * (C + 1))) := mul_le_mul_of_nonneg_left (a2.trans a1) c0
    refine a3.trans ?_
    rw [mul_one_div, div_le_div_iff₀ (by positivity) (by norm_num)]
    linarith
  have hε : F.eps ≤ (twoPow F k).1 / 10 ^ 6 := by
    rw [hval]
    unfold FP.eps
    have b1 : (2 : ℝ) ^ (k + 30) ≤ 2 ^ F.p := pow_le_pow_right₀ (by norm_num) hp
    refine (one_div_le_one_div_of_le (by positivity) b1).trans ?_
    rw [pow_add, one_div_pow, div_div, div_le_div_iff₀ (by positivity) (by positivity)]
    have : (0 : ℝ) < 2 ^ k := by positivity
    norm_num
  have hT := cfgFt_tab (F := F) gaussD2_mem 100 freeF
  obtain ⟨st0, hst⟩ := (symp_construct (c := cfgFt F gaussD2 100 freeF) hT.la.le hT.lb.le hT.lc.le junk).2
    ⟨hT.two, hT.max⟩
  refine ⟨st0, hst, fun N hN => ?_⟩
  obtain ⟨u, st, hrun, -⟩ := free_runF (Hist.new hst) (twoPow F k) ![0, 1] N
  refine ⟨u, st, hrun, ?_⟩
  have hN1 : (N : ℝ) * (twoPow F k).1 ≤ 1 := by
    have : (N : ℝ) ≤ 2 ^ k := by exact_mod_cast hN
    rw [hval, one_div_pow, mul_one_div, div_le_one (by positivity)]
    exact this
  have := (hmain F (by omega) 100 freeF 0 le_rfl (fun x t _ _ => by
      have : val (freeF x) - free (val x) = 0 := by
        funext i
        fin_cases i
        · exact sub_self (x 1).1
        · exact sub_self (0 : ℝ)
      rw [this, norm_zero]) (twoPow F k) hh hh0 (by linarith) junk st0 hst ![0, 1] 0
    (by
      have : val ![0, (1 : F.T)] - freeY 0 0 = 0 := by
        funext i
        fin_cases i
        · exact sub_self (0 : ℝ)
        · exact sub_self (1 : ℝ)
      rw [this, norm_zero]) _ _ _ _ rfl rfl rfl rfl (free_cst_order hh h16 c0 hC hε) N u st hrun
    (by rw [zero_add]; exact hN1)).1
  simp only [zero_add, mul_one] at this
  exact this

end Odes.Symp
