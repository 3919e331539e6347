import Verif.Lemmas.SympFlt
import Verif.Lemmas.RkErr

/-!
# One step of SymplecticRK in floating point arithmetic, compared with the solution
-/

namespace Odes.Symp

open Odes.Mem Spec Finset

variable {F : FP} {n : ℕ}

/-- real vector. -/
def val (x : Fin n → F.T) : Fin n → ℝ := fun l => (x l).1

/-- the numbers which appear in the bound of the error: `ε` unit roundoff; `Λ`, `β` sums of the absolute
values of the lines of the tableau and of the weights; `δ` precision of the order conditions; `η` error
of the function; `L`, `ρ` Lipschitz constant and radius of the neighbourhood; `θ` square root of the
threshold of the test; `h` step; `M k` bounds of the derivatives of order `k` of the solution; `q` number
of order conditions used. -/
structure Cst where
  ε : ℝ
  Λ : ℝ
  β : ℝ
  δ : ℝ
  η : ℝ
  L : ℝ
  ρ : ℝ
  θ : ℝ
  h : ℝ
  q : ℕ
  M : ℕ → ℝ

namespace Cst

variable (k : Cst)

/-- bound of the slopes. -/
def V : ℝ := k.M 1 + k.L * k.ρ + k.η
/-- bound of the values. -/
def U : ℝ := k.M 0 + k.ρ
/-- bound of the compensation. -/
def κ : ℝ := 2 * k.ε * (k.U + 8 * (k.h * k.β * k.V))
/-- bound of the rounding errors of the sums of the stages. -/
def r : ℝ := 20 * k.ε * (k.U + k.h * k.Λ * k.V)
/-- truncation error of the stages. -/
noncomputable def D : ℝ := trunc k.δ k.Λ k.q k.M k.h
/-- truncation error of the step. -/
noncomputable def D0 : ℝ := trunc k.δ k.β (k.q + 1) k.M k.h
/-- what one step adds to the error, divided by `h`. -/
noncomputable def G : ℝ :=
  2 * k.β * (k.L * (k.κ + k.r + 4 * k.θ + k.D) + k.η) + 28 * k.ε * k.β * k.V + 7 * k.ε * k.κ / k.h +
    k.D0 / k.h

/-- signs and sizes. -/
structure Ok : Prop where
  ε0 : 0 ≤ k.ε
  ε1 : k.ε ≤ 1 / 1024
  Λ0 : 0 ≤ k.Λ
  β0 : 0 ≤ k.β
  δ0 : 0 ≤ k.δ
  η0 : 0 ≤ k.η
  L0 : 0 ≤ k.L
  ρ0 : 0 ≤ k.ρ
  θ0 : 0 ≤ k.θ
  h0 : 0 < k.h
  M0 : ∀ j, j ≤ k.q + 2 → 0 ≤ k.M j
  step : k.h * k.Λ * k.L ≤ 1 / 2

variable {k}

theorem Ok.V0 (H : k.Ok) : 0 ≤ k.V := by
  have := H.M0 1 (by omega); have := H.L0; have := H.ρ0; have := H.η0
  unfold V; positivity

theorem Ok.U0 (H : k.Ok) : 0 ≤ k.U := by
  have := H.M0 0 (by omega); have := H.ρ0
  unfold U; positivity

theorem Ok.κ0 (H : k.Ok) : 0 ≤ k.κ := by
  have := H.U0; have := H.V0; have := H.h0; have := H.β0; have := H.ε0
  unfold κ; positivity

theorem Ok.r0 (H : k.Ok) : 0 ≤ k.r := by
  have := H.U0; have := H.V0; have := H.h0; have := H.Λ0; have := H.ε0
  unfold r; positivity

theorem trunc_nonneg {δ S h : ℝ} {q : ℕ} {M : ℕ → ℝ} (hδ : 0 ≤ δ) (hS : 0 ≤ S) (hh : 0 ≤ h)
    (hM : ∀ j, j ≤ q + 1 → 0 ≤ M j) : 0 ≤ trunc δ S q M h := by
  unfold trunc
  have h1 : 0 ≤ ∑ k ∈ range q, h ^ (k + 1) / k.factorial * M (k + 1) :=
    sum_nonneg fun k hk => mul_nonneg (by positivity) (hM _ (by have := mem_range.1 hk; omega))
  have h2 := hM (q + 1) le_rfl
  positivity

theorem Ok.D_nonneg (H : k.Ok) : 0 ≤ k.D :=
  trunc_nonneg H.δ0 H.Λ0 H.h0.le fun j hj => H.M0 j (by omega)

theorem Ok.D0_nonneg (H : k.Ok) : 0 ≤ k.D0 :=
  trunc_nonneg H.δ0 H.β0 H.h0.le fun j hj => H.M0 j (by omega)

theorem Ok.G0 (H : k.Ok) : 0 ≤ k.G := by
  have := H.V0; have := H.h0; have := H.β0; have := H.ε0; have := H.κ0; have := H.r0; have := H.θ0
  have := H.D_nonneg; have := H.D0_nonneg; have := H.η0; have := H.L0
  unfold G; positivity

end Cst

theorem smooth_mono {E : Type*} [NormedAddCommGroup E] [NormedSpace ℝ E] {y : ℕ → ℝ → E} {a b : ℝ}
    {m m' : ℕ} {M : ℕ → ℝ} (h : Smooth y a b m M) (hm : m' ≤ m) : Smooth y a b m' M :=
  ⟨fun j hj => h.deriv j (by omega), fun j hj => h.bound j (by omega)⟩

/-- rounding errors of a stage. -/
theorem stage_round {s : ℕ} (hs : s ≤ 16) (he : F.eps ≤ 1 / 1024) {a : ℕ → F.T} {A : ℕ → ℝ} {h : F.T}
    (ha : ∀ j, j < s → |(a j).1 - A j| ≤ F.eps * |A j|) (h0 : 0 ≤ h.1) {S : ℝ}
    (hS : ∑ j : Fin s, |A j| ≤ S) {K : ℕ → Fin n → F.T} {u : Fin n → F.T} {U V : ℝ}
    (hu : ‖val u‖ ≤ U) (hV : 0 ≤ V) (hK : ∀ j, j < s → ‖val (K j)‖ ≤ V) :
    ‖(val fun l => sumL (fun j => a j * h * K j l) (u l) s) -
      (val u + h.1 • ∑ j : Fin s, A j • val (K j))‖ ≤ 20 * F.eps * (U + h.1 * S * V) := by
  have hε := F.eps_pos
  have hU0 : 0 ≤ U := (norm_nonneg _).trans hu
  have hS0 : 0 ≤ S := (sum_nonneg fun j _ => abs_nonneg _).trans hS
  rw [pi_norm_le_iff_of_nonneg (by positivity)]
  intro l
  have h1 := sumL_err3 (g := fun j => a j * h * K j l) (x := fun j => A j * h.1 * (K j l).1) (k := s)
    (fun j hj => term_err (ha j hj)) (u l)
  have e : ((val fun l => sumL (fun j => a j * h * K j l) (u l) s) -
      (val u + h.1 • ∑ j : Fin s, A j • val (K j))) l =
      (sumL (fun j => a j * h * K j l) (u l) s).1 - ((u l).1 + ∑ j ∈ range s, A j * h.1 * (K j l).1) := by
    simp only [Pi.sub_apply, Pi.add_apply, Pi.smul_apply, Finset.sum_apply, smul_eq_mul, val]
    congr 2
    rw [sum_range, mul_sum]
    exact sum_congr rfl fun j _ => by ring
  rw [e, Real.norm_eq_abs]
  refine h1.trans ?_
  have hul : |(u l).1| ≤ U := (norm_le_pi_norm (val u) l).trans hu
  have hsum : ∑ j ∈ range s, |A j * h.1 * (K j l).1| ≤ h.1 * S * V := by
    rw [sum_range]
    calc ∑ j : Fin s, |A j * h.1 * (K j l).1| ≤ ∑ j : Fin s, h.1 * |A j| * V := by
          refine sum_le_sum fun j _ => ?_
          rw [abs_mul, abs_mul, abs_of_nonneg h0, mul_comm |A j|]
          refine mul_le_mul_of_nonneg_left ?_ (by positivity)
          exact (norm_le_pi_norm (val (K j)) l).trans (hK j j.2)
      _ = h.1 * (∑ j : Fin s, |A j|) * V := by rw [mul_sum, sum_mul]
      _ ≤ _ := by gcongr
  exact mul_le_mul (gamma_le hε.le he hs) (add_le_add hul hsum) (by positivity) (by positivity)

/-- compensated summation of a whole vector. -/
theorem comp_round {u e d : Fin n → F.T} {x : Fin n → ℝ} (he : F.eps ≤ 1 / 1024) {U κ B : ℝ}
    (hu : ‖val u‖ ≤ U) (hκ : ‖val e‖ ≤ κ) (hB : 0 ≤ B) (hx : ‖x‖ ≤ B)
    (hd : ‖val d - x‖ ≤ 20 * F.eps * B) {u' e' : Fin n → F.T} (hu' : ∀ l, u' l = u l + (e l + d l))
    (he' : ∀ l, e' l = (e l + d l) + (u l - u' l)) :
    ‖(val u' + val e') - ((val u + val e) + x)‖ ≤ 28 * F.eps * B + 7 * F.eps * κ ∧
    ‖val e'‖ ≤ F.eps * (U + 7 * κ + 7 * B) := by
  have hε := F.eps_pos
  have hU0 : 0 ≤ U := (norm_nonneg _).trans hu
  have hκ0 : 0 ≤ κ := (norm_nonneg _).trans hκ
  have main : ∀ l, |(u' l).1 + (e' l).1 - (((u l).1 + (e l).1) + x l)| ≤
      28 * F.eps * B + 7 * F.eps * κ ∧ |(e' l).1| ≤ F.eps * (U + 7 * κ + 7 * B) := by
    intro l
    have hul : |(u l).1| ≤ U := (norm_le_pi_norm (val u) l).trans hu
    have hel : |(e l).1| ≤ κ := (norm_le_pi_norm (val e) l).trans hκ
    have hdl : |(d l).1 - x l| ≤ 20 * F.eps * B := (norm_le_pi_norm (val d - x) l).trans hd
    have hxl : |x l| ≤ B := (norm_le_pi_norm x l).trans hx
    obtain ⟨c1, c2⟩ := comp_err (u l) (e l + d l)
    rw [← hu', ← he'] at c1 c2
    have hs := F.err ((e l).1 + (d l).1)
    rw [← FP.add_val] at hs
    set e1 := e l + d l with he1
    have b0 : |(d l).1| ≤ (1 + 20 * F.eps) * B := by
      have : (d l).1 = x l + ((d l).1 - x l) := by ring
      rw [this]; exact (abs_add_le _ _).trans (by linarith)
    have b1 : |(e l).1 + (d l).1| ≤ κ + (1 + 20 * F.eps) * B := (abs_add_le _ _).trans (by linarith)
    have b2 : |e1.1| ≤ (1 + F.eps) * (κ + (1 + 20 * F.eps) * B) := by
      have : e1.1 = ((e l).1 + (d l).1) + (e1.1 - ((e l).1 + (d l).1)) := by ring
      rw [this]
      refine (abs_add_le _ _).trans ?_
      have := mul_le_mul_of_nonneg_left b1 hε.le
      linarith
    have b3 : (1 + F.eps) * (κ + (1 + 20 * F.eps) * B) ≤ 513 / 512 * κ + 524 / 512 * B := by
      have : (1 + F.eps) * (1 + 20 * F.eps) ≤ 524 / 512 := by nlinarith
      nlinarith [mul_le_mul_of_nonneg_right this hB]
    have b4 : |e1.1| ≤ 513 / 512 * κ + 524 / 512 * B := b2.trans b3
    constructor
    · have ee : (u' l).1 + (e' l).1 - (((u l).1 + (e l).1) + x l) =
          ((u' l).1 + (e' l).1 - ((u l).1 + e1.1)) + (e1.1 - ((e l).1 + (d l).1)) +
          ((d l).1 - x l) := by ring
      rw [ee]
      have t1 := abs_add_le (((u' l).1 + (e' l).1 - ((u l).1 + e1.1)) + (e1.1 - ((e l).1 + (d l).1)))
        ((d l).1 - x l)
      have t2 := abs_add_le ((u' l).1 + (e' l).1 - ((u l).1 + e1.1)) (e1.1 - ((e l).1 + (d l).1))
      have t3 := mul_le_mul_of_nonneg_left b4 (by positivity : 0 ≤ 5 * F.eps)
      have b1' : |(e l).1 + (d l).1| ≤ κ + 522 / 512 * B := by nlinarith
      have t4 := mul_le_mul_of_nonneg_left b1' hε.le
      nlinarith [mul_nonneg hε.le hB, mul_nonneg hε.le hκ0]
    · refine c2.trans (mul_le_mul_of_nonneg_left ?_ hε.le)
      linarith
  constructor
  · rw [pi_norm_le_iff_of_nonneg (by positivity)]
    exact fun l => (main l).1
  · rw [pi_norm_le_iff_of_nonneg (by positivity)]
    exact fun l => (main l).2

/-- hypotheses on the configuration: tables `A`, `b` rounded, sums and order conditions; threshold of the
test. -/
structure Tabs (c : Cfg F.T n) (A : ℕ → ℕ → ℝ) (b : ℕ → ℝ) (k : Cst) : Prop where
  eps : k.ε = F.eps
  la : ∀ i j, i < c.s → j < c.s → |(c.la.getD (i * c.s + j) 0).1 - A i j| ≤ F.eps * |A i j|
  lb : ∀ i, i < c.s → |(c.lb.getD i 0).1 - b i| ≤ F.eps * |b i|
  sumA : ∀ i, i < c.s → ∑ j : Fin c.s, |A i j| ≤ k.Λ
  sumB : ∑ j : Fin c.s, |b j| ≤ k.β
  node : ∀ i, i < c.s → 0 ≤ ∑ j : Fin c.s, A i j ∧ ∑ j : Fin c.s, A i j ≤ 1
  ordA : ∀ m, m < k.q → ∀ i, i < c.s → |∑ j : Fin c.s, A i j * (∑ l : Fin c.s, A j l) ^ m -
    (∑ l : Fin c.s, A i l) ^ (m + 1) / (m + 1)| ≤ k.δ
  ordB : ∀ m, m < k.q + 1 → |∑ j : Fin c.s, b j * (∑ l : Fin c.s, A j l) ^ m - 1 / (m + 1)| ≤ k.δ
  small : ∀ x, c.small x → x.1 ≤ k.θ ^ 2

/-- the error of one successful step. -/
theorem step_err {c : Cfg F.T n} (hT : Tab c) (hS : Scal c) (hnar : ∀ x, c.narrow x = x) {A : ℕ → ℕ → ℝ}
    {b : ℕ → ℝ} {k : Cst} (hk : k.Ok) (ht : Tabs c A b k) {f : (Fin n → ℝ) → Fin n → ℝ}
    {y : ℕ → ℝ → Fin n → ℝ} {t0 t1 : ℝ} (hy : Smooth y t0 t1 (k.q + 2) k.M) (hf : Tube f y t0 t1 k.ρ k.L)
    (hη : ∀ x t, t0 ≤ t → t ≤ t1 → ‖val x - y 0 t‖ ≤ k.ρ → ‖val (c.f x) - f (val x)‖ ≤ k.η)
    {st st' : St F.T n} (hist : Hist c st) {h : F.T} (hh : h.1 = k.h) {u u' : Fin n → F.T}
    (hs : step c h u true st = some (true, u', st')) {t e : ℝ} (ht0 : t0 ≤ t) (ht1 : t + k.h ≤ t1)
    (he : ‖val u + val st.e - y 0 t‖ ≤ e) (hκ : ‖val st.e‖ ≤ k.κ)
    (hρ : e + k.κ + k.h * k.Λ * k.η + k.r + k.D ≤ k.ρ / 2) (hρ1 : k.h * k.M 1 ≤ k.ρ / 2) :
    ‖val u' + val st'.e - y 0 (t + k.h)‖ ≤ (1 + 2 * (k.h * k.β * k.L)) * e + k.h * k.G ∧
    ‖val st'.e‖ ≤ k.κ := by
  have hε := hk.ε0; have hh0 := hk.h0; have hΛ0 := hk.Λ0; have hβ0 := hk.β0; have hη0 := hk.η0
  have hL0 := hk.L0; have hρ0 := hk.ρ0; have hθ0 := hk.θ0; have hV0 := hk.V0; have hU0 := hk.U0
  have hκ0 := hk.κ0; have hr0 := hk.r0; have hD0 := hk.D_nonneg
  have he0 : 0 ≤ e := (norm_nonneg _).trans he
  have hs0 : 0 < c.s := by have := hT.two; omega
  set nd : Fin c.s → ℝ := fun i => ∑ j : Fin c.s, A i j with hnd
  have hnd01 : ∀ i, 0 ≤ nd i ∧ nd i ≤ 1 := fun i => ht.node i i.2
  have hu : ‖val u - y 0 t‖ ≤ e + k.κ := by
    have : val u - y 0 t = (val u + val st.e - y 0 t) - val st.e := by abel
    rw [this]
    exact (norm_sub_le _ _).trans (add_le_add he hκ)
  have huU : ‖val u‖ ≤ k.U := by
    have h1 : val u = (val u - y 0 t) + y 0 t := by abel
    rw [h1]
    refine (norm_add_le _ _).trans ?_
    have := hy.bound 0 (by omega) t ht0 (by linarith)
    unfold Cst.U
    have : 0 ≤ k.h * k.Λ * k.η := by positivity
    linarith
  obtain ⟨-, -, -, Y0, hY0, h1⟩ := step_cases hT hS (hist.inv hT hS) hs
  have hY0 := hY0 (Or.inl rfl)
  rcases h1 with ⟨-, m, -, hstop, -, -, -, -, hdel, hu', he'⟩ | ⟨hfl, -⟩
  swap
  · cases hfl
  simp only [hnar] at hstop hdel
  set a := fun i j => c.la.getD (i * c.s + j) 0 * h with ha
  set I := iter a c.s c.f u Y0 with hI
  -- bounds of the slopes
  have slope : ∀ (x : Fin n → F.T) (τ : ℝ), t0 ≤ τ → τ ≤ t1 → ‖val x - y 0 τ‖ ≤ k.ρ →
      ‖val (c.f x)‖ ≤ k.V := by
    intro x τ h1 h2 h3
    have g1 := hη x τ h1 h2 h3
    have g2 := hf.lip τ h1 h2 (val x) h3
    have g3 := hy.bound 1 (by omega) τ h1 h2
    rw [hf.ode τ h1 h2] at g3
    have e : val (c.f x) = (val (c.f x) - f (val x)) + (f (val x) - f (y 0 τ)) + f (y 0 τ) := by abel
    rw [e]
    refine (norm_add_le _ _).trans ?_
    have g4 := norm_add_le (val (c.f x) - f (val x)) (f (val x) - f (y 0 τ))
    have g5 := mul_le_mul_of_nonneg_left h3 hL0
    unfold Cst.V
    linarith
  have htj : ∀ j : Fin c.s, t0 ≤ t + nd j * k.h ∧ t + nd j * k.h ≤ t1 := by
    intro j
    have := mul_nonneg (hnd01 j).1 hh0.le
    have := mul_le_mul_of_nonneg_right (hnd01 j).2 hh0.le
    constructor <;> linarith
  -- rounding errors of one sweep
  have round : ∀ p, (∀ j : Fin c.s, ‖val (I p j) - y 0 (t + nd j * k.h)‖ ≤ k.ρ) → ∀ i : Fin c.s,
      ‖val (I (p + 1) i) - (val u + k.h • ∑ j : Fin c.s, A i j • val (c.f (I p j)))‖ ≤ k.r := by
    intro p hp i
    have := stage_round (n := n) (u := u) hT.max (ht.eps ▸ hk.ε1) (a := fun j => c.la.getD (i * c.s + j) 0)
      (A := A i) (h := h) (fun j hj => ht.la i j i.2 hj) (by rw [hh]; exact hh0.le) (ht.sumA i i.2)
      (K := fun j => c.f (I p j)) huU hV0
      (fun j hj => slope _ _ (htj ⟨j, hj⟩).1 (htj ⟨j, hj⟩).2 (hp ⟨j, hj⟩))
    rw [hh, ← ht.eps] at this
    exact this
  have ordA : ∀ i : Fin c.s, ∀ m, m < k.q →
      |∑ j : Fin c.s, A i j * nd j ^ m - nd i ^ (m + 1) / (m + 1)| ≤ k.δ :=
    fun i m hm => ht.ordA m hm i i.2
  have hy1 : Smooth y t0 t1 (k.q + 1) k.M := smooth_mono hy (by omega)
  -- all iterates are near the solution
  have tube : ∀ p, ∀ i : Fin c.s, ‖val (I p i) - y 0 (t + nd i * k.h)‖ ≤ k.ρ := by
    intro p
    induction p with
    | zero =>
      intro i
      have e1 : I 0 i = u := hY0 i i.2
      rw [e1]
      have h3 := taylor_seq 1 (fun j hj => hy.deriv j (by omega)) (hy.bound 1 (by omega)) ht0 ht1
        (nd i * k.h) (mul_nonneg (hnd01 i).1 hh0.le) (by nlinarith [(hnd01 i).2])
      simp only [range_one, sum_singleton, pow_zero, Nat.factorial_zero, Nat.cast_one, div_one, one_smul,
        pow_one, Nat.factorial_one] at h3
      have e2 : val u - y 0 (t + nd i * k.h) = (val u - y 0 t) - (y 0 (t + nd i * k.h) - y 0 t) := by abel
      rw [e2]
      refine (norm_sub_le _ _).trans ?_
      have h4 : k.M 1 * (nd i * k.h) ≤ k.h * k.M 1 := by
        have := mul_le_mul_of_nonneg_right (hnd01 i).2 (mul_nonneg hh0.le (hk.M0 1 (by omega)))
        linarith
      have : 0 ≤ k.h * k.Λ * k.η := by positivity
      linarith
    | succ p ih =>
      intro i
      have h2 := rk_err hnd01 (hnd01 i) (ordA i) (ht.sumA i i.2) hy1 hf hL0 ht0 hh0.le ht1
        (Y := fun j => val (I p j)) (K := fun j => val (c.f (I p j))) (e := k.ρ) (η := k.η) ih le_rfl hη0 hρ0
        (fun j => hη _ _ (htj j).1 (htj j).2 (ih j)) (round p ih i)
      refine h2.trans ?_
      have h3 : trunc k.δ k.Λ k.q k.M k.h = k.D := rfl
      rw [h3]
      have h4 := mul_le_mul_of_nonneg_right hk.step hρ0
      have e2 : k.h * k.Λ * (k.η + k.L * k.ρ) = k.h * k.Λ * k.η + k.h * k.Λ * k.L * k.ρ := by ring
      rw [e2]
      linarith
  -- the test
  have test : ∀ i : Fin c.s, ‖val (I (m + 1) i) - val (I m i)‖ ≤ 4 * k.θ := by
    intro i
    rw [pi_norm_le_iff_of_nonneg (by positivity)]
    intro l
    have h2 := ht.small _ hstop.1
    exact sq_small hθ0 (((resid_ge _ _ _).2 i i.2 l).trans h2)
  have stage : ∀ i : Fin c.s, ‖val (I m i) - (val u + k.h • ∑ j : Fin c.s, A i j • val (c.f (I m j)))‖ ≤
      k.r + 4 * k.θ := by
    intro i
    have e2 : val (I m i) - (val u + k.h • ∑ j : Fin c.s, A i j • val (c.f (I m j))) =
        (val (I (m + 1) i) - (val u + k.h • ∑ j : Fin c.s, A i j • val (c.f (I m j)))) -
        (val (I (m + 1) i) - val (I m i)) := by abel
    rw [e2]
    exact (norm_sub_le _ _).trans (add_le_add (round m (tube m) i) (test i))
  -- error of the stages
  obtain ⟨i0, -, hmax⟩ := exists_max_image univ (fun i : Fin c.s => ‖val (I m i) - y 0 (t + nd i * k.h)‖)
    ⟨⟨0, hs0⟩, mem_univ _⟩
  set E := ‖val (I m i0) - y 0 (t + nd i0 * k.h)‖ with hE
  have hE0 : 0 ≤ E := norm_nonneg _
  have hEb : E ≤ 2 * (e + k.κ + k.h * k.Λ * k.η + k.r + 4 * k.θ + k.D) := by
    have h2 := rk_err hnd01 (hnd01 i0) (ordA i0) (ht.sumA i0 i0.2) hy1 hf hL0 ht0 hh0.le ht1
      (Y := fun j => val (I m j)) (K := fun j => val (c.f (I m j))) (e := E) (η := k.η)
      (fun j => hmax j (mem_univ _)) (tube m i0) hη0 hE0
      (fun j => hη _ _ (htj j).1 (htj j).2 (tube m j)) (stage i0)
    have h3 : trunc k.δ k.Λ k.q k.M k.h = k.D := rfl
    rw [h3, ← hE] at h2
    have h4 := mul_le_mul_of_nonneg_right hk.step hE0
    have e2 : k.h * k.Λ * (k.η + k.L * E) = k.h * k.Λ * k.η + k.h * k.Λ * k.L * E := by ring
    rw [e2] at h2
    linarith
  -- the increment
  have hx : ‖k.h • ∑ j : Fin c.s, b j • val (c.f (I m j))‖ ≤ k.h * k.β * k.V := by
    rw [norm_smul, Real.norm_eq_abs, abs_of_pos hh0, mul_assoc]
    refine mul_le_mul_of_nonneg_left ?_ hh0.le
    calc ‖∑ j : Fin c.s, b j • val (c.f (I m j))‖ ≤ ∑ j : Fin c.s, |b j| * k.V := by
          refine (norm_sum_le _ _).trans (sum_le_sum fun j _ => ?_)
          rw [norm_smul, Real.norm_eq_abs]
          exact mul_le_mul_of_nonneg_left (slope _ _ (htj j).1 (htj j).2 (tube m j)) (abs_nonneg _)
      _ = (∑ j : Fin c.s, |b j|) * k.V := by rw [sum_mul]
      _ ≤ _ := mul_le_mul_of_nonneg_right ht.sumB hV0
  have hdel' : ‖val st'.delta - k.h • ∑ j : Fin c.s, b j • val (c.f (I m j))‖ ≤
      20 * F.eps * (k.h * k.β * k.V) := by
    have := stage_round (n := n) (u := fun _ => 0) hT.max (ht.eps ▸ hk.ε1) (a := fun j => c.lb.getD j 0)
      (A := b) (h := h) (fun j hj => ht.lb j hj) (by rw [hh]; exact hh0.le) ht.sumB
      (K := fun j => c.f (I m j)) (U := 0)
      (by rw [pi_norm_le_iff_of_nonneg le_rfl]; intro l; exact (abs_zero (α := ℝ)).le) hV0
      (fun j hj => slope _ _ (htj ⟨j, hj⟩).1 (htj ⟨j, hj⟩).2 (tube m ⟨j, hj⟩))
    rw [hh, zero_add] at this
    refine le_of_eq_of_le ?_ this
    congr 1
    have z : val (F := F) (fun _ : Fin n => 0) = 0 := rfl
    rw [z, zero_add]
    congr 1
    funext l
    show (st'.delta l).1 = _
    rw [hdel l]
    rfl
  obtain ⟨w1, w2⟩ := comp_round (ht.eps ▸ hk.ε1) huU hκ (by positivity) hx hdel' hu' he'
  rw [← ht.eps] at w1 w2
  constructor
  · have ordB : ∀ m, m < k.q + 1 → |∑ j : Fin c.s, b j * nd j ^ m - 1 ^ (m + 1) / (m + 1)| ≤ k.δ := by
      intro m hm
      rw [one_pow]
      exact ht.ordB m hm
    have h2 := rk_err (w := fun j : Fin c.s => b j) hnd01 ⟨zero_le_one, le_rfl⟩ ordB ht.sumB hy hf hL0 ht0
      hh0.le ht1 (Y := fun j => val (I m j)) (K := fun j => val (c.f (I m j))) (e := E) (η := k.η)
      (fun j => hmax j (mem_univ _)) (tube m i0) hη0 hE0
      (fun j => hη _ _ (htj j).1 (htj j).2 (tube m j)) w1
    rw [one_mul] at h2
    have h3 : trunc k.δ k.β (k.q + 1) k.M k.h = k.D0 := rfl
    rw [h3] at h2
    refine h2.trans ?_
    have g1 := mul_le_mul_of_nonneg_left hEb (by positivity : 0 ≤ k.h * k.β * k.L)
    have g2 := mul_le_mul_of_nonneg_right hk.step (by positivity : 0 ≤ 2 * (k.h * k.β * k.η))
    have e3 : k.h * k.G = 2 * (k.h * k.β) * (k.L * (k.κ + k.r + 4 * k.θ + k.D) + k.η) +
        28 * k.ε * (k.h * k.β * k.V) + 7 * k.ε * k.κ + k.D0 := by
      unfold Cst.G
      field_simp
    rw [e3]
    nlinarith
  · refine w2.trans ?_
    have hB : 0 ≤ k.h * k.β * k.V := by positivity
    have g : k.U + 7 * k.κ + 7 * (k.h * k.β * k.V) ≤ 2 * (k.U + 8 * (k.h * k.β * k.V)) := by
      have : k.κ ≤ 1 / 512 * (k.U + 8 * (k.h * k.β * k.V)) := by
        unfold Cst.κ
        refine mul_le_mul_of_nonneg_right ?_ (by positivity)
        linarith [hk.ε1]
      linarith
    refine (mul_le_mul_of_nonneg_left g hε).trans_eq ?_
    unfold Cst.κ; ring

end Odes.Symp
