import Verif.Lemmas.SympErr
import Verif.Props.SympMap
import Mathlib.Analysis.Complex.ExponentialBounds

/-!
# Error of SymplecticRK in floating point arithmetic (C109)

The scalar type is a binary floating point arithmetic with `p` bits, round to nearest, exponents without
bound.  The exact solution `y` of `y' = f(y)` is any smooth function; the user's function is `f` computed
with an error at most `η` near the solution.
-/

namespace Odes.Symp

open Odes.Mem Spec Finset

variable {F : FP} {n : ℕ}

/-- `N` calls of `step` with the step size `h`, as in SymplecticRK/test/main.cc 33-48: `firstep` is true
at all calls, all calls succeed. -/
inductive RunF (c : Cfg F.T n) (h : F.T) : ℕ → (Fin n → F.T) → St F.T n → (Fin n → F.T) → St F.T n → Prop
  | zero (u st) : RunF c h 0 u st u st
  | succ {N u0 st0 u st u' st'} (ih : RunF c h N u0 st0 u st)
      (hs : step c h u true st = some (true, u', st')) : RunF c h (N + 1) u0 st0 u' st'

/-- C109: the error after any number of steps.  `u+e` (value and compensation) differs from the solution
by at most `exp(2βLT) (e0 + T G)`: `G` contains the truncation errors, the precision of the tables, the
threshold of the test, the error of the function and the rounding errors.  No term of `G` is multiplied
by the number of steps instead of the time, except `7ε κ/h`, which is of the order of the square of the
unit roundoff. -/
theorem symp_float_error {c : Cfg F.T n} (hT : Tab c) (hS : Scal c) (hnar : ∀ x, c.narrow x = x)
    {A : ℕ → ℕ → ℝ} {b : ℕ → ℝ} {k : Cst} (hk : k.Ok) (ht : Tabs c A b k) {f : (Fin n → ℝ) → Fin n → ℝ}
    {y : ℕ → ℝ → Fin n → ℝ} {t0 t1 : ℝ} (hy : Smooth y t0 t1 (k.q + 2) k.M) (hf : Tube f y t0 t1 k.ρ k.L)
    (hη : ∀ x t, t0 ≤ t → t ≤ t1 → ‖val x - y 0 t‖ ≤ k.ρ → ‖val (c.f x) - f (val x)‖ ≤ k.η)
    {st0 : St F.T n} (hist : Hist c st0) {h : F.T} (hh : h.1 = k.h) {u0 : Fin n → F.T} {e0 : ℝ}
    (he0 : ‖val u0 + val st0.e - y 0 t0‖ ≤ e0) (hκ : ‖val st0.e‖ ≤ k.κ)
    (hρ : Real.exp (2 * k.β * k.L * (t1 - t0)) * (e0 + (t1 - t0) * k.G) + k.κ + k.h * k.Λ * k.η + k.r +
      k.D ≤ k.ρ / 2) (hρ1 : k.h * k.M 1 ≤ k.ρ / 2)
    {N : ℕ} {u : Fin n → F.T} {st : St F.T n} (hrun : RunF c h N u0 st0 u st) (hN : t0 + N * k.h ≤ t1) :
    ‖val u + val st.e - y 0 (t0 + N * k.h)‖ ≤
      Real.exp (2 * k.β * k.L * (N * k.h)) * (e0 + N * k.h * k.G) ∧
    ‖val u - y 0 (t0 + N * k.h)‖ ≤
      Real.exp (2 * k.β * k.L * (N * k.h)) * (e0 + N * k.h * k.G) + k.κ := by
  have hh0 := hk.h0; have hβ0 := hk.β0; have hL0 := hk.L0; have hG0 := hk.G0
  have e00 : 0 ≤ e0 := (norm_nonneg _).trans he0
  suffices Hist c st ∧ ‖val st.e‖ ≤ k.κ ∧ ‖val u + val st.e - y 0 (t0 + N * k.h)‖ ≤
      Real.exp (2 * k.β * k.L * (N * k.h)) * (e0 + N * k.h * k.G) by
    obtain ⟨-, h1, h2⟩ := this
    refine ⟨h2, ?_⟩
    have e : val u - y 0 (t0 + N * k.h) = (val u + val st.e - y 0 (t0 + N * k.h)) - val st.e := by abel
    rw [e]
    exact (norm_sub_le _ _).trans (add_le_add h2 h1)
  induction hrun with
  | zero => exact ⟨hist, hκ, by simpa using he0⟩
  | @succ N u0 st0 u st u' st' hrun hs ih =>
    have hN' : t0 + N * k.h ≤ t1 := by push_cast at hN; linarith
    obtain ⟨i1, i2, i3⟩ := ih hist he0 hκ hN'
    have hNh : N * k.h + k.h ≤ t1 - t0 := by push_cast at hN; linarith
    have hbig : Real.exp (2 * k.β * k.L * (N * k.h)) * (e0 + N * k.h * k.G) ≤
        Real.exp (2 * k.β * k.L * (t1 - t0)) * (e0 + (t1 - t0) * k.G) := by
      have g1 : N * k.h ≤ t1 - t0 := by linarith
      have g2 : 0 ≤ t1 - t0 := le_trans (by positivity) g1
      refine mul_le_mul (Real.exp_le_exp.2 ?_) ?_ (by positivity) (Real.exp_pos _).le
      · exact mul_le_mul_of_nonneg_left g1 (by positivity)
      · linarith [mul_le_mul_of_nonneg_right g1 hG0]
    obtain ⟨s1, s2⟩ := step_err hT hS hnar hk ht hy hf hη i1 hh hs (t := t0 + N * k.h)
      (by have : 0 ≤ N * k.h := by positivity
          linarith) (by linarith) i3 i2 (by linarith) hρ1
    refine ⟨Hist.step h u u' true true i1 hs, s2, ?_⟩
    have e1 : t0 + N * k.h + k.h = t0 + ((N + 1 : ℕ) : ℝ) * k.h := by push_cast; ring
    rw [e1] at s1
    have g := gronwall_step (N := N) (x := 2 * (k.h * k.β * k.L)) (e0 := e0)
      (e := Real.exp (2 * k.β * k.L * (N * k.h)) * (e0 + N * k.h * k.G)) (g := k.h * k.G) (by positivity)
      e00 (by positivity) (le_of_eq (by
        congr 1
        · congr 1; ring
        · ring)) s1
    refine g.trans_eq ?_
    congr 1
    · congr 1; ring
    · ring

/-- a number rounded. -/
def FP.round (F : FP) (x : ℝ) : F.T := ⟨F.rnd x, F.rn.flt x⟩

/-- the method with the table `t` (its numbers rounded) and the threshold of `double`. -/
noncomputable def cfgFt (F : FP) (t : GTab) (itermax : ℤ) (f : (Fin n → F.T) → Fin n → F.T) :
    Cfg F.T n where
  s := t.s
  itermax := itermax
  f := f
  la := t.la.map F.round
  lb := t.lb.map F.round
  lc := t.lc.map F.round
  eq := (· = ·)
  narrow := id
  small v := v.1 ≤ 5 / 10 ^ 308
  big := F.round (10 ^ 40)

theorem cfgFt_tab {t : GTab} (ht : t ∈ gaussD ++ gaussL) (itermax : ℤ)
    (f : (Fin n → F.T) → Fin n → F.T) : Tab (cfgFt F t itermax f) := by
  obtain ⟨a, b, d⟩ := symp_tables.2.2 t ht
  exact ⟨(List.length_map ..).trans a, (List.length_map ..).trans b, (List.length_map ..).trans d,
    (mem_s ht).1, (mem_s ht).2⟩

theorem cfgFt_scal (t : GTab) (itermax : ℤ) (f : (Fin n → F.T) → Fin n → F.T) :
    Scal (cfgFt F t itermax f) := ⟨fun _ _ h => h, FP.mul_one'⟩

theorem round_zero : F.round 0 = 0 := Subtype.ext (F.rn.exact Flt.zero)

/-- the nodes lie between 0 and 1. -/
theorem table_nodes : ∀ t ∈ gaussD, ∀ i : Fin t.s, 0 ≤ ∑ j, t.A i j ∧ ∑ j, t.A i j ≤ 1 := by
  intro t ht i
  have hpos : ∀ t ∈ gaussD, ∀ i, i < t.s → t.ic i ≤ 10 ^ t.da := by decide +kernel
  have h := hpos t ht i i.2
  rw [← (shape_spec (memD ht).1).2.2.2.2.2 i]
  constructor
  · positivity
  · rw [div_le_one (by positivity)]
    exact_mod_cast h

/-- the tables of `double` meet the hypotheses of `symp_float_error`, with as many order conditions as
stages. -/
theorem cfgFt_tabs {t : GTab} (ht : t ∈ gaussD) (itermax : ℤ) (f : (Fin n → F.T) → Fin n → F.T) {k : Cst}
    (hε : k.ε = F.eps) (hΛ : k.Λ = 1) (hβ : k.β = 1 + 1 / 10 ^ 12) (hδ : k.δ = 2 / 10 ^ 12)
    (hθ : k.θ = 1 / 10 ^ 153) (hq : k.q ≤ t.s) :
    Tabs (cfgFt F t itermax f) (fun i j => t.la.getD (i * t.s + j) 0) (fun i => t.lb.getD i 0) k := by
  have htt : t ∈ gaussD ++ gaussL := List.mem_append_left _ ht
  have hA : ∀ i j : Fin t.s, t.la.getD (i * t.s + j) 0 = t.A i j := la_getD (memD ht).1
  have hb : ∀ i : Fin t.s, t.lb.getD i 0 = t.w i := lb_getD
  obtain ⟨o1, o2, -⟩ := symp_table_order.1 t ht
  refine ⟨hε, ?_, ?_, ?_, ?_, ?_, ?_, ?_, ?_⟩
  · intro i j _ _
    show |((t.la.map F.round).getD (i * t.s + j) 0).1 - _| ≤ _
    rw [getD_map _ _ _ 0 _ round_zero]
    exact F.err _
  · intro i _
    show |((t.lb.map F.round).getD i 0).1 - _| ≤ _
    rw [getD_map _ _ _ 0 _ round_zero]
    exact F.err _
  · intro i hi
    rw [hΛ]
    refine le_of_eq_of_le ?_ (symp_table_sums.1 t htt ⟨i, hi⟩)
    exact sum_congr rfl fun j _ => by rw [← hA ⟨i, hi⟩ j]
  · rw [hβ]
    refine le_of_eq_of_le ?_ (symp_table_sums.2 t htt)
    exact sum_congr rfl fun j _ => by rw [← hb j]
  · intro i hi
    have h1 : ∑ j : Fin t.s, t.la.getD (i * t.s + j) 0 = ∑ j, t.A ⟨i, hi⟩ j :=
      sum_congr rfl fun j _ => hA ⟨i, hi⟩ j
    show 0 ≤ ∑ j : Fin t.s, t.la.getD (i * t.s + j) 0 ∧ ∑ j : Fin t.s, t.la.getD (i * t.s + j) 0 ≤ 1
    rw [h1]
    exact table_nodes t ht ⟨i, hi⟩
  · intro m hm i hi
    rw [hδ]
    refine le_of_eq_of_le ?_ (o2 m (hm.trans_le hq) ⟨i, hi⟩)
    have h1 : ∀ i : Fin t.s, ∑ j : Fin t.s, t.la.getD (i * t.s + j) 0 = ∑ j, t.A i j :=
      fun i => sum_congr rfl fun j _ => hA i j
    show |∑ j : Fin t.s, t.la.getD (i * t.s + j) 0 * (∑ l : Fin t.s, t.la.getD (j * t.s + l) 0) ^ m -
      (∑ l : Fin t.s, t.la.getD (i * t.s + l) 0) ^ (m + 1) / (m + 1)| = _
    rw [h1 ⟨i, hi⟩]
    simp only [h1]
    congr 2
    exact sum_congr rfl fun j _ => by rw [← hA ⟨i, hi⟩ j]
  · intro m hm
    rw [hδ]
    have hs2 := (mem_s htt).1
    have := o1 m (by omega)
    have h1 : ∀ i : Fin t.s, ∑ j : Fin t.s, t.la.getD (i * t.s + j) 0 = ∑ j, t.A i j :=
      fun i => sum_congr rfl fun j _ => hA i j
    show |∑ j : Fin t.s, t.lb.getD j 0 * (∑ l : Fin t.s, t.la.getD (j * t.s + l) 0) ^ m - 1 / (m + 1)| ≤ _
    simp only [h1, hb]
    exact this.trans (by norm_num)
  · intro x hx
    rw [hθ]
    refine le_trans hx ?_
    have key : ∀ x : ℝ, 0 < x → 5 * x ≤ 1 * (x * 10 ^ 2) := fun x hx => by nlinarith
    rw [div_pow, ← pow_mul, one_pow, div_le_div_iff₀ (by positivity) (by positivity),
      show (308 : ℕ) = 153 * 2 + 2 from rfl, pow_add _ (153 * 2) 2]
    exact key _ (by positivity)

/-- the numbers of the bound for the tables of `double`. -/
noncomputable def gcst (F : FP) (η L ρ h : ℝ) (q : ℕ) (M : ℕ → ℝ) : Cst where
  ε := F.eps
  Λ := 1
  β := 1 + 1 / 10 ^ 12
  δ := 2 / 10 ^ 12
  η := η
  L := L
  ρ := ρ
  θ := 1 / 10 ^ 153
  h := h
  q := q
  M := M

theorem gcst_ok {F : FP} (hp : 10 ≤ F.p) {η L ρ h : ℝ} {q : ℕ} {M : ℕ → ℝ} (hη : 0 ≤ η) (hL : 0 ≤ L)
    (hρ : 0 ≤ ρ) (hh : 0 < h) (hM : ∀ j, j ≤ q + 2 → 0 ≤ M j) (hs : h * L ≤ 1 / 2) :
    (gcst F η L ρ h q M).Ok where
  ε0 := F.eps_pos.le
  ε1 := by
    show F.eps ≤ _
    unfold FP.eps
    refine one_div_le_one_div_of_le (by norm_num) ?_
    calc (1024 : ℝ) = 2 ^ 10 := by norm_num
      _ ≤ 2 ^ F.p := pow_le_pow_right₀ (by norm_num) hp
  Λ0 := zero_le_one
  β0 := by show (0 : ℝ) ≤ 1 + 1 / 10 ^ 12; positivity
  δ0 := by show (0 : ℝ) ≤ 2 / 10 ^ 12; positivity
  η0 := hη
  L0 := hL
  ρ0 := hρ
  θ0 := by show (0 : ℝ) ≤ 1 / 10 ^ 153; positivity
  h0 := hh
  M0 := hM
  step := by show h * 1 * L ≤ _; linarith

/-- C109 for the shipped tables of `double`, 2 to 16 stages, at least 10 bits, an object which has just
been constructed: error after `N` calls, for solutions with `q+2` derivatives, `q` at most the number of
stages.  The truncation terms of `G` are `O(h^(q+1))` and the precision of the tables `2e-12`. -/
theorem symp_gauss_float_error (hp : 10 ≤ F.p) {t : GTab} (ht : t ∈ gaussD) (itermax : ℤ)
    {fF : (Fin n → F.T) → Fin n → F.T} {η L ρ : ℝ} {h : F.T} {q : ℕ} (hq : q ≤ t.s) {M : ℕ → ℝ}
    (hη0 : 0 ≤ η) (hL : 0 ≤ L) (hρ0 : 0 ≤ ρ) (hh : 0 < h.1) (hhL : h.1 * L ≤ 1 / 2)
    {f : (Fin n → ℝ) → Fin n → ℝ} {y : ℕ → ℝ → Fin n → ℝ} {t0 t1 : ℝ} (ht01 : t0 ≤ t1)
    (hy : Smooth y t0 t1 (q + 2) M) (hf : Tube f y t0 t1 ρ L)
    (hη : ∀ x t, t0 ≤ t → t ≤ t1 → ‖val x - y 0 t‖ ≤ ρ → ‖val (fF x) - f (val x)‖ ≤ η)
    {junk st0 : St F.T n} (hst : construct (cfgFt F t itermax fF) junk = some (.ok st0))
    {u0 : Fin n → F.T} {e0 : ℝ} (he0 : ‖val u0 - y 0 t0‖ ≤ e0)
    (hρ : Real.exp (2 * (1 + 1 / 10 ^ 12) * L * (t1 - t0)) *
        (e0 + (t1 - t0) * (gcst F η L ρ h.1 q M).G) + (gcst F η L ρ h.1 q M).κ + h.1 * η +
        (gcst F η L ρ h.1 q M).r + (gcst F η L ρ h.1 q M).D ≤ ρ / 2) (hρ1 : h.1 * M 1 ≤ ρ / 2)
    {N : ℕ} {u : Fin n → F.T} {st : St F.T n} (hrun : RunF (cfgFt F t itermax fF) h N u0 st0 u st)
    (hN : t0 + N * h.1 ≤ t1) :
    ‖val u + val st.e - y 0 (t0 + N * h.1)‖ ≤
      Real.exp (2 * (1 + 1 / 10 ^ 12) * L * (N * h.1)) * (e0 + N * h.1 * (gcst F η L ρ h.1 q M).G) ∧
    ‖val u - y 0 (t0 + N * h.1)‖ ≤
      Real.exp (2 * (1 + 1 / 10 ^ 12) * L * (N * h.1)) * (e0 + N * h.1 * (gcst F η L ρ h.1 q M).G) +
        (gcst F η L ρ h.1 q M).κ := by
  have htt : t ∈ gaussD ++ gaussL := List.mem_append_left _ ht
  have hT := cfgFt_tab (F := F) htt itermax fF
  have hS := cfgFt_scal t itermax fF
  have hM : ∀ j, j ≤ q + 2 → 0 ≤ M j := fun j hj => (norm_nonneg _).trans (hy.bound j hj t0 le_rfl ht01)
  have hok := gcst_ok (F := F) (q := q) (M := M) hp hη0 hL hρ0 hh hM hhL
  have hz : val st0.e = 0 := by
    funext l
    show (st0.e l).1 = 0
    rw [(construct_inv hT hS hst).2.1 l]
    rfl
  refine symp_float_error hT hS (fun _ => rfl) hok
    (cfgFt_tabs ht itermax fF rfl rfl rfl rfl rfl hq) hy hf hη (Hist.new hst) rfl (by rwa [hz, add_zero])
    (by rw [hz, norm_zero]; exact hok.κ0) ?_ hρ1 hrun hN
  show Real.exp (2 * (1 + 1 / 10 ^ 12) * L * (t1 - t0)) *
        (e0 + (t1 - t0) * (gcst F η L ρ h.1 q M).G) + (gcst F η L ρ h.1 q M).κ + h.1 * 1 * η +
        (gcst F η L ρ h.1 q M).r + (gcst F η L ρ h.1 q M).D ≤ ρ / 2
  rwa [mul_one]

/-! ### the hypotheses are met -/

/-- free particle, in floating point arithmetic. -/
def freeF (y : Fin 2 → F.T) : Fin 2 → F.T := ![y 1, 0]

theorem FP.mul_zero' (x : F.T) : x * 0 = 0 := by
  apply Subtype.ext
  show F.rnd (x.1 * 0) = 0
  rw [mul_zero]
  exact F.rn.exact Flt.zero

theorem FP.add_zero' (x : F.T) : x + 0 = x := by
  apply Subtype.ext
  show F.rnd (x.1 + 0) = x.1
  rw [add_zero]
  exact F.rn.exact x.2

theorem FP.sub_self' (x : F.T) : x - x = 0 := by
  apply Subtype.ext
  show F.rnd (x.1 - x.1) = 0
  rw [sub_self]
  exact F.rn.exact Flt.zero

theorem resid_selfF {m : ℕ} (Z : ℕ → Fin m → F.T) {Y : ℕ → Fin m → F.T} {k : ℕ}
    (h : ∀ i, i < k → Z i = Y i) : resid Z Y k = 0 := by
  induction k with
  | zero => rfl
  | succ k ih =>
    have e : ∀ (L : List (Fin m)), L.foldl (fun t l => t + (Z k l - Y k l) * (Z k l - Y k l)) (0 : F.T) = 0 := by
      intro L
      induction L with
      | nil => rfl
      | cons a L ih =>
        rw [List.foldl_cons, h k (Nat.lt_succ_self k), FP.sub_self', FP.mul_zero', FP.add_zero']
        rw [h k (Nat.lt_succ_self k)] at ih
        exact ih
    show sqSum (Z k) (Y k) (resid Z Y k) = 0
    rw [ih fun i hi => h i (by omega)]
    exact e _

/-- for the free particle all calls succeed, whatever the rounding errors. -/
theorem free_stepI {st : St F.T 2} (hi : Inv (cfgFt F gaussD2 100 freeF) st) (h : F.T)
    (u : Fin 2 → F.T) :
    ∃ u' st', step (cfgFt F gaussD2 100 freeF) h u true st = some (true, u', st') := by
  set c := cfgFt F gaussD2 100 (freeF (F := F)) with hc
  have hT : Tab c := cfgFt_tab gaussD2_mem _ _
  have hS : Scal c := cfgFt_scal _ _ _
  rcases hs : step c h u true st with _ | ⟨r, u', st'⟩
  · have := ((step_none_iff hT hS hi h u true).1 hs).2.1
    cases this
  · cases r
    · obtain ⟨-, -, -, Y0, hY0, h1⟩ := step_cases hT hS hi hs
      rcases h1 with ⟨hf, -⟩ | ⟨-, -, -, -, -, hno⟩
      · cases hf
      exfalso
      set a := fun i j => c.la.getD (i * c.s + j) 0 * c.narrow h with ha
      have v1 : ∀ m i, i < c.s → iter a c.s c.f u Y0 m i 1 = u 1 := by
        intro m i hi
        cases m with
        | zero =>
          show Y0 i 1 = u 1
          rw [hY0 (Or.inl rfl) i hi]
        | succ m =>
          show sumL (fun j => a i j * (0 : F.T)) (u 1) c.s = u 1
          have : ∀ k, sumL (fun j => a i j * (0 : F.T)) (u 1) k = u 1 := by
            intro k
            induction k with
            | zero => rfl
            | succ k ih => rw [sumL, ih, FP.mul_zero', FP.add_zero']
          exact this _
      have v0 : ∀ m i, i < c.s → iter a c.s c.f u Y0 (m + 2) i = iter a c.s c.f u Y0 (m + 1) i := by
        intro m i hi
        funext l
        fin_cases l
        · show sumL (fun j => a i j * iter a c.s c.f u Y0 (m + 1) j 1) (u 0) c.s =
            sumL (fun j => a i j * iter a c.s c.f u Y0 m j 1) (u 0) c.s
          exact sumL_congr fun j hj => by rw [v1 _ _ hj, v1 _ _ hj]
        · show iter a c.s c.f u Y0 (m + 2) i 1 = iter a c.s c.f u Y0 (m + 1) i 1
          rw [v1 _ _ hi, v1 _ _ hi]
      have r0 : ∀ m, rho a c.s c.f u Y0 (m + 1) = 0 := fun m => resid_selfF _ (v0 m)
      refine hno 2 (by show 2 < (100 : ℤ).toNat; decide) ⟨?_, ?_⟩
      · rw [r0 1]
        show (0 : ℝ) ≤ 5 / 10 ^ 308
        positivity
      · show rho a c.s c.f u Y0 1 ≤ rho a c.s c.f u Y0 2
        rw [r0 0, r0 1]
        exact le_refl (0 : ℝ)
    · exact ⟨u', st', rfl⟩

theorem free_stepF {st : St F.T 2} (hist : Hist (cfgFt F gaussD2 100 freeF) st) (h : F.T) (u : Fin 2 → F.T) :
    ∃ u' st', step (cfgFt F gaussD2 100 freeF) h u true st = some (true, u', st') :=
  free_stepI (hist.inv (cfgFt_tab gaussD2_mem _ _) (cfgFt_scal _ _ _)) h u

theorem free_runF {st : St F.T 2} (hist : Hist (cfgFt F gaussD2 100 freeF) st) (h : F.T)
    (u : Fin 2 → F.T) (N : ℕ) :
    ∃ u' st', RunF (cfgFt F gaussD2 100 freeF) h N u st u' st' ∧ Hist (cfgFt F gaussD2 100 freeF) st' := by
  induction N with
  | zero => exact ⟨u, st, RunF.zero u st, hist⟩
  | succ N ih =>
    obtain ⟨u1, st1, h1, h2⟩ := ih
    obtain ⟨u2, st2, h3⟩ := free_stepF h2 h u1
    exact ⟨u2, st2, RunF.succ h1 h3, Hist.step h u1 u2 true true h2 h3⟩

/-- the free particle which starts at 0 with velocity 1. -/
def freeY : ℕ → ℝ → Fin 2 → ℝ
  | 0 => fun t => ![t, 1]
  | 1 => fun _ => ![1, 0]
  | _ + 2 => fun _ => 0

@[inherit_doc freeY] def freeM : ℕ → ℝ
  | 0 => 1
  | 1 => 1
  | _ + 2 => 0

theorem freeY_smooth (m : ℕ) : Smooth freeY 0 1 m freeM where
  deriv j _ t _ _ := by
    rw [hasDerivAt_pi]
    intro i
    match j with
    | 0 =>
      fin_cases i
      · exact hasDerivAt_id t
      · exact hasDerivAt_const t (1 : ℝ)
    | 1 => exact hasDerivAt_const t _
    | j + 2 => exact hasDerivAt_const t _
  bound j _ t h0 h1 := by
    match j with
    | 0 =>
      refine (pi_norm_le_iff_of_nonneg zero_le_one).2 fun i => ?_
      fin_cases i
      · show |t| ≤ 1
        rw [abs_of_nonneg h0]; exact h1
      · show |(1 : ℝ)| ≤ 1
        simp
    | 1 =>
      refine (pi_norm_le_iff_of_nonneg zero_le_one).2 fun i => ?_
      fin_cases i
      · show |(1 : ℝ)| ≤ 1
        simp
      · show |(0 : ℝ)| ≤ 1
        simp
    | j + 2 => exact norm_zero.le

theorem free_tube (ρ : ℝ) : Tube free freeY 0 1 ρ 1 where
  ode t _ _ := by
    funext i
    fin_cases i <;> rfl
  lip t _ _ x _ := by
    rw [one_mul, pi_norm_le_iff_of_nonneg (norm_nonneg _)]
    intro i
    fin_cases i
    · exact norm_le_pi_norm (x - freeY 0 t) 1
    · show |(0 : ℝ) - 0| ≤ _
      simp

/-- step 1/8. -/
noncomputable def eighth (F : FP) : F.T := ⟨2 ^ (-3 : ℤ), Flt.two_zpow F.hp _⟩

theorem eighth_val : (eighth F).1 = 1 / 8 := by
  show (2 : ℝ) ^ (-3 : ℤ) = 1 / 8
  norm_num

/-- the constants for the free particle: 53 bits, radius 1, step 1/8, two order conditions. -/
theorem free_cst {F : FP} (hp : F.p = 53) :
    Real.exp (2 * (1 + 1 / 10 ^ 12) * 1 * (1 - 0)) *
        (0 + (1 - 0) * (gcst F 0 1 1 (eighth F).1 2 freeM).G) + (gcst F 0 1 1 (eighth F).1 2 freeM).κ +
        (eighth F).1 * 0 + (gcst F 0 1 1 (eighth F).1 2 freeM).r +
        (gcst F 0 1 1 (eighth F).1 2 freeM).D ≤ 1 / 10 ^ 9 := by
  have hε0 := F.eps_pos
  have hε : F.eps ≤ 1 / 10 ^ 15 := by
    unfold FP.eps
    rw [hp]
    norm_num
  rw [eighth_val]
  set k := gcst F 0 1 1 (1 / 8) 2 freeM with hk
  have hD : k.D ≤ 1 / 10 ^ 12 := by
    show trunc (2 / 10 ^ 12) 1 2 freeM (1 / 8) ≤ _
    unfold trunc
    simp [Finset.sum_range_succ, freeM]
    norm_num
  have hD0 : k.D0 ≤ 1 / 10 ^ 12 := by
    show trunc (2 / 10 ^ 12) (1 + 1 / 10 ^ 12) 3 freeM (1 / 8) ≤ _
    unfold trunc
    simp [Finset.sum_range_succ, freeM]
    norm_num
  have hV : k.V = 2 := by
    show (1 : ℝ) + 1 * 1 + 0 = 2
    norm_num
  have hU : k.U = 2 := by
    show (1 : ℝ) + 1 = 2
    norm_num
  have hr : k.r ≤ 1 / 10 ^ 13 := by
    show 20 * F.eps * (k.U + 1 / 8 * 1 * k.V) ≤ _
    rw [hV, hU]
    norm_num at hε ⊢
    linarith
  have hκ : k.κ ≤ 1 / 10 ^ 13 := by
    show 2 * F.eps * (k.U + 8 * (1 / 8 * (1 + 1 / 10 ^ 12) * k.V)) ≤ _
    rw [hV, hU]
    norm_num at hε ⊢
    linarith
  have hθ : (1 : ℝ) / 10 ^ 153 ≤ 1 / 10 ^ 13 :=
    one_div_le_one_div_of_le (by positivity) (pow_le_pow_right₀ (by norm_num) (by norm_num))
  have hκ0 : 0 ≤ k.κ := by
    show 0 ≤ 2 * F.eps * (k.U + 8 * (1 / 8 * (1 + 1 / 10 ^ 12) * k.V))
    rw [hV, hU]
    positivity
  have hG : k.G ≤ 2 / 10 ^ 11 := by
    show 2 * (1 + 1 / 10 ^ 12) * (1 * (k.κ + k.r + 4 * (1 / 10 ^ 153) + k.D) + 0) +
      28 * F.eps * (1 + 1 / 10 ^ 12) * k.V + 7 * F.eps * k.κ / (1 / 8) + k.D0 / (1 / 8) ≤ _
    generalize (1 : ℝ) / 10 ^ 153 = θ at hθ
    rw [hV]
    have : F.eps * k.κ ≤ 1 / 10 ^ 15 * (1 / 10 ^ 13) := mul_le_mul hε hκ hκ0 (by positivity)
    norm_num at *
    linarith
  have hexp : Real.exp (2 * (1 + 1 / 10 ^ 12) * 1 * (1 - 0)) ≤ 21 := by
    have h1 : Real.exp (2 * (1 + 1 / 10 ^ 12) * 1 * (1 - 0)) ≤ Real.exp 3 :=
      Real.exp_le_exp.2 (by norm_num)
    refine h1.trans ?_
    have h2 : Real.exp 3 = Real.exp 1 ^ 3 := by rw [← Real.exp_nat_mul]; norm_num
    rw [h2]
    have := Real.exp_one_lt_d9
    calc Real.exp 1 ^ 3 ≤ 2.7182818286 ^ 3 := pow_le_pow_left₀ (Real.exp_pos _).le this.le _
      _ ≤ 21 := by norm_num
  have hG0 : 0 ≤ k.G := Cst.Ok.G0 (gcst_ok (by omega) le_rfl zero_le_one zero_le_one (by norm_num)
    (fun j _ => by
      match j with
      | 0 => exact zero_le_one
      | 1 => exact zero_le_one
      | j + 2 => exact le_rfl) (by norm_num))
  have : Real.exp (2 * (1 + 1 / 10 ^ 12) * 1 * (1 - 0)) * (0 + (1 - 0) * k.G) ≤ 21 * (2 / 10 ^ 11) := by
    refine mul_le_mul hexp (by linarith) (by linarith) (by norm_num)
  norm_num at this hκ hr hD ⊢
  linarith

/-- the hypotheses of `symp_gauss_float_error` are met: 53 bits, free particle, steps 1/8 up to time 1;
all runs exist, and the error is at most `1e-9`. -/
theorem free_errorF {F : FP} (hp : F.p = 53) (junk : St F.T 2) :
    ∃ st0, construct (cfgFt F gaussD2 100 freeF) junk = some (.ok st0) ∧ ∀ N : ℕ, N ≤ 8 →
      ∃ u st, RunF (cfgFt F gaussD2 100 freeF) (eighth F) N ![0, 1] st0 u st ∧
        ‖val u - freeY 0 (N / 8)‖ ≤ 1 / 10 ^ 9 := by
  have hT := cfgFt_tab (F := F) gaussD2_mem 100 freeF
  obtain ⟨st0, hst⟩ := (symp_construct (c := cfgFt F gaussD2 100 freeF) hT.la.le hT.lb.le hT.lc.le junk).2
    ⟨hT.two, hT.max⟩
  refine ⟨st0, hst, fun N hN => ?_⟩
  obtain ⟨u, st, hrun, -⟩ := free_runF (Hist.new hst) (eighth F) ![0, 1] N
  refine ⟨u, st, hrun, ?_⟩
  have hc := free_cst hp
  have hN8 : (N : ℝ) * (1 / 8) ≤ 1 := by
    have : (N : ℝ) ≤ 8 := by exact_mod_cast hN
    linarith
  have := (symp_gauss_float_error (by omega) (t := gaussD2) (by simp [gaussD]) 100 (h := eighth F) (q := 2)
    (fF := freeF) le_rfl le_rfl zero_le_one zero_le_one (by rw [eighth_val]; norm_num)
    (by rw [eighth_val]; norm_num) zero_le_one (freeY_smooth _) (free_tube 1)
    (fun x t _ _ _ => by
      have : val (freeF x) - free (val x) = 0 := by
        funext i
        fin_cases i
        · exact sub_self (x 1).1
        · exact sub_self (0 : ℝ)
      rw [this, norm_zero]) hst (u0 := ![0, 1]) (e0 := 0)
    (by
      have : val ![0, (1 : F.T)] - freeY 0 0 = 0 := by
        funext i
        fin_cases i
        · exact sub_self (0 : ℝ)
        · exact sub_self (1 : ℝ)
      rw [this, norm_zero]) (hc.trans (by norm_num))
    (by rw [eighth_val]; show (1 : ℝ) / 8 * 1 ≤ 1 / 2; norm_num) hrun
    (by rw [eighth_val, zero_add]; exact hN8)).2
  rw [eighth_val] at this hc
  have e1 : (0 : ℝ) + N * (1 / 8) = N / 8 := by ring
  rw [e1] at this
  refine this.trans (le_trans ?_ hc)
  set k := gcst F 0 1 1 (1 / 8) 2 freeM with hk
  have hok : k.Ok := gcst_ok (by omega) le_rfl zero_le_one zero_le_one (by norm_num)
    (fun j _ => by
      match j with
      | 0 => exact zero_le_one
      | 1 => exact zero_le_one
      | j + 2 => exact le_rfl) (by norm_num)
  have h1 := hok.G0
  have h2 := hok.r0
  have h3 := hok.D_nonneg
  have h4 : Real.exp (2 * (1 + 1 / 10 ^ 12) * 1 * (N * (1 / 8))) * (0 + N * (1 / 8) * k.G) ≤
      Real.exp (2 * (1 + 1 / 10 ^ 12) * 1 * (1 - 0)) * (0 + (1 - 0) * k.G) := by
    refine mul_le_mul (Real.exp_le_exp.2 ?_) ?_ (by positivity) (Real.exp_pos _).le
    · exact mul_le_mul_of_nonneg_left (by linarith) (by norm_num)
    · linarith [mul_le_mul_of_nonneg_right hN8 h1]
  linarith

/-- such an arithmetic exists. -/
example : ∃ F : FP, F.p = 53 := exists_fp 53 (by norm_num)

end Odes.Symp
