import Verif.Lemmas.RodasReal
import Mathlib.Analysis.Normed.Module.FiniteDimension
import Mathlib.Analysis.SpecificLimits.Basic

/-! Termination of Rodas on real problems. -/

namespace Odes.Spec

variable {n s : ℕ}

/-- `F` is bounded near `(x,y)`. -/
def BoundedNear (F : ℝ → (Fin n → ℝ) → Fin n → ℝ) (x : ℝ) (y : Fin n → ℝ) : Prop :=
  ∃ M δ : ℝ, 0 < δ ∧ ∀ x' y', |x' - x| ≤ δ → ‖y' - y‖ ≤ δ → ‖F x' y'‖ ≤ M

theorem boundedNear_of_continuous {F : ℝ → (Fin n → ℝ) → Fin n → ℝ}
    (hF : Continuous fun p : ℝ × (Fin n → ℝ) => F p.1 p.2) (x : ℝ) (y : Fin n → ℝ) :
    BoundedNear F x y := by
  have h0 : Filter.Tendsto (fun p : ℝ × (Fin n → ℝ) => ‖F p.1 p.2‖) (nhds (x, y))
      (nhds ‖F x y‖) := hF.norm.tendsto (x, y)
  have h := h0.eventually_lt_const (u := ‖F x y‖ + 1) (by linarith)
  obtain ⟨δ, hδ, hb⟩ := Metric.eventually_nhds_iff.1 h
  refine ⟨‖F x y‖ + 1, δ / 2, by positivity, fun x' y' hx hy => ?_⟩
  refine (hb (y := (x', y')) ?_).le
  rw [Prod.dist_eq, max_lt_iff, Real.dist_eq, dist_eq_norm]
  exact ⟨by linarith, by linarith⟩

theorem exists_mulVec_bound (J : Matrix (Fin n) (Fin n) ℝ) :
    ∃ N : ℝ, 0 ≤ N ∧ ∀ v, ‖J.mulVec v‖ ≤ N * ‖v‖ := by
  refine ⟨‖LinearMap.toContinuousLinearMap J.mulVecLin‖, norm_nonneg _, fun v => ?_⟩
  exact (LinearMap.toContinuousLinearMap J.mulVecLin).le_opNorm v

theorem sum_bound {ι : Type} (t : Finset ι) (p : ι → Prop) [DecidablePred p] (w : ι → ℝ)
    (v : ι → Fin n → ℝ) {B : ℝ} (hB : 0 ≤ B) (hv : ∀ j, p j → ‖v j‖ ≤ B) :
    ‖∑ j ∈ t, if p j then w j • v j else 0‖ ≤ (∑ j ∈ t, |w j|) * B := by
  rw [Finset.sum_mul]
  refine norm_sum_le_of_le _ fun j _ => ?_
  split_ifs with h
  · rw [norm_smul, Real.norm_eq_abs]
    exact mul_le_mul_of_nonneg_left (hv j h) (abs_nonneg _)
  · rw [norm_zero]; positivity

/-- the stages tend to 0 with the step size. -/
theorem stages_small {R : Rosenbrock ℝ s} (hγ : 0 < R.gamma) {F : ℝ → (Fin n → ℝ) → Fin n → ℝ}
    {x : ℝ} {y : Fin n → ℝ} (hF : BoundedNear F x y) (J : Matrix (Fin n) (Fin n) ℝ)
    (ft : Fin n → ℝ) : ∀ m : ℕ, ∃ K η : ℝ, 0 ≤ K ∧ 0 < η ∧ ∀ h, 0 < h → h < η → ∀ k ynew,
      R.Step F J ft x h y k ynew → ∀ j : Fin s, j.val < m → ‖k j‖ ≤ K * h := by
  obtain ⟨M, δ, hδ, hM⟩ := hF
  obtain ⟨N, hN, hJ⟩ := exists_mulVec_bound J
  intro m
  induction m with
  | zero => exact ⟨0, 1, le_rfl, one_pos, fun _ _ _ _ _ _ _ hj => by omega⟩
  | succ m ih =>
    obtain ⟨K, η, hK, hη, ih⟩ := ih
    by_cases hm : m < s
    swap
    · exact ⟨K, η, hK, hη, fun h h0 h1 k ynew hs j hj => ih h h0 h1 k ynew hs j (by omega)⟩
    let i : Fin s := ⟨m, hm⟩
    let A := (∑ j, |R.a i j|) * K
    let C := (∑ j, |R.c i j|) * K
    have hA : 0 ≤ A := by positivity
    have hC : 0 ≤ C := by positivity
    have hM0 : 0 ≤ M := (norm_nonneg _).trans (hM x y (by simp [hδ.le]) (by simp [hδ.le]))
    let B := M + C + |R.d i| * ‖ft‖
    have hB : 0 ≤ B := by positivity
    refine ⟨max K (2 * R.gamma * B), min (min η 1) (min (min (δ / (A + 1)) (δ / (|R.alpha i| + 1)))
      (1 / (2 * R.gamma * (N + 1)))), le_max_of_le_left hK, by positivity, ?_⟩
    intro h h0 h1 k ynew hs j hj
    have l1 : h < η := h1.trans_le ((min_le_left _ _).trans (min_le_left _ _))
    have l2 : h < 1 := h1.trans_le ((min_le_left _ _).trans (min_le_right _ _))
    have l3 : h < δ / (A + 1) :=
      h1.trans_le ((min_le_right _ _).trans ((min_le_left _ _).trans (min_le_left _ _)))
    have l4 : h < δ / (|R.alpha i| + 1) :=
      h1.trans_le ((min_le_right _ _).trans ((min_le_left _ _).trans (min_le_right _ _)))
    have l5 : h < 1 / (2 * R.gamma * (N + 1)) :=
      h1.trans_le ((min_le_right _ _).trans (min_le_right _ _))
    have hlt := ih h h0 l1 k ynew hs
    by_cases hji : j.val < m
    · exact (hlt j hji).trans (mul_le_mul_of_nonneg_right (le_max_left _ _) h0.le)
    have hjeq : j = i := Fin.ext (by show j.val = m; omega)
    subst hjeq
    refine le_trans ?_ (mul_le_mul_of_nonneg_right (le_max_right _ _) h0.le)
    have hKh : 0 ≤ K * h := by positivity
    have e1 : ‖∑ j, if j < i then R.a i j • k j else 0‖ ≤ A * h := by
      have := sum_bound Finset.univ (fun j => j < i) (R.a i) k hKh fun j hj => hlt j hj
      calc _ ≤ _ := this
        _ = _ := by ring
    have e2 : ‖∑ j, if j < i then (R.c i j / h) • k j else 0‖ ≤ C := by
      have := sum_bound Finset.univ (fun j => j < i) (fun j => R.c i j / h) k hKh
        fun j hj => hlt j hj
      refine this.trans (le_of_eq ?_)
      show _ = (∑ j, |R.c i j|) * K
      rw [Finset.sum_mul, Finset.sum_mul]
      refine Finset.sum_congr rfl fun j _ => ?_
      rw [abs_div, abs_of_pos h0]
      field_simp
    have e3 := hs.1 i
    have e4 : ‖F (x + R.alpha i * h) (y + ∑ j, if j < i then R.a i j • k j else 0)‖ ≤ M := by
      refine hM _ _ ?_ ?_
      · rw [add_sub_cancel_left, abs_mul, abs_of_pos h0]
        rw [lt_div_iff₀ (by positivity)] at l4
        nlinarith [abs_nonneg (R.alpha i)]
      · rw [add_sub_cancel_left]
        rw [lt_div_iff₀ (by positivity)] at l3
        nlinarith
    have e5 : ‖(h * R.d i) • ft‖ ≤ |R.d i| * ‖ft‖ := by
      rw [norm_smul, Real.norm_eq_abs, abs_mul, abs_of_pos h0]
      have := mul_nonneg (abs_nonneg (R.d i)) (norm_nonneg ft)
      nlinarith
    have e6 : ‖((1 / (h * R.gamma)) • (1 : Matrix (Fin n) (Fin n) ℝ) - J).mulVec (k i)‖ ≤ B := by
      rw [e3]
      exact (norm_add_le _ _).trans (add_le_add ((norm_add_le _ _).trans (add_le_add e4 e2)) e5)
    rw [Matrix.sub_mulVec, Matrix.smul_mulVec, Matrix.one_mulVec] at e6
    have e7 : ‖(1 / (h * R.gamma)) • k i‖ ≤ B + N * ‖k i‖ := by
      have := norm_sub_norm_le ((1 / (h * R.gamma)) • k i) (J.mulVec (k i))
      have := hJ (k i)
      linarith
    rw [norm_smul, Real.norm_eq_abs, abs_of_pos (by positivity)] at e7
    have e8 : h * R.gamma * N ≤ 1 / 2 := by
      rw [lt_div_iff₀ (by positivity)] at l5
      have : 0 < h * R.gamma := by positivity
      nlinarith
    have e9 : ‖k i‖ ≤ h * R.gamma * B + (h * R.gamma * N) * ‖k i‖ := by
      have := mul_le_mul_of_nonneg_left e7 (by positivity : 0 ≤ h * R.gamma)
      have e : h * R.gamma * (1 / (h * R.gamma) * ‖k i‖) = ‖k i‖ := by field_simp
      rw [e] at this
      linarith
    have := mul_le_mul_of_nonneg_right e8 (norm_nonneg (k i))
    linarith

/-- the error estimate is below 1 when the step size is small. -/
theorem wrms_small {a r : Fin n → ℝ} (hn : 0 < n) (ha : ∀ i, 0 < a i) (hr : ∀ i, 0 ≤ r i) :
    ∃ ε : ℝ, 0 < ε ∧ ∀ y ynew e : Fin n → ℝ, ‖e‖ ≤ ε → wrms a r y ynew e ≤ 1 := by
  have : Nonempty (Fin n) := ⟨⟨0, hn⟩⟩
  obtain ⟨i0, hi0⟩ := Finite.exists_min a
  refine ⟨a i0, ha i0, fun y ynew e he => ?_⟩
  unfold wrms
  rw [Real.sqrt_le_left (by norm_num), one_pow, div_le_one (by exact_mod_cast hn)]
  calc ∑ i, (e i / (a i + r i * max |y i| |ynew i|)) ^ 2 ≤ ∑ _i : Fin n, (1 : ℝ) := by
        refine Finset.sum_le_sum fun i _ => ?_
        have hp : a i ≤ a i + r i * max |y i| |ynew i| :=
          le_add_of_nonneg_right (mul_nonneg (hr i) (le_max_of_le_left (abs_nonneg _)))
        rw [sq_le_one_iff_abs_le_one, abs_div, abs_of_pos ((ha i).trans_le hp),
          div_le_one ((ha i).trans_le hp)]
        exact ((norm_le_pi_norm e i).trans he).trans ((hi0 i).trans hp)
    _ = n := by simp

end Odes.Spec

namespace Odes.Rodas

open Classical

variable {n : ℕ} {L : Lin X n} {Lr : Lin ℝ n} {P : Prob X n} {Q : Prob ℝ n} {g : Cfg n} {q : ℝ}
  {c : Coef ℝ} {a r : Fin n → ℝ} {Shape : (Fin n → Fin n → ℝ) → Prop}

theorem not_terminates_diverges {σ : Type} {st : σ → Res σ} {s : σ} (h : ¬ Terminates st s) :
    Diverges st s := by
  intro k
  by_contra hc
  exact h ⟨k, fun t ht => hc ⟨t, ht⟩⟩

/-- two consecutive states inside the `do` loop: the attempt was rejected. -/
theorem inner_inner {s s' : St n L.σ} (h : step L P g s = .next s') (hi : s.inner = true)
    (hi' : s'.inner = true) :
    ∃ j k err, attempt L P g.coef s.x s.h s.Y s.DY1 s.FX s.jac = some (j, k) ∧
      err = errNorm g s.Y k.YNEW k.AK6 ∧ ¬ err ≤ 1.0 ∧ s' = rejected g s j err := by
  rcases step_cases h with ⟨h1, -⟩ | ⟨-, j, k, err, ha, he, ⟨h1, rfl⟩ | ⟨-, -, -, rfl⟩⟩
  · rw [hi] at h1; simp at h1
  · exact ⟨j, k, err, ha, he, h1, rfl⟩
  · simp [accepted] at hi'

theorem fins_inj {y z : Fin n → ℝ} (h : fins y = fins z) : y = z := by
  funext i
  exact X.fin_inj.1 (congrFun h i)

theorem terminates_real (hn : 0 < n) (hq : Std g q) (hq1 : q < 1) (hL : LinX L Lr)
    (hS : LinSpec Lr Shape) (hP : ProbX P Q) (hg : RealCfg g c a r) (hγ : 0 < c.GAMMA)
    (hSh : ∀ x y, Shape (jacR Q x y)) (hF : ∀ x y, Spec.BoundedNear Q.F x y) {x0 xe : ℝ}
    (hx : x0 < xe) (y0 : Fin n → ℝ) (o : St n L.σ) (h : X) :
    Terminates (step L P g) (start o h (.fin x0) (.fin xe) (fins y0)) := by
  by_contra hT
  have hd := not_terminates_diverges hT
  generalize hs0 : start o h (.fin x0) (.fin xe) (fins y0) = s0 at hd
  have hreach : ∀ s, Reach (step L P g) s0 s →
      FInv x0 xe s ∧ ∃ x y, RInv hL hS Q c a r x0 y0 s x y := fun s hr =>
    rinv_reach hn hq hL hS hP hg hSh hx (o := o) (h := h) (hs0 ▸ hr)
  obtain ⟨k0, hk0⟩ := diverges_inner _ rfl hd
  obtain ⟨t0, ht0, hi0⟩ := hk0 k0 le_rfl
  obtain ⟨hf0, x, y, hr0⟩ := hreach t0 ⟨k0, ht0⟩
  obtain ⟨K, η, hK, hη, hsm⟩ := Spec.stages_small (R := method c) hγ (hF x y)
    (Matrix.of (jacR Q x y)) (dfxR Q x y) 6
  obtain ⟨ε, hε, hw⟩ := Spec.wrms_small hn hg.a0 hg.r0
  obtain ⟨h0, hh0⟩ := hr0.h hi0
  have hh0p := (hf0.h_pos hi0 hr0.time hh0).1
  let ρ := min 5 (1 / q)
  have hρ : 1 < ρ := lt_min (by norm_num) (by rw [lt_div_iff₀ hq.q0]; linarith)
  have key : ∀ m, ∃ t hh, run (step L P g) (k0 + m) s0 = .next t ∧ t.inner = true ∧
      FInv x0 xe t ∧ RInv hL hS Q c a r x0 y0 t x y ∧ t.h = .fin hh ∧ hh ≤ h0 * (1 / ρ) ^ m := by
    intro m
    induction m with
    | zero => exact ⟨t0, h0, ht0, hi0, hf0, hr0, hh0, by simp⟩
    | succ m ih =>
      obtain ⟨t, hh, b1, b2, b3, b4, b5, b6⟩ := ih
      obtain ⟨t', b1', b2'⟩ := hk0 (k0 + (m + 1)) (by omega)
      have hst : step L P g t = .next t' := by
        rw [← add_assoc, run_add, b1] at b1'
        simp only [run] at b1'
        cases hc : step L P g t with
        | next u => rw [hc] at b1'; exact b1'
        | ret u => rw [hc] at b1'; simp at b1'
        | throw u => rw [hc] at b1'; simp at b1'
        | ub u => rw [hc] at b1'; simp at b1'
      obtain ⟨j, k, err, ha, he, h1, rfl⟩ := inner_inner hst b2 b2'
      obtain ⟨f', x', y', b4'⟩ := hreach _ ⟨_, b1'⟩
      have hxx : x' = x := X.fin_inj.1 (b4'.time.symm.trans b4.time)
      have hyy : y' = y := fins_inj (b4'.Y.symm.trans b4.Y)
      subst hxx hyy
      have hhp := (b3.h_pos b2 b4.time b5).1
      obtain ⟨hh2, -, ks, ynew, c1, -, -, -, c5, -, c7⟩ := body_real hn hL hS hP hg b3 b4 b2 ha
      rcases facOf_range hq (err := err) (he ▸ errNorm_values _ _ _) with ⟨hn1, -⟩ | ⟨f, d1, d2, d3, d4⟩
      · rw [c7] at he; rw [he] at hn1; simp at hn1
      · have d5 : ρ ≤ f := (d4 h1).2
        have hf0 : 0 < f := by linarith
        refine ⟨_, hh / f, b1', b2', f', b4', ?_, ?_⟩
        · show t.h / facOf g err = _
          rw [b5, d1, X.fin_div _ _ hf0.ne']
        · rw [pow_succ, ← mul_assoc]
          have : hh / f ≤ hh / ρ := div_le_div_of_nonneg_left hhp.le (by linarith) d5
          refine this.trans ?_
          rw [div_eq_mul_one_div]
          exact mul_le_mul_of_nonneg_right b6 (by positivity)
  -- a step size which must be accepted
  have hlim : Filter.Tendsto (fun m : ℕ => h0 * (1 / ρ) ^ m) Filter.atTop (nhds 0) := by
    have := (tendsto_pow_atTop_nhds_zero_of_lt_one (r := 1 / ρ) (by positivity)
      (by rw [div_lt_one (by linarith)]; exact hρ)).const_mul h0
    simpa using this
  have hpos : 0 < min η (ε / (K + 1)) := by positivity
  obtain ⟨m, hm⟩ := (hlim.eventually_lt_const hpos).exists
  obtain ⟨t, hh, b1, b2, b3, b4, b5, b6⟩ := key m
  obtain ⟨t', b1', b2'⟩ := hk0 (k0 + (m + 1)) (by omega)
  have hst : step L P g t = .next t' := by
    rw [← add_assoc, run_add, b1] at b1'
    simp only [run] at b1'
    cases hc : step L P g t with
    | next u => rw [hc] at b1'; exact b1'
    | ret u => rw [hc] at b1'; simp at b1'
    | throw u => rw [hc] at b1'; simp at b1'
    | ub u => rw [hc] at b1'; simp at b1'
  obtain ⟨j, k, err, ha, he, h1, rfl⟩ := inner_inner hst b2 b2'
  obtain ⟨hh2, -, ks, ynew, c1, c2, -, -, c5, -, c7⟩ := body_real hn hL hS hP hg b3 b4 b2 ha
  rw [b5, X.fin_inj] at c1
  subst c1
  have hlt : hh < min η (ε / (K + 1)) := b6.trans_lt hm
  have hk := hsm hh c2 (hlt.trans_le (min_le_left _ _)) ks ynew c5 5 (by decide)
  have hle : ‖ks 5‖ ≤ ε := by
    have h3 : hh < ε / (K + 1) := hlt.trans_le (min_le_right _ _)
    rw [lt_div_iff₀ (by linarith)] at h3
    nlinarith
  apply h1
  rw [he, c7, X.ofSci_eq, X.fin_le]
  norm_num
  exact hw y ynew (ks 5) hle

end Odes.Rodas
