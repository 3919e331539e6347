import Verif.Lemmas.RockSmooth
import Verif.Props.Rock4Nonlin
import Verif.Props.StiffFisher
import Mathlib.Analysis.SpecialFunctions.Log.Deriv

/-!
# C125: convergence of order four of the adaptive ROCK4 solver on smooth problems

As C119, for `y' = f(y)` with `f` four times continuously differentiable near the points at distance at most `ρ` of
the solution `y` on `[t0, te]`, and arbitrary elsewhere.  `D` bounds the elementary differentials of `f` along the
solution (`Spec/ElemSmooth.lean`), `Λ` is a Lipschitz constant of `f` relative to the points of the solution.
-/

namespace Odes

open Rock4 (Sel)
open Spec

noncomputable section

variable {n : ℕ} {t0 te : ℝ}

/-- the elementary differentials along the solution are at most `D`. -/
def ElemFLe (f : (Fin n → ℝ) → Fin n → ℝ) (y : ℝ → Fin n → ℝ) (t0 te D : ℝ) : Prop :=
  ∀ t ∈ Set.Icc t0 te, ∀ k i, |elemF f (y t) k i| ≤ D

/-- `Λ` is a Lipschitz constant of `f` relative to the points of the solution, up to distance `r`. -/
def LipAlong (f : (Fin n → ℝ) → Fin n → ℝ) (y : ℝ → Fin n → ℝ) (t0 te r Λ : ℝ) : Prop :=
  ∀ t ∈ Set.Icc t0 te, ∀ v, ‖v - y t‖ ≤ r → ‖f v - f (y t)‖ ≤ Λ * ‖v - y t‖

/-- the constants exist. -/
theorem smooth_constants {f : (Fin n → ℝ) → Fin n → ℝ} {y : ℝ → Fin n → ℝ} {ρ : ℝ} (S : Smooth4 f y t0 te ρ) :
    ∃ Λ D : ℝ, 0 ≤ Λ ∧ LipAlong f y t0 te (ρ / 2) Λ ∧ 0 ≤ D ∧ ElemFLe f y t0 te D := by
  obtain ⟨Λ, l0, hΛ⟩ := Colloc.tube_lip S.sol fun x hx => (S.diff x hx).of_le (by norm_num)
  have hρ := S.pos
  have hc : ∀ k i, ContinuousOn (fun x => elemF f x k i) (Colloc.tube y t0 te ρ) := by
    have h0 : ∀ i, ContinuousOn (fun x => f x i) (Colloc.tube y t0 te ρ) := fun i x hx =>
      (S.sm i x hx).continuousAt.continuousWithinAt
    have h1 : ∀ i j, ContinuousOn (pdv j fun z => f z i) (Colloc.tube y t0 te ρ) := fun i j x hx =>
      (S.sm1 i j x hx).continuousAt.continuousWithinAt
    have h2 : ∀ i j k, ContinuousOn (pdv j (pdv k fun z => f z i)) (Colloc.tube y t0 te ρ) := fun i j k x hx =>
      (S.sm2 i j k x hx).continuousAt.continuousWithinAt
    have h3 : ∀ i j k l, ContinuousOn (pdv j (pdv k (pdv l fun z => f z i))) (Colloc.tube y t0 te ρ) := fun i j k l x hx =>
      (S.sm3 i j k l x hx).continuousAt.continuousWithinAt
    have L1c : ∀ u : (Fin n → ℝ) → Fin n → ℝ, (∀ i, ContinuousOn (fun x => u x i) (Colloc.tube y t0 te ρ)) → ∀ i,
        ContinuousOn (fun x => L1 (fun i j => pdv j (fun z => f z i) x) (u x) i) (Colloc.tube y t0 te ρ) := fun u hu i =>
      continuousOn_finsetSum _ fun j _ => (h1 i j).mul (hu j)
    have L2c : ∀ u v : (Fin n → ℝ) → Fin n → ℝ, (∀ i, ContinuousOn (fun x => u x i) (Colloc.tube y t0 te ρ)) →
        (∀ i, ContinuousOn (fun x => v x i) (Colloc.tube y t0 te ρ)) → ∀ i,
        ContinuousOn (fun x => L2 (fun i k j => pdv j (pdv k fun z => f z i) x) (u x) (v x) i) (Colloc.tube y t0 te ρ) :=
      fun u v hu hv i => continuousOn_finsetSum _ fun k _ =>
        (continuousOn_finsetSum _ fun j _ => (h2 i j k).mul (hu j)).mul (hv k)
    have L3c : ∀ i, ContinuousOn (fun x => L3 (fun i l k j => pdv j (pdv k (pdv l fun z => f z i)) x) (f x) (f x) (f x) i)
        (Colloc.tube y t0 te ρ) := fun i => continuousOn_finsetSum _ fun l _ => (continuousOn_finsetSum _ fun k _ =>
        (continuousOn_finsetSum _ fun j _ => (h3 i j k l).mul (h0 j)).mul (h0 k)).mul (h0 l)
    have d2 := L1c f h0
    have d3 := L2c f f h0 h0
    have d4 := L1c _ d2
    intro k i
    fin_cases k
    · exact h0 i
    · exact d2 i
    · exact d3 i
    · exact d4 i
    · exact L3c i
    · exact L2c f _ h0 d2 i
    · exact L1c _ d3 i
    · exact L1c _ d4 i
  choose M hM using fun (k : Fin 8) i => (Colloc.tube_compact S.sol ρ).exists_bound_of_continuousOn (hc k i)
  refine ⟨Λ, ∑ k, ∑ i, |M k i|, l0, fun t ht v hv => hΛ t ht v (y t) (by linarith) (by simpa using hρ.le),
    Finset.sum_nonneg fun k _ => Finset.sum_nonneg fun i _ => abs_nonneg _, fun t ht k i => ?_⟩
  refine (hM k i (y t) (S.on ht)).trans ((le_abs_self _).trans ?_)
  exact (Finset.single_le_sum (f := fun i => |M k i|) (fun j _ => abs_nonneg _) (Finset.mem_univ i)).trans
    (Finset.single_le_sum (f := fun k => ∑ i, |M k i|)
      (fun k _ => Finset.sum_nonneg fun j _ => abs_nonneg _) (Finset.mem_univ k))

/-- short enough for two constants. -/
theorem short_of {a b h : ℝ} (ha : 0 < a) (hh : 0 ≤ h) (h1 : (1 / a + |b|) * h ≤ 1) : h ≤ a := by
  have h2 : 1 / a * h ≤ 1 := by
    have := mul_nonneg (abs_nonneg b) hh
    linarith
  rw [one_div, inv_mul_le_iff₀ ha] at h2
  linarith

/-- C125 (one step): **every formula of the table makes an error of at most `C h^5 + 8e-14 D h` in a step
of length `h ≤ 1/C` that starts on the solution**, with one constant for all formulas and all starting times. -/
theorem rock4_smooth_local {f : (Fin n → ℝ) → Fin n → ℝ} {y : ℝ → Fin n → ℝ} {ρ : ℝ} (S : Smooth4 f y t0 te ρ) {D : ℝ}
    (hD : 0 ≤ D) (hel : ElemFLe f y t0 te D) :
    ∃ C : ℝ, 0 ≤ C ∧ ∀ d mz mr, Sel d mz mr → ∀ t h, t0 ≤ t → 0 ≤ h → C * h ≤ 1 → t + h ≤ te →
      ‖Gen.step (Rock4L.formulaOf Rock4.realTab d mz mr) f h (y t) - y (t + h)‖ ≤ C * h ^ 5 + 8e-14 * D * h := by
  refine sel_uniform (fun d a b C D' hCD h t h' h1 h2 h3 h4 => (h t h' h1 h2 ?_ h4).trans ?_) ?_
  · exact (mul_le_mul_of_nonneg_right hCD h2).trans h3
  · have := mul_le_mul_of_nonneg_right hCD (by positivity : 0 ≤ h' ^ 5)
    linarith
  · intro d a b hs
    obtain ⟨h0, C, p0, c0, hC⟩ := S.rock_local hD hel (Rock4L.formulaOf Rock4.realTab d a b)
      (small4 (Rock4.order_tab hs).1).below
    refine ⟨1 / h0 + |C|, fun t h h1 h2 h3 h4 => (hC t h h1 h2 (short_of p0 h2 h3) h4).trans ?_⟩
    have p1 : C ≤ 1 / h0 + |C| := by
      have : 0 < 1 / h0 := by positivity
      linarith [le_abs_self C]
    have := mul_le_mul_of_nonneg_right p1 (by positivity : 0 ≤ h ^ 5)
    linarith

/-- C125 (stability): the steps of all formulas, compared with the step from the solution. -/
theorem rock4_smooth_lipschitz {f : (Fin n → ℝ) → Fin n → ℝ} {y : ℝ → Fin n → ℝ} {ρ : ℝ} (S : Smooth4 f y t0 te ρ) {Λ : ℝ}
    (hΛ0 : 0 ≤ Λ) (hΛ : LipAlong f y t0 te (ρ / 2) Λ) :
    ∃ L : ℝ, 0 ≤ L ∧ ∀ d mz mr, Sel d mz mr → ∀ h, 0 ≤ h → L * h ≤ 1 → ∀ t ∈ Set.Icc t0 te, ∀ v, ‖v - y t‖ ≤ ρ / 2 →
      ‖Gen.step (Rock4L.formulaOf Rock4.realTab d mz mr) f h v
        - Gen.step (Rock4L.formulaOf Rock4.realTab d mz mr) f h (y t)‖
        ≤ (1 + (1 + 1e-14) * Λ * h + L * h ^ 2) * ‖v - y t‖ := by
  refine sel_uniform (fun d a b C D hCD h h' h1 h2 t ht v h4 => (h h' h1 ?_ t ht v h4).trans ?_) ?_
  · exact (mul_le_mul_of_nonneg_right hCD h1).trans h2
  · refine mul_le_mul_of_nonneg_right ?_ (norm_nonneg _)
    have := mul_le_mul_of_nonneg_right hCD (by positivity : 0 ≤ h' ^ 2)
    linarith
  · intro d a b hs
    obtain ⟨h0, L, p0, l0, hL⟩ := S.rock_stable hΛ (Rock4L.formulaOf Rock4.realTab d a b)
    refine ⟨1 / h0 + |L|, fun h h1 h2 t ht v h4 => (hL h h1 (short_of p0 h1 h2) t ht v h4).trans ?_⟩
    refine mul_le_mul_of_nonneg_right ?_ (norm_nonneg _)
    have hw : |(wStep (Rock4L.formulaOf Rock4.realTab d a b)).t1| ≤ 1 + 1e-14 := by
      have := (small4 (Rock4.order_tab hs).1).below.1
      simp only [W8.add, W8.smul, Taylor.exact8, mul_one] at this
      rw [abs_le] at this ⊢
      constructor <;> linarith [this.1, this.2]
    have q1 := mul_le_mul_of_nonneg_right hw (mul_nonneg hΛ0 h1)
    have p1 : L ≤ 1 / h0 + |L| := by
      have : 0 < 1 / h0 := by positivity
      linarith [le_abs_self L]
    have := mul_le_mul_of_nonneg_right p1 (by positivity : 0 ≤ h ^ 2)
    linarith

/-- what holds in every state of a call: lengths of the accepted steps `l` (last first), and the error. -/
structure SmInv (ρ C D Λ : ℝ) (t0 te : ℝ) (y : ℝ → Fin n → ℝ) (s : Rock4.St n) (l : List ℝ) : Prop where
  acc : (l.length : ℤ) = s.nacc
  pos : ∀ h ∈ l, 0 < h
  time : s.t = X.fin (t0 + l.sum)
  val : ∃ v, s.heap s.y = Rock4L.up v ∧ ∀ H, C * H ≤ 1 → (∀ h ∈ l, h ≤ H) →
    Real.exp (((1 + 1e-14) * Λ + C * H) * (te - t0)) * contrib (fun h => C * h ^ 4 + 8e-14 * D) l ≤ ρ / 2 →
    ‖v - y (t0 + l.sum)‖
      ≤ Real.exp (((1 + 1e-14) * Λ + C * H) * l.sum) * contrib (fun h => C * h ^ 4 + 8e-14 * D) l

theorem sm_iter {Pr : Rock4.Problem n} {f : (Fin n → ℝ) → Fin n → ℝ}
    (hP : ∀ v, Pr.F (Rock4L.up v) = Rock4L.up (f v)) {y : ℝ → Fin n → ℝ} {ρ C D0 Λ : ℝ}
    (hC0 : 0 ≤ C) (hD0 : 0 ≤ D0) (hΛ0 : 0 ≤ Λ)
    (hC : ∀ d mz mr, Sel d mz mr → ∀ t h, t0 ≤ t → 0 ≤ h → C * h ≤ 1 → t + h ≤ te →
      ‖Gen.step (Rock4L.formulaOf Rock4.realTab d mz mr) f h (y t) - y (t + h)‖
        ≤ C * h ^ 5 + 8e-14 * D0 * h)
    (hL : ∀ d mz mr, Sel d mz mr → ∀ h, 0 ≤ h → C * h ≤ 1 → ∀ t ∈ Set.Icc t0 te, ∀ v, ‖v - y t‖ ≤ ρ / 2 →
      ‖Gen.step (Rock4L.formulaOf Rock4.realTab d mz mr) f h v
        - Gen.step (Rock4L.formulaOf Rock4.realTab d mz mr) f h (y t)‖
        ≤ (1 + (1 + 1e-14) * Λ * h + C * h ^ 2) * ‖v - y t‖)
    {y0 : Rock4.Vec n} {s0 s s' : Rock4.St n} {l : List ℝ}
    (I : Rock4.Inv Pr Rock4.shipped te t0 y0 s0 s) (J : SmInv ρ C D0 Λ t0 te y s l)
    (h : Rock4.step Pr Rock4.shipped (X.fin te) s = .next s') :
    ∃ l', SmInv ρ C D0 Λ t0 te y s' l' := by
  obtain ⟨t, s1, hh, err, ht, hlt, -, D⟩ := Rock4.step_next Pr Rock4.shipped te t0 _ _ _ s' I h
  obtain ⟨v, hv, hN⟩ := J.val
  have et : t = t0 + l.sum := X.fin_inj.1 (ht.symm.trans J.time)
  have hpos : 0 < hh := lt_of_lt_of_le (by norm_num [Rock4.hmin]) D.hge
  have hle := D.hle
  by_cases ha : err < 1.0
  · obtain ⟨a1, a2, -, a4, -⟩ := D.accept ha
    rw [hv, stages_up Pr _ hP] at a4
    have hS := sum_nonneg_of J.pos
    have ets : t0 + (hh :: l).sum = t0 + l.sum + hh := by rw [List.sum_cons]; ring
    have hpos' : ∀ x ∈ hh :: l, 0 < x := by
      intro x hx
      rcases List.mem_cons.1 hx with rfl | hx
      · exact hpos
      · exact J.pos x hx
    refine ⟨hh :: l, by rw [a2, ← J.acc]; simp, hpos', by rw [a1, ets, et], _, a4, ?_⟩
    intro H hH1 h1 h2
    have hA := contrib_nonneg (c := fun h => C * h ^ 4 + 8e-14 * D0) (fun h _ => by positivity) J.pos
    rw [contrib_cons] at h2 ⊢
    have hhH : hh ≤ H := h1 hh (by simp)
    have hH0 : 0 ≤ H := hpos.le.trans hhH
    generalize hG : (1 + 1e-14) * Λ + C * H = G at h2 ⊢
    have hG0 : 0 ≤ G := by rw [← hG]; positivity
    have hex : (0 : ℝ) ≤ Real.exp (G * (te - t0)) := by positivity
    have hc : (0 : ℝ) ≤ (C * hh ^ 4 + 8e-14 * D0) * hh := by positivity
    have h3 : Real.exp (G * (te - t0)) * contrib (fun h => C * h ^ 4 + 8e-14 * D0) l ≤ ρ / 2 := by
      have := mul_nonneg hex hc
      linarith
    have he := hN H hH1 (fun x hx => h1 x (by simp [hx])) (by rw [hG]; exact h3)
    rw [hG] at he
    have htin : t0 + l.sum ∈ Set.Icc t0 te := ⟨by linarith, by linarith⟩
    have hv1 : ‖v - y (t0 + l.sum)‖ ≤ ρ / 2 := by
      refine (he.trans ?_).trans h3
      refine mul_le_mul_of_nonneg_right (Real.exp_le_exp.2 ?_) hA
      exact mul_le_mul_of_nonneg_left (by linarith [htin.2]) hG0
    have hh1 : C * hh ≤ 1 := (mul_le_mul_of_nonneg_left hhH hC0).trans hH1
    have p1 := hL _ _ _ D.chosen.sel hh hpos.le hh1 _ htin v hv1
    have p2 := hC _ _ _ D.chosen.sel (t0 + l.sum) hh htin.1 hpos.le hh1 (by linarith)
    rw [ets, List.sum_cons]
    refine accumulate hG0 hpos.le hS hA hc he ?_
    have p3 : (1 + (1 + 1e-14) * Λ * hh + C * hh ^ 2) * ‖v - y (t0 + l.sum)‖
        ≤ (1 + G * hh) * ‖v - y (t0 + l.sum)‖ := by
      refine mul_le_mul_of_nonneg_right ?_ (norm_nonneg _)
      have := mul_le_mul_of_nonneg_left hhH (mul_nonneg hC0 hpos.le)
      rw [← hG]
      nlinarith
    have p4 : (C * hh ^ 4 + 8e-14 * D0) * hh = C * hh ^ 5 + 8e-14 * D0 * hh := by ring
    rw [p4]
    refine le_trans ?_ (add_le_add (p1.trans p3) p2)
    refine le_trans (le_of_eq ?_) (norm_add_le _ _)
    congr 1
    abel
  · obtain ⟨a1, a2, -, a4, -, a6, -⟩ := D.reject ha
    have e : s'.heap s'.y = Rock4L.up v := by rw [a4, a6, hv]
    exact ⟨l, by rw [a2]; exact J.acc, J.pos, by rw [a1]; exact J.time, v, e, hN⟩

/-- C125: **convergence of order four.**  For every problem and every solution on `[t0, te]` near which it is smooth
there is a constant `C` such that in every state of every call of the solver which starts on the solution, if no
accepted step is longer than `H ≤ 1/C` and the bound is at most `ρ/2`, the value held by the solver differs from the
solution by at most `exp((Λ' + C H)(te - t0)) Σ (C h^5 + 8e-14 D h)`, where `Λ' = (1 + 1e-14) Λ` and the sum
is over the accepted steps. -/
theorem rock4_smooth_run {f : (Fin n → ℝ) → Fin n → ℝ} {y : ℝ → Fin n → ℝ} {ρ : ℝ} (hle : t0 ≤ te)
    (S : Smooth4 f y t0 te ρ) {Λ D : ℝ} (hΛ0 : 0 ≤ Λ) (hΛ : LipAlong f y t0 te (ρ / 2) Λ) (hD : 0 ≤ D)
    (hel : ElemFLe f y t0 te D) :
    ∃ C : ℝ, 0 ≤ C ∧ ∀ (Pr : Rock4.Problem n) (_ : ∀ v, Pr.F (Rock4L.up v) = Rock4L.up (f v))
      (o : Rock4.St n) (p : ℕ) (h0 : X) (_ : Rock4.Valid o p) (_ : o.heap p = Rock4L.up (y t0))
      (s : Rock4.St n)
      (_ : Reach (Rock4.step Pr Rock4.shipped (X.fin te)) (Rock4.start Pr o p (X.fin t0) h0) s),
      ∃ (l : List ℝ) (v : Fin n → ℝ), (l.length : ℤ) = s.nacc ∧ (∀ h ∈ l, 0 < h) ∧
        s.t = X.fin (t0 + l.sum) ∧ s.heap s.y = Rock4L.up v ∧
        ∀ H E, C * H ≤ 1 → (∀ h ∈ l, h ≤ H) →
          E = Real.exp (((1 + 1e-14) * Λ + C * H) * (te - t0))
            * (l.map fun h => C * h ^ 5 + 8e-14 * D * h).sum → E ≤ ρ / 2 → ‖v - y (t0 + l.sum)‖ ≤ E := by
  obtain ⟨C, hC0, hC⟩ := rock4_smooth_local S hD hel
  obtain ⟨L, hL0, hL⟩ := rock4_smooth_lipschitz S hΛ0 hΛ
  refine ⟨C + L, by positivity, ?_⟩
  intro Pr hP o p h0 hv hy0 s h
  have key : Rock4.Inv Pr Rock4.shipped te t0 (o.heap p) (Rock4.start Pr o p (X.fin t0) h0) s ∧
      ∃ l, SmInv ρ (C + L) D Λ t0 te y s l := by
    refine Reach.inv (I := fun s => Rock4.Inv Pr Rock4.shipped te t0 (o.heap p)
      (Rock4.start Pr o p (X.fin t0) h0) s ∧ ∃ l, SmInv ρ (C + L) D Λ t0 te y s l) ?_ ?_ h
    · rintro s s' ⟨I, l, J⟩ hst
      refine ⟨Rock4.step_inv Pr Rock4.shipped te t0 _ _ _ _ I hst, sm_iter hP (by positivity) hD hΛ0
        (fun d mz mr hs t h h1 h2 h3 h4 => (hC d mz mr hs t h h1 h2 (by nlinarith) h4).trans ?_)
        (fun d mz mr hs h h1 h2 t ht v h4 => (hL d mz mr hs h h1 (by nlinarith) t ht v h4).trans ?_) I J hst⟩
      · have : 0 ≤ L * h ^ 5 := by positivity
        linarith
      · refine mul_le_mul_of_nonneg_right ?_ (norm_nonneg _)
        have : 0 ≤ C * h ^ 2 := by positivity
        linarith
    · refine ⟨hv.inv Pr Rock4.shipped hle h0, [], rfl, by simp, ?_, y t0, ?_, ?_⟩
      · show X.fin t0 = _
        simp
      · have hne : p ≠ o.fn := by
          have := hv.nodup
          rw [List.nodup_cons] at this
          intro e
          exact this.1 (by rw [e]; simp)
        show Rock4.upd o.heap o.fn (Pr.F (o.heap p)) p = _
        rw [Rock4.upd, if_neg hne]; exact hy0
      · simp [contrib]
  obtain ⟨I, l, J⟩ := key
  obtain ⟨v, hv1, hv2⟩ := J.val
  refine ⟨l, v, J.acc, J.pos, J.time, hv1, fun H E h1 h2 hE hE1 => ?_⟩
  have ec : (l.map fun h => (C + L) * h ^ 5 + 8e-14 * D * h).sum
      = contrib (fun h => (C + L) * h ^ 4 + 8e-14 * D) l := by
    unfold contrib
    congr 2
    funext h
    ring
  rw [ec] at hE
  have h3 := hv2 H h1 h2 (by rw [← hE]; exact hE1)
  refine h3.trans ?_
  rw [hE]
  obtain ⟨t, ht, -, hte, -⟩ := I.time
  have et : t = t0 + l.sum := X.fin_inj.1 (ht.symm.trans J.time)
  have hA := contrib_nonneg (c := fun h => (C + L) * h ^ 4 + 8e-14 * D) (fun h _ => by positivity) J.pos
  rcases l with _ | ⟨z, l⟩
  · simp [contrib]
  · refine mul_le_mul_of_nonneg_right (Real.exp_le_exp.2 ?_) hA
    have hH0 : 0 ≤ H := (J.pos z (by simp)).le.trans (h2 z (by simp))
    exact mul_le_mul_of_nonneg_left (by linarith) (by positivity)

/-- C125: the value returned: **if no accepted step was longer than `H ≤ 1/C`, and the bound is at most `ρ/2`, the
error at `te` is at most `exp((Λ' + C H) T) T (C H^4 + 8e-14 D)`**, `T = te - t0`. -/
theorem rock4_smooth_call {f : (Fin n → ℝ) → Fin n → ℝ} {y : ℝ → Fin n → ℝ} {ρ : ℝ} (hle : t0 ≤ te)
    (S : Smooth4 f y t0 te ρ) {Λ D : ℝ} (hΛ0 : 0 ≤ Λ) (hΛ : LipAlong f y t0 te (ρ / 2) Λ) (hD : 0 ≤ D)
    (hel : ElemFLe f y t0 te D) :
    ∃ C : ℝ, 0 ≤ C ∧ ∀ (Pr : Rock4.Problem n) (_ : ∀ v, Pr.F (Rock4L.up v) = Rock4L.up (f v))
      (o : Rock4.St n) (p : ℕ) (h0 : X) (_ : Rock4.Valid o p) (_ : o.heap p = Rock4L.up (y t0))
      (s : Rock4.St n)
      (_ : Returns (Rock4.step Pr Rock4.shipped (X.fin te)) (Rock4.start Pr o p (X.fin t0) h0) s),
      ∃ (l : List ℝ) (v : Fin n → ℝ), (l.length : ℤ) = s.nacc ∧ (∀ h ∈ l, 0 < h) ∧ l.sum = te - t0 ∧
        s.heap s.y = Rock4L.up v ∧
        ∀ H E, C * H ≤ 1 → (∀ h ∈ l, h ≤ H) →
          E = Real.exp (((1 + 1e-14) * Λ + C * H) * (te - t0)) * ((te - t0) * (C * H ^ 4 + 8e-14 * D)) →
          E ≤ ρ / 2 → ‖v - y te‖ ≤ E := by
  obtain ⟨C, hC0, hC⟩ := rock4_smooth_run hle S hΛ0 hΛ hD hel
  refine ⟨C, hC0, ?_⟩
  intro Pr hP o p h0 hv hy0 s h
  obtain ⟨u, hu, hr⟩ := h.last
  have hI : Rock4.Inv Pr Rock4.shipped te t0 (o.heap p) (Rock4.start Pr o p (X.fin t0) h0) u :=
    Reach.inv (I := fun s => Rock4.Inv Pr Rock4.shipped te t0 (o.heap p)
      (Rock4.start Pr o p (X.fin t0) h0) s)
      (fun s s' hI hst => Rock4.step_inv Pr Rock4.shipped te t0 _ _ _ _ hI hst)
      (hv.inv Pr Rock4.shipped hle h0) hu
  obtain ⟨rfl, hte⟩ := Rock4.step_ret Pr Rock4.shipped te t0 _ _ _ _ hI hr
  obtain ⟨l, v, h1, h2, h3, h4, h5⟩ := hC Pr hP o p h0 hv hy0 s hu
  have et : t0 + l.sum = te := X.fin_inj.1 (h3.symm.trans hte)
  rw [et] at h5
  refine ⟨l, v, h1, h2, by linarith, h4, fun H E hH1 hH hE hE1 => ?_⟩
  have hb : Real.exp (((1 + 1e-14) * Λ + C * H) * (te - t0)) * (l.map fun h => C * h ^ 5 + 8e-14 * D * h).sum
      ≤ E := by
    rw [hE]
    refine mul_le_mul_of_nonneg_left ?_ (Real.exp_pos _).le
    have hc := contrib_le (c := fun h => C * h ^ 4 + 8e-14 * D) (H := H) (fun h a b => by
      have := mul_le_mul_of_nonneg_left (pow_le_pow_left₀ a.le b 4) hC0
      show C * h ^ 4 + 8e-14 * D ≤ C * H ^ 4 + 8e-14 * D
      linarith) h2 hH
    have ec : (l.map fun h => C * h ^ 5 + 8e-14 * D * h).sum
        = contrib (fun h => C * h ^ 4 + 8e-14 * D) l := by
      unfold contrib
      congr 2
      funext h
      ring
    rw [ec]
    refine hc.trans (le_of_eq ?_)
    rw [← et]; ring
  exact (h5 H _ hH1 hH rfl (hb.trans hE1)).trans hb

/-! ### the problem shipped with Rock4 -/

open Stiff Spec.Heat

/-- an array. -/
def ext (v : Fin n → ℝ) (k : ℤ) : ℝ := if h : 0 ≤ k ∧ k < n then v ⟨k.toNat, by omega⟩ else 0

theorem ext_fin (v : Fin n → ℝ) (i : Fin n) : ext v i = v i := by
  unfold ext
  rw [dif_pos ⟨by omega, by omega⟩]
  congr 1

/-- the function computed by `operator()` of the Fisher problem, Rock4-NG/test/FKPPOMP.hpp 34-44. -/
def fisherField (n : ℕ) (v : Fin n → ℝ) : Fin n → ℝ := fun i => field n (fisherRhs n) (ext v) i

theorem fisherField_eq (hn : 2 ≤ n) (v : Fin n → ℝ) (i : Fin n) : fisherField n v i
    = fisherUh2 n * (ext v (cellMirror n (i - 1)) - 2 * v i + ext v (cellMirror n (i + 1))) + fisherF (v i) := by
  rw [fisherField, field_fisher (by exact_mod_cast hn) _ (by omega) (by omega), diffuse, ext_fin]

theorem ext_smooth (k : ℤ) : ContDiff ℝ 4 fun v : Fin n → ℝ => ext v k := by
  unfold ext
  split_ifs with h
  · exact contDiff_apply ℝ ℝ _
  · exact contDiff_const

/-- the reaction is smooth between 0 and 1. -/
theorem fisherF_smooth {u : ℝ} (h0 : 0 < u) (h1 : u < 1) : ContDiffAt ℝ 4 fisherF u := by
  have e : fisherF =ᶠ[nhds u] fun u => 0.5 * u * (1 - u) := by
    filter_upwards [Ioo_mem_nhds h0 h1] with z hz
    rw [fisherF_eq, if_pos ⟨hz.1.le, hz.2.le⟩]
  refine ContDiffAt.congr_of_eventuallyEq ?_ e
  exact ((contDiff_const.mul contDiff_id).mul (contDiff_const.sub contDiff_id)).contDiffAt

/-- the clipped right hand side is smooth near every solution between 0 and 1. -/
theorem fisher_smooth (hn : 2 ≤ n) {y : ℝ → Fin n → ℝ} (hy : SolOn (fisherField n) y t0 te)
    (h01 : ∀ t ∈ Set.Icc t0 te, ∀ i, 0 < y t i ∧ y t i < 1) : ∃ ρ : ℝ, Smooth4 (fisherField n) y t0 te ρ := by
  have hc : ∀ i, ContinuousOn (fun t => y t i) (Set.Icc t0 te) := fun i t ht =>
    (continuous_apply i).continuousAt.comp_continuousWithinAt (hy t ht).continuousWithinAt
  have hm : ∀ i, ∃ r : ℝ, 0 < r ∧ ∀ t ∈ Set.Icc t0 te, r < y t i ∧ y t i < 1 - r := by
    intro i
    rcases (Set.Icc t0 te).eq_empty_or_nonempty with he | he
    · exact ⟨1, one_pos, fun t ht => by rw [he] at ht; exact ht.elim⟩
    · obtain ⟨a, ha, ha'⟩ := isCompact_Icc.exists_isMinOn he (hc i)
      obtain ⟨b, hb, hb'⟩ := isCompact_Icc.exists_isMaxOn he (hc i)
      refine ⟨min (y a i) (1 - y b i) / 2, by
        have := (h01 a ha i).1
        have := (h01 b hb i).2
        exact half_pos (lt_min (by assumption) (by linarith)), fun t ht => ?_⟩
      have q1 : y a i ≤ y t i := ha' ht
      have q2 : y t i ≤ y b i := hb' ht
      have q3 := min_le_left (y a i) (1 - y b i)
      have q4 := min_le_right (y a i) (1 - y b i)
      have q5 := (h01 a ha i).1
      have q6 := (h01 b hb i).2
      constructor <;> linarith
  choose r hr0 hr using hm
  have : Nonempty (Fin n) := ⟨⟨0, by omega⟩⟩
  obtain ⟨i0, -, hi0⟩ := Finset.exists_min_image Finset.univ r Finset.univ_nonempty
  refine ⟨r i0, hy, hr0 i0, ?_⟩
  rintro x ⟨t, ht, hx⟩
  rw [contDiffAt_pi]
  intro i
  have hxi : 0 < x i ∧ x i < 1 := by
    have q1 := (norm_le_pi_norm (x - y t) i).trans hx
    rw [Real.norm_eq_abs, Pi.sub_apply, abs_le] at q1
    have q2 := hi0 i (Finset.mem_univ i)
    have q3 := hr i t ht
    constructor <;> linarith [q1.1, q1.2, q3.1, q3.2]
  have e : (fun z => fisherField n z i) = fun z => fisherUh2 n * (ext z (cellMirror n (i - 1)) - 2 * z i
      + ext z (cellMirror n (i + 1))) + fisherF (z i) := funext fun z => fisherField_eq hn z i
  rw [e]
  have ci : ContDiff ℝ 4 fun z : Fin n → ℝ => z i := contDiff_apply ℝ ℝ i
  refine ContDiffAt.add ?_ ?_
  · exact (contDiff_const.mul (((ext_smooth _).sub (contDiff_const.mul ci)).add (ext_smooth _))).contDiffAt
  · exact ContDiffAt.comp (g := fisherF) (f := fun z : Fin n → ℝ => z i) x (fisherF_smooth hxi.1 hxi.2) ci.contDiffAt

/-- `rho()` is a Lipschitz constant. -/
theorem fisher_lip (hn : 2 ≤ n) (y : ℝ → Fin n → ℝ) (r : ℝ) : LipAlong (fisherField n) y t0 te r (fisherRho n) := by
  intro t _ v _
  have hn' : (2 : ℤ) ≤ n := by exact_mod_cast hn
  have hr : 0 ≤ fisherRho n := by
    have := uh2_pos hn'
    unfold fisherRho
    linarith
  rw [pi_norm_le_iff_of_nonneg (by positivity)]
  intro i
  refine fisher_lipschitz hn' _ _ (fun k h0 h1 => ?_) (by omega) (by omega)
  have e : ∀ w : Fin n → ℝ, ext w k = w ⟨k.toNat, by omega⟩ := fun w => dif_pos ⟨h0, h1⟩
  rw [e, e]
  exact norm_le_pi_norm (v - y t) _

/-- C125: **the problem shipped with Rock4** (Fisher, with its clipped reaction term), every number of points and
every solution with values strictly between 0 and 1: order four.  The exponential is that of `rho()`. -/
theorem rock4_fisher_call (hn : 2 ≤ n) (hle : t0 ≤ te) {y : ℝ → Fin n → ℝ} (hy : SolOn (fisherField n) y t0 te)
    (h01 : ∀ t ∈ Set.Icc t0 te, ∀ i, 0 < y t i ∧ y t i < 1) :
    ∃ ρ C D : ℝ, 0 < ρ ∧ 0 ≤ C ∧ 0 ≤ D ∧ ElemFLe (fisherField n) y t0 te D ∧ ∀ (Pr : Rock4.Problem n)
      (_ : ∀ v, Pr.F (Rock4L.up v) = Rock4L.up (fisherField n v))
      (o : Rock4.St n) (p : ℕ) (h0 : X) (_ : Rock4.Valid o p) (_ : o.heap p = Rock4L.up (y t0))
      (s : Rock4.St n)
      (_ : Returns (Rock4.step Pr Rock4.shipped (X.fin te)) (Rock4.start Pr o p (X.fin t0) h0) s),
      ∃ (l : List ℝ) (v : Fin n → ℝ), (l.length : ℤ) = s.nacc ∧ (∀ h ∈ l, 0 < h) ∧ l.sum = te - t0 ∧
        s.heap s.y = Rock4L.up v ∧
        ∀ H E, C * H ≤ 1 → (∀ h ∈ l, h ≤ H) →
          E = Real.exp (((1 + 1e-14) * fisherRho n + C * H) * (te - t0)) * ((te - t0) * (C * H ^ 4 + 8e-14 * D)) →
          E ≤ ρ / 2 → ‖v - y te‖ ≤ E := by
  obtain ⟨ρ, S⟩ := fisher_smooth hn hy h01
  obtain ⟨-, D, -, -, hD, hel⟩ := smooth_constants S
  have hr : 0 ≤ fisherRho n := by
    have := uh2_pos (n := n) (by exact_mod_cast hn)
    unfold fisherRho
    linarith
  obtain ⟨C, hC, H⟩ := rock4_smooth_call hle S hr (fisher_lip hn y _) hD hel
  exact ⟨ρ, C, D, S.pos, hC, hD, hel, H⟩

/-! ### instances -/

/-- a solution of the shipped problem between 0 and 1: the logistic function at every point. -/
theorem fisher_uniform (hn : 2 ≤ n) (t0 te : ℝ) :
    SolOn (fisherField n) (fun t _ => (1 + Real.exp (-(t / 2)))⁻¹) t0 te ∧
      ∀ t ∈ Set.Icc t0 te, ∀ _ : Fin n, 0 < (1 + Real.exp (-(t / 2)))⁻¹ ∧ (1 + Real.exp (-(t / 2)))⁻¹ < 1 := by
  refine ⟨fun t _ => ?_, fun t _ _ => logistic_range (t / 2)⟩
  refine HasDerivAt.hasDerivWithinAt ?_
  rw [hasDerivAt_pi]
  intro i
  have hp : 0 < 1 + Real.exp (-(t / 2)) := by positivity
  have h1 : HasDerivAt (fun t : ℝ => -(t / 2)) (-(1 / 2)) t := ((hasDerivAt_id t).div_const 2).neg
  have h0 := (h1.exp.const_add 1).inv hp.ne'
  obtain ⟨r1, r2⟩ := logistic_range (t / 2)
  have hm := cellMirror_mem (n := n) (i := i) (by omega) (by omega)
  have ex : ∀ (c : ℝ) (k : ℤ), 0 ≤ k → k < n → ext (fun _ : Fin n => c) k = c := fun c k a b => dif_pos ⟨a, b⟩
  have e : fisherField n (fun _ => (1 + Real.exp (-(t / 2)))⁻¹) i
      = -(Real.exp (-(t / 2)) * -(1 / 2)) / (1 + Real.exp (-(t / 2))) ^ 2 := by
    rw [fisherField_eq hn, ex _ _ hm.1.1 hm.1.2, ex _ _ hm.2.1 hm.2.2, fisherF_eq, if_pos ⟨r1.le, r2.le⟩]
    field_simp
    ring
  rw [e]
  exact h0

/-- a problem of the solver with this right hand side. -/
example (n : ℕ) : ∃ Pr : Rock4.Problem n, ∀ v, Pr.F (Rock4L.up v) = Rock4L.up (fisherField n v) := by
  classical
  refine ⟨⟨fun v => if h : ∃ w, v = Rock4L.up w then Rock4L.up (fisherField n h.choose) else v,
    fun _ => X.fin 3⟩, fun v => ?_⟩
  have h : ∃ w, Rock4L.up v = Rock4L.up w := ⟨v, rfl⟩
  show (if h : ∃ w, Rock4L.up v = Rock4L.up w then Rock4L.up (fisherField n h.choose) else Rock4L.up v) = _
  rw [dif_pos h]
  have e : v = h.choose := funext fun i => X.fin_inj.1 (congrFun h.choose_spec i)
  rw [← e]

/-- a right hand side that is not a polynomial: `y' = exp(-y)`, `y = log(1 + t)`. -/
example : Smooth4 (fun (v : Fin 1 → ℝ) _ => Real.exp (-v 0)) (fun t _ => Real.log (1 + t)) 0 1 1 where
  sol := by
    intro t ht
    refine HasDerivAt.hasDerivWithinAt ?_
    rw [hasDerivAt_pi]
    intro _
    have hp : 0 < 1 + t := by linarith [ht.1]
    have h : HasDerivAt (fun t : ℝ => Real.log (1 + t)) (1 / (1 + t)) t := HasDerivAt.log ((hasDerivAt_id t).const_add 1) hp.ne'
    show HasDerivAt (fun t => Real.log (1 + t)) (Real.exp (-Real.log (1 + t))) t
    rw [Real.exp_neg, Real.exp_log hp, ← one_div]
    exact h
  pos := one_pos
  diff := fun x _ => by
    rw [contDiffAt_pi]
    intro _
    exact (Real.contDiff_exp.comp (contDiff_apply ℝ ℝ (0 : Fin 1)).neg).contDiffAt

end

end Odes
