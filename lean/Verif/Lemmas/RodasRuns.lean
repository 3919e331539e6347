import Verif.Lemmas.RodasWitness

/-! Complete runs of Rodas. -/

namespace Odes.Rodas

open Classical

noncomputable section

variable {n : ℕ} {L : Lin X n} {P : Prob X n} {g : Cfg n} {q : ℝ}

theorem facOf_tiny (hg : Std g 0.9) {e : ℝ} (h0 : 0 ≤ e) (h1 : e ≤ 1e-14) :
    facOf g (.fin e) = .fin (1 / 6) := by
  rw [facOf_fin hg h0]
  congr 1
  have h2 : Real.sqrt (Real.sqrt e) ≤ 0.1 := by
    rw [Real.sqrt_le_left (by norm_num), Real.sqrt_le_left (by norm_num)]
    norm_num at h1 ⊢
    linarith
  refine max_eq_left ((min_le_right _ _).trans ?_)
  rw [div_le_iff₀ (by norm_num)]
  norm_num at h2 ⊢
  linarith

/-- the next step size after an accepted step with a tiny error estimate. -/
theorem hnew_tiny (hg : Std g 0.9) {s : St n L.σ} {hh e : ℝ} (h : s.h = .fin hh) (hp : 0 < hh)
    (h0 : 0 ≤ e) (h1 : e ≤ 1e-14) (hgus : s.naccpt = 0 ∨ ∃ a, s.hacc = .fin a ∧ 0 < a ∧ a ≤ hh ∧
      s.erracc = .fin 0.01) : hnewAcc g s (.fin e) = .fin (6 * hh) := by
  have e1 : X.fin hh / X.fin (1 / 6) = .fin (6 * hh) := by
    rw [X.fin_div _ _ (by norm_num)]
    congr 1; ring
  unfold hnewAcc
  rw [facOf_tiny hg h0 h1, h]
  by_cases hb : g.gustafssonTest = true ∧ s.naccpt + 1 > 1
  · rw [if_pos hb]
    rcases hgus with hz | ⟨a, a1, a2, a3, a4⟩
    · omega
    · have e2 : 0 ≤ e * e / 0.01 := by positivity
      rw [a1, a4, X.fin_div _ _ hp.ne', X.fin_mul, X.fin_div _ _ (by norm_num),
        X.sqrt_fin_nonneg e2, X.sqrt_fin_nonneg (Real.sqrt_nonneg _), X.fin_mul, hg.safe,
        X.fin_div _ _ (by norm_num), clampFac_fin hg, X.MAX_fin]
      rw [max_eq_left, e1]
      refine max_le le_rfl ((min_le_right _ _).trans ?_)
      have h2 : Real.sqrt (Real.sqrt (e * e / 0.01)) ≤ 0.1 := by
        rw [Real.sqrt_le_left (by norm_num), Real.sqrt_le_left (by norm_num)]
        norm_num at h1 ⊢
        nlinarith
      have h3 : a / hh ≤ 1 := by rw [div_le_one hp]; exact a3
      have h4 : 0 < a / hh := by positivity
      have h5 := Real.sqrt_nonneg (Real.sqrt (e * e / 0.01))
      rw [div_le_iff₀ (by norm_num)]
      norm_num at h2 ⊢
      norm_num at h5
      nlinarith
  · rw [if_neg hb, e1]

/-- limitation of the next step size, forward. -/
theorem limit_fin {s : St n L.σ} {m v : ℝ} (hm : s.hmaxn = .fin m) (hp : s.posneg = .fin 1)
    (hr : s.reject = false) (hv : 0 ≤ v) : limit s (.fin v) = .fin (min v m) := by
  unfold limit
  rw [hm, hp, X.ABS_fin, abs_of_nonneg hv, hr, if_neg (by decide)]
  split_ifs with h1
  · rw [X.fin_lt] at h1
    rw [X.fin_mul, one_mul, min_eq_right h1.le]
  · rw [X.fin_lt, not_lt] at h1
    rw [min_eq_left h1]

/-- transition at the head of the `while` loop. -/
theorem top_values (hg : Std g q) {x0 xe x h : ℝ} (hxe : x0 < xe) {s : St n L.σ}
    (hI : Inv x0 xe s) (hi : s.inner = false) (hl : s.last = false) (hx : s.x = .fin x)
    (hh : s.h = .fin h) (h0 : 1e-6 ≤ h) (h1 : h ≤ xe - x0) (hx1 : |x| ≤ 1) :
    step L P g s = .next (prepared L P g s) ∧
    (prepared L P g s).h = .fin (if x + h * 1.0001 ≤ xe then h else xe - x) ∧
    (prepared L P g s).last = decide (¬ x + h * 1.0001 ≤ xe) := by
  have hpos : 0 < h := lt_of_lt_of_le (by norm_num) h0
  have hu : g.uround = .fin 1e-16 := hg.uround.trans (by norm_num)
  have ht : hTop g s = .fin h := by
    unfold hTop
    have hm : s.hmaxn = .fin (xe - x0) := by
      rw [hI.hmaxn, if_pos hxe.le, abs_of_nonneg (by linarith), min_self]
    have hp : s.posneg = .fin 1 := by rw [hI.posneg, if_pos hxe.le]
    rw [hm, hp, hh, hu, X.ABS_fin, X.ofSci_eq, X.fin_mul, if_neg, X.ABS_fin, X.MIN_fin, X.fin_mul,
      abs_of_pos hpos, mul_one, min_eq_left]
    · linarith
    · rw [X.fin_lt, abs_of_pos hpos]; norm_num at h0 ⊢; linarith
  have ho : Over g s ↔ ¬ x + h * 1.0001 ≤ xe := by
    rw [over_iff hI ht hx, if_pos hxe.le, mul_one, not_le, sub_pos]
  refine ⟨?_, ?_, ?_⟩
  · unfold step
    rw [if_neg (by simp [hi]), if_neg (by simp [hl]), prepare_eq, if_neg]
    rw [hh, hx, hu, X.ABS_fin, X.ABS_fin, X.ofSci_eq, X.fin_mul, X.fin_mul, X.fin_le,
      abs_of_pos hpos]
    norm_num at h0 ⊢
    linarith
  · rw [prepared_h]
    by_cases hc : x + h * 1.0001 ≤ xe
    · rw [if_neg (fun h => ho.1 h hc), if_pos hc, ht]
    · rw [if_pos (ho.2 hc), if_neg hc, hI.xend, hx, X.fin_sub]
  · rw [prepared_last]
    by_cases hc : x + h * 1.0001 ≤ xe
    · rw [if_neg (fun h => ho.1 h hc), hl]; simp [hc]
    · rw [if_pos (ho.2 hc)]; simp [hc]

/-- an accepted attempt in normal mode. -/
theorem step_accept {s : St n L.σ} (hi : s.inner = true) {j : L.σ} {k : Stages X n} {e : ℝ}
    (ha : attempt L P g.coef s.x s.h s.Y s.DY1 s.FX s.jac = some (j, k))
    (he : errNorm g s.Y k.YNEW k.AK6 = .fin e) (h1 : e ≤ 1) (hn : s.nstep + 1 ≤ g.nmax)
    (ho : g.onlyOneStep = false) :
    step L P g s = .next (accepted g s j k.YNEW (.fin e) false) := by
  have hb := body_eq (P := P) (g := g) s hi
  rw [ha] at hb
  rcases hb with ⟨hb, -⟩ | ⟨j', k', err, hb, he', hc⟩
  · simp at hb
  · simp only [Option.some.injEq, Prod.mk.injEq] at hb
    obtain ⟨rfl, rfl⟩ := hb
    rw [he] at he'
    subst he'
    have h2 : X.fin e ≤ 1.0 := by rw [X.ofSci_eq, X.fin_le]; norm_num; exact h1
    rw [step, if_pos hi]
    rcases hc with ⟨h3, -⟩ | ⟨-, h3, -⟩ | ⟨-, -, h3, -⟩ | ⟨-, -, -, h3⟩
    · exact absurd h2 h3
    · omega
    · rw [ho] at h3; simp at h3
    · exact h3

/-- an accepted attempt in one-step mode. -/
theorem step_accept_one {s : St n L.σ} (hi : s.inner = true) {j : L.σ} {k : Stages X n} {e : ℝ}
    (ha : attempt L P g.coef s.x s.h s.Y s.DY1 s.FX s.jac = some (j, k))
    (he : errNorm g s.Y k.YNEW k.AK6 = .fin e) (h1 : e ≤ 1) (hn : s.nstep + 1 ≤ g.nmax)
    (ho : g.onlyOneStep = true) :
    step L P g s = .ret (accepted g s j k.YNEW (.fin e) true) := by
  have hb := body_eq (P := P) (g := g) s hi
  rw [ha] at hb
  rcases hb with ⟨hb, -⟩ | ⟨j', k', err, hb, he', hc⟩
  · simp at hb
  · simp only [Option.some.injEq, Prod.mk.injEq] at hb
    obtain ⟨rfl, rfl⟩ := hb
    rw [he] at he'
    subst he'
    have h2 : X.fin e ≤ 1.0 := by rw [X.ofSci_eq, X.fin_le]; norm_num; exact h1
    rw [step, if_pos hi]
    rcases hc with ⟨h3, -⟩ | ⟨-, h3, -⟩ | ⟨-, -, -, h3⟩ | ⟨-, -, h3, -⟩
    · exact absurd h2 h3
    · omega
    · exact h3
    · rw [ho] at h3; simp at h3

/-- a rejected attempt. -/
theorem step_reject {s : St n L.σ} (hi : s.inner = true) {j : L.σ} {k : Stages X n} {e : X}
    (ha : attempt L P g.coef s.x s.h s.Y s.DY1 s.FX s.jac = some (j, k))
    (he : errNorm g s.Y k.YNEW k.AK6 = e) (h1 : ¬ e ≤ 1.0) :
    step L P g s = .next (rejected g s j e) := by
  have hb := body_eq (P := P) (g := g) s hi
  rw [ha] at hb
  rcases hb with ⟨hb, -⟩ | ⟨j', k', err, hb, he', hc⟩
  · simp at hb
  · simp only [Option.some.injEq, Prod.mk.injEq] at hb
    obtain ⟨rfl, rfl⟩ := hb
    rw [he] at he'
    subst he'
    rw [step, if_pos hi]
    rcases hc with ⟨-, h3⟩ | ⟨h3, -⟩ | ⟨h3, -⟩ | ⟨h3, -⟩
    · exact h3
    all_goals exact absurd h3 h1

/-! ### `y' = 1` on `[0,1]` with first step 0.4 -/

variable {meth : ℤ} {c : Coef ℚ}

/-- two steps, 0.4 and 0.6; the step size left in the object is 1. -/
theorem run_const (hc : rocoe meth = some c) :
    ∃ s y, Returns (step (exactLinX 1) (lift (wQ fun _ _ _ => 1)) (wG c false)) (wStart 0.4 0 1) s ∧
      s.x = .fin 1 ∧ s.taken = [.fin 0.6, .fin 0.4] ∧ s.h = .fin 1 ∧ s.Y = fins (fun _ => y) ∧
      |y - 1| ≤ 1e-13 := by
  obtain ⟨hb, hgm⟩ := sums hc
  generalize hB : ∑ i, (classicR c).b i = B at hb
  generalize hG : ∑ j, (classicR c).gam 5 j = G at hgm
  let F : ℝ → (Fin 1 → ℝ) → Fin 1 → ℝ := fun _ _ _ => 1
  have hS := wG_std c false
  have hreach : ∀ s, Reach (step (exactLinX 1) (lift (wQ F)) (wG c false)) (wStart 0.4 0 1) s → _ :=
    fun s hs => w_reach hc (by norm_num : (0 : ℝ) < 1) hs
  -- first step
  obtain ⟨a1, a2, a3⟩ := top_values (P := lift (wQ F)) hS (by norm_num : (0 : ℝ) < 1)
    (inv_start (L := exactLinX 1) wO (.fin 0.4) 0 1 (fins fun _ => 0)) rfl rfl rfl rfl
    (by norm_num) (by norm_num) (by norm_num)
  change step _ _ _ (wStart 0.4 0 1) = _ at a1
  rw [if_pos (by norm_num)] at a2
  rw [show decide (¬ (0 : ℝ) + 0.4 * 1.0001 ≤ 1) = false by norm_num] at a3
  generalize hs1 : prepared (exactLinX 1) (lift (wQ F)) (wG c false)
    (start wO (X.fin 0.4) (X.fin 0) (X.fin 1) (fins fun _ => 0)) = s1 at a1 a2 a3
  have r1 := (Reach.refl (step (exactLinX 1) (lift (wQ F)) (wG c false)) _).tail a1
  obtain ⟨f1, x1, y1, i1⟩ := hreach s1 r1
  have t1 : s1.x = .fin 0 := by rw [← hs1]; rfl
  have u1 : s1.Y = fins fun _ => 0 := by rw [← hs1]; rfl
  have hx1 : x1 = 0 := X.fin_inj.1 (i1.time.symm.trans t1)
  have hy1 : y1 = fun _ => 0 := fins_inj (i1.Y.symm.trans u1)
  subst hx1 hy1
  have in1 : s1.inner = true := by rw [← hs1]; rfl
  obtain ⟨j1, k1, hh1, ks1, yn1, b1, b2, b3, b4, b5, b6⟩ := w_attempt (one := false) hc f1 i1 in1
  rw [a2, X.fin_inj] at b2
  subst b2
  obtain ⟨b7, b8⟩ := const_step hc (v := fun _ => 1) b3.ne' (fun _ _ => rfl) b4
  rw [hB] at b7
  rw [hG] at b8
  have b9 : |ks1 5 0| ≤ 1e-14 := by
    rw [b8]
    simp only [Pi.smul_apply, smul_eq_mul, mul_one, abs_mul]
    rw [abs_of_pos (by norm_num : (0 : ℝ) < 0.4)]
    linarith
  generalize hE1 : |ks1 5 0| = E1 at b6 b9
  have hE1p : 0 ≤ E1 := hE1 ▸ abs_nonneg _
  have n1 : s1.nstep = 0 := by rw [← hs1]; rfl
  have c1 := step_accept in1 b1 b6 (by linarith) (by rw [n1]; exact (by decide : (0 : ℤ) + 1 ≤ 10000)) rfl
  have m1 : s1.hmaxn = .fin 1 := by
    rw [f1.base.hmaxn, if_pos (by norm_num)]; norm_num
  have p1 : s1.posneg = .fin 1 := by rw [f1.base.posneg, if_pos (by norm_num)]
  have rj1 : s1.reject = false := by rw [← hs1]; rfl
  have na1 : s1.naccpt = 0 := by rw [← hs1]; rfl
  have tk1 : s1.taken = [] := by rw [← hs1]; rfl
  generalize hs2 : accepted (wG c false) s1 j1 k1.YNEW (X.fin E1) false = s2 at c1
  have r2 := r1.tail c1
  obtain ⟨f2, x2, y2, i2⟩ := hreach s2 r2
  have h2 : s2.h = .fin 1 := by
    have : s2.h = limit s1 (hnewAcc (wG c false) s1 (X.fin E1)) := by rw [← hs2]; rfl
    rw [this, hnew_tiny hS a2 (by norm_num) hE1p b9 (Or.inl na1), limit_fin m1 p1 rj1 (by norm_num)]
    norm_num
  have t2 : s2.x = .fin 0.4 := by
    have : s2.x = s1.x + s1.h := by rw [← hs2]; rfl
    rw [this, t1, a2, X.fin_add]; norm_num
  have l2 : s2.last = false := by rw [← hs2]; exact a3
  have in2 : s2.inner = false := by rw [← hs2]; rfl
  have rj2 : s2.reject = false := by rw [← hs2]; rfl
  have tk2 : s2.taken = [.fin 0.4] := by
    have : s2.taken = s1.h :: s1.taken := by rw [← hs2]; rfl
    rw [this, a2, tk1]
  have ha2 : s2.hacc = .fin 0.4 := by rw [← hs2]; exact a2
  have er2 : s2.erracc = .fin 0.01 := by
    have : s2.erracc = X.MAX 1.0e-02 (X.fin E1) := by rw [← hs2]; rfl
    rw [this, X.ofSci_eq, X.MAX_fin, max_eq_left]
    · congr 1; norm_num
    · norm_num at b9 ⊢; linarith
  have u2 : s2.Y = fins yn1 := by rw [← hs2]; exact b5
  have ns2 : s2.nstep = 1 := by
    have : s2.nstep = s1.nstep + 1 := by rw [← hs2]; rfl
    rw [this, n1]; rfl
  -- second step
  obtain ⟨d1, d2, d3⟩ := top_values (P := lift (wQ F)) hS (by norm_num : (0 : ℝ) < 1)
    f2.base in2 l2 t2 h2 (by norm_num) (by norm_num) (by rw [abs_le]; constructor <;> norm_num)
  rw [if_neg (by norm_num)] at d2
  rw [show decide (¬ (0.4 : ℝ) + 1 * 1.0001 ≤ 1) = true by norm_num] at d3
  generalize hs3 : prepared (exactLinX 1) (lift (wQ F)) (wG c false) s2 = s3 at d1 d2 d3
  have r3 := r2.tail d1
  obtain ⟨f3, x3, y3, i3⟩ := hreach s3 r3
  have t3 : s3.x = .fin 0.4 := by rw [← hs3]; exact t2
  have u3 : s3.Y = fins yn1 := by rw [← hs3]; exact u2
  have hx3 : x3 = 0.4 := X.fin_inj.1 (i3.time.symm.trans t3)
  have hy3 : y3 = yn1 := fins_inj (i3.Y.symm.trans u3)
  subst hx3 hy3
  have in3 : s3.inner = true := by rw [← hs3]; rfl
  obtain ⟨j3, k3, hh3, ks3, yn3, e1, e2, e3, e4, e5, e6⟩ := w_attempt (one := false) hc f3 i3 in3
  have d2' : s3.h = .fin 0.6 := by rw [d2]; norm_num
  rw [d2', X.fin_inj] at e2
  subst e2
  obtain ⟨e7, e8⟩ := const_step hc (v := fun _ => 1) e3.ne' (fun _ _ => rfl) e4
  rw [hB] at e7
  rw [hG] at e8
  have e9 : |ks3 5 0| ≤ 1e-14 := by
    rw [e8]
    simp only [Pi.smul_apply, smul_eq_mul, mul_one, abs_mul]
    rw [abs_of_pos (by norm_num : (0 : ℝ) < 0.6)]
    linarith
  generalize hE3 : |ks3 5 0| = E3 at e6 e9
  have hE3p : 0 ≤ E3 := hE3 ▸ abs_nonneg _
  have n3 : s3.nstep = 1 := by rw [← hs3]; exact ns2
  have g1 := step_accept in3 e1 e6 (by linarith) (by rw [n3]; exact (by decide : (1 : ℤ) + 1 ≤ 10000)) rfl
  have m3 : s3.hmaxn = .fin 1 := by
    rw [f3.base.hmaxn, if_pos (by norm_num)]; norm_num
  have p3 : s3.posneg = .fin 1 := by rw [f3.base.posneg, if_pos (by norm_num)]
  have rj3 : s3.reject = false := by rw [← hs3]; exact rj2
  have tk3 : s3.taken = [.fin 0.4] := by rw [← hs3]; exact tk2
  have ha3 : s3.hacc = .fin 0.4 := by rw [← hs3]; exact ha2
  have er3 : s3.erracc = .fin 0.01 := by rw [← hs3]; exact er2
  generalize hs4 : accepted (wG c false) s3 j3 k3.YNEW (X.fin E3) false = s4 at g1
  have r4 := r3.tail g1
  refine ⟨s4, yn3 0, r4.returns ?_, ?_, ?_, ?_, ?_, ?_⟩
  · have in4 : s4.inner = false := by rw [← hs4]; rfl
    have l4 : s4.last = true := by rw [← hs4]; exact d3
    rw [step, if_neg (by simp [in4]), if_pos l4]
  · have : s4.x = s3.x + s3.h := by rw [← hs4]; rfl
    rw [this, t3, d2', X.fin_add]; norm_num
  · have : s4.taken = s3.h :: s3.taken := by rw [← hs4]; rfl
    rw [this, tk3, d2']
  · have : s4.h = limit s3 (hnewAcc (wG c false) s3 (X.fin E3)) := by rw [← hs4]; rfl
    rw [this, hnew_tiny hS d2' (by norm_num) hE3p e9
      (Or.inr ⟨0.4, ha3, by norm_num, by norm_num, er3⟩), limit_fin m3 p3 rj3 (by norm_num)]
    norm_num
  · have : s4.Y = k3.YNEW := by rw [← hs4]; rfl
    rw [this, e5]
    funext i
    rw [Subsingleton.elim i 0]; rfl
  · have : yn3 0 - 1 = B - 1 := by
      rw [e7, b7]
      simp only [Pi.add_apply, Pi.smul_apply, smul_eq_mul, mul_one, zero_add]
      ring
    rw [this]
    linarith

/-! ### one rejected attempt, one-step mode -/

/-- facts about the tables used below. -/
theorem table_facts (hc : rocoe meth = some c) :
    (∀ i, (method c.real).alpha i ≠ 5) ∧ (∀ i, i.val < 4 → (method c.real).alpha i ≠ 1) ∧
    (method c.real).alpha 4 = 1 ∧ (method c.real).alpha 5 = 1 ∧
    0.1 < |(classicR c).gam 5 4 + (classicR c).gam 5 5| := by
  have key : ∀ m ∈ [(1 : ℤ), 2, 3], ∀ c ∈ rocoe m, (∀ i, (method c).alpha i ≠ 5) ∧
      (∀ i, i.val < 4 → (method c).alpha i ≠ 1) ∧
      1 / 10 < |(classic c).gam 5 4 + (classic c).gam 5 5| := by decide +kernel
  have k := key meth (by rcases rocoe_cases hc with h | h | h <;> simp [h]) c hc
  obtain ⟨-, m2, -⟩ := method_real c
  refine ⟨fun i h => ?_, fun i hi h => ?_, ?_, ?_, ?_⟩
  · rw [m2] at h; exact k.1 i (by exact_mod_cast h)
  · rw [m2] at h; exact k.2.1 i hi (by exact_mod_cast h)
  · simp [method]
  · simp [method]
  · have : ((1 / 10 : ℚ) : ℝ) < ((|(classic c).gam 5 4 + (classic c).gam 5 5| : ℚ) : ℝ) := by
      exact_mod_cast k.2.2
    push_cast at this
    norm_num at this ⊢
    exact this

/-- right hand side which is 0 except at `x = 1`. -/
def spike (x : ℝ) (_ : Fin 1 → ℝ) : Fin 1 → ℝ := fun _ => if x = 1 then 10000 else 0

/-- on `[0,2]`, first step 1: one rejected attempt, then an accepted one. -/
theorem run_spike (hc : rocoe meth = some c) :
    ∃ s, Returns (step (exactLinX 1) (lift (wQ spike)) (wG c true)) (wStart 1 0 2) s ∧
      s.nstep = 2 ∧ s.naccpt = 1 ∧ s.nrejct = 0 ∧ s.rejs = 1 := by
  obtain ⟨ta, tb, tc, td, te⟩ := table_facts hc
  have hS := wG_std c true
  have hreach : ∀ s, Reach (step (exactLinX 1) (lift (wQ spike)) (wG c true)) (wStart 1 0 2) s → _ :=
    fun s hs => w_reach hc (by norm_num : (0 : ℝ) < 2) hs
  obtain ⟨a1, a2, a3⟩ := top_values (P := lift (wQ spike)) hS (by norm_num : (0 : ℝ) < 2)
    (inv_start (L := exactLinX 1) wO (.fin 1) 0 2 (fins fun _ => 0)) rfl rfl rfl rfl
    (by norm_num) (by norm_num) (by norm_num)
  change step _ _ _ (wStart 1 0 2) = _ at a1
  rw [if_pos (by norm_num)] at a2
  generalize hs1 : prepared (exactLinX 1) (lift (wQ spike)) (wG c true)
    (start wO (X.fin 1) (X.fin 0) (X.fin 2) (fins fun _ => 0)) = s1 at a1 a2 a3
  have r1 := (Reach.refl (step (exactLinX 1) (lift (wQ spike)) (wG c true)) _).tail a1
  obtain ⟨f1, x1, y1, i1⟩ := hreach s1 r1
  have t1 : s1.x = .fin 0 := by rw [← hs1]; rfl
  have hx1 : x1 = 0 := X.fin_inj.1 (i1.time.symm.trans t1)
  subst hx1
  have in1 : s1.inner = true := by rw [← hs1]; rfl
  obtain ⟨j1, k1, hh1, ks1, yn1, b1, b2, b3, b4, b5, b6⟩ := w_attempt (one := true) hc f1 i1 in1
  rw [a2, X.fin_inj] at b2
  subst b2
  have b7 : 1000 < |ks1 5 0| := by
    obtain ⟨l1, l2⟩ := method_lower c.real
    obtain ⟨k', e1, e2, e3⟩ :=
      Spec.Rosenbrock.step_classic (method_same_real hc) l1 l2 one_ne_zero b4
    have e4 : ∀ i, k' i = fun _ => if (method c.real).alpha i = 1 then 10000 else 0 := by
      intro i
      have h0 : (Matrix.of fun _ _ => (0 : ℝ) : Matrix (Fin 1) (Fin 1) ℝ) = 0 := rfl
      rw [e2 i, h0, Matrix.zero_mulVec]
      funext l
      simp [spike]
    have e5 : ks1 5 0 = ((classicR c).gam 5 4 + (classicR c).gam 5 5) * 10000 := by
      rw [e1]
      simp only [e4, Fin.sum_univ_succ, Pi.add_apply, Pi.smul_apply, smul_eq_mul]
      have z0 := tb 0 (by decide)
      have z1 := tb 1 (by decide)
      have z2 := tb 2 (by decide)
      have z3 := tb 3 (by decide)
      simp only [Fin.succ_zero_eq_one, Fin.isValue]
      simp [tc, td, z0, z1, z2, z3,
        show (Fin.succ (1 : Fin 5)) = (2 : Fin 6) from rfl]
      ring
    rw [e5, abs_mul, abs_of_pos (by norm_num : (0 : ℝ) < 10000)]
    norm_num at te
    linarith
  generalize hE1 : |ks1 5 0| = E1 at b6 b7
  have c1 := step_reject in1 b1 b6 (by
    rw [X.ofSci_eq, X.fin_le]; norm_num; linarith)
  have n1 : s1.nstep = 0 := by rw [← hs1]; rfl
  have na1 : s1.naccpt = 0 := by rw [← hs1]; rfl
  have nr1 : s1.nrejct = 0 := by rw [← hs1]; rfl
  have rs1 : s1.rejs = 0 := by rw [← hs1]; rfl
  have hfac : facOf (wG c true) (.fin E1) = .fin 5 := by
    rw [facOf_fin hS (by linarith)]
    have h2 : 5 ≤ Real.sqrt (Real.sqrt E1) := by
      rw [Real.le_sqrt' (by norm_num), Real.le_sqrt' (by norm_num)]
      norm_num
      linarith
    rw [min_eq_left, max_eq_right (by norm_num)]
    rw [le_div_iff₀ (by norm_num)]
    norm_num
    linarith
  generalize hs2 : rejected (wG c true) s1 j1 (X.fin E1) = s2 at c1
  have r2 := r1.tail c1
  obtain ⟨f2, x2, y2, i2⟩ := hreach s2 r2
  have h2 : s2.h = .fin (1 / 5) := by
    have : s2.h = s1.h / facOf (wG c true) (.fin E1) := by rw [← hs2]; rfl
    rw [this, hfac, a2, X.fin_div _ _ (by norm_num)]
  have t2 : s2.x = .fin 0 := by rw [← hs2]; exact t1
  have hx2 : x2 = 0 := X.fin_inj.1 (i2.time.symm.trans t2)
  subst hx2
  have in2 : s2.inner = true := by rw [← hs2]; exact in1
  obtain ⟨j2, k2, hh2, ks2, yn2, d1, d2, d3, d4, d5, d6⟩ := w_attempt (one := true) hc f2 i2 in2
  rw [h2, X.fin_inj] at d2
  subst d2
  obtain ⟨-, d7⟩ := const_step hc (v := fun _ => 0) d3.ne' (fun i y' => by
    funext l
    simp only [spike, zero_add]
    rw [if_neg]
    intro h
    exact ta i (by linarith)) d4
  have d8 : |ks2 5 0| = 0 := by rw [d7]; simp
  rw [d8] at d6
  have n2 : s2.nstep = 1 := by
    have : s2.nstep = s1.nstep + 1 := by rw [← hs2]; rfl
    rw [this, n1]; rfl
  have g1 := step_accept_one in2 d1 d6 (by norm_num) 
    (by rw [n2]; exact (by decide : (1 : ℤ) + 1 ≤ 10000)) rfl
  refine ⟨_, r2.returns g1, ?_, ?_, ?_, ?_⟩
  · show s2.nstep + 1 = 2
    rw [n2]; rfl
  · have : s2.naccpt = s1.naccpt := by rw [← hs2]; rfl
    show s2.naccpt + 1 = 1
    rw [this, na1]; rfl
  · have : s2.nrejct = if s1.naccpt > 1 then s1.nrejct + 1 else s1.nrejct := by rw [← hs2]; rfl
    show s2.nrejct = 0
    rw [this, na1, nr1]; rfl
  · have : s2.rejs = s1.rejs + 1 := by rw [← hs2]; rfl
    show s2.rejs = 1
    rw [this, rs1]; rfl

/-! ### a right hand side which returns NaN -/

/-- scalar problem with `F = NaN` everywhere. -/
def nanProb : Prob X 1 where
  F _ _ _ := .nan
  jac _ _ _ _ _ := .fin 0
  DFt _ _ := fun _ => 0
  computeJacobianNumerically := false
  autonms := true
  useDFt := true
  stored _ _ := true

/-- an attempt of this problem. -/
theorem nan_reject (hc : rocoe meth = some c) (one : Bool) {s : St 1 (exactLinX 1).σ}
    (hi : s.inner = true) (hj : s.jac.1 = fun _ _ => .fin 0)
    (hh : s.h = .nan ∨ s.h = .fin 0.5) :
    ∃ s', step (exactLinX 1) nanProb (wG c one) s = .next s' ∧ s'.inner = true ∧
      s'.jac.1 = (fun _ _ => .fin 0) ∧ s'.h = .nan := by
  have hd : ∃ j, (exactLinX 1).decomr (1 / (s.h * (wG c one).coef.GAMMA)) s.jac = some j ∧
      j.1 = fun _ _ => .fin 0 := by
    refine ⟨(s.jac.1, _), if_neg ?_, hj⟩
    rintro ⟨-, h2, h3⟩
    rcases hh with hh | hh
    · rw [hh] at h2; simp at h2
    · have e : (1 : X) / (s.h * (wG c one).coef.GAMMA) = .fin 8 := by
        rw [hh]
        show (1 : X) / (X.fin 0.5 * X.fin c.GAMMA) = _
        rw [X.fin_mul, X.one_eq, gamma_pos hc, X.fin_div _ _ (by norm_num)]
        norm_num
      rw [e, hj] at h3
      simp [shifted, val] at h3
  obtain ⟨j, hd, hj'⟩ := hd
  have ha : attempt (exactLinX 1) nanProb (wG c one).coef s.x s.h s.Y s.DY1 s.FX s.jac
      = some (j, stages (exactLinX 1) nanProb (wG c one).coef s.x s.h s.Y s.DY1 s.FX j) := by
    unfold attempt
    rw [hd]; rfl
  have hk : (stages (exactLinX 1) nanProb (wG c one).coef s.x s.h s.Y s.DY1 s.FX j).AK6 0
      = .nan := by
    rw [(stages_chain (exactLinX 1) nanProb (wG c one).coef s.x s.h s.Y s.DY1 s.FX j).h6]
    refine congrFun (if_neg ?_) _
    rintro ⟨-, -, h3⟩
    have := h3 0
    simp [nanProb] at this
  have he := errNorm_nan (g := wG c one) (Y := s.Y) (YNEW := (stages (exactLinX 1) nanProb
    (wG c one).coef s.x s.h s.Y s.DY1 s.FX j).YNEW) hk
  refine ⟨_, step_reject hi ha he (by simp), hi, hj', ?_⟩
  show s.h / facOf _ .nan = .nan
  rw [facOf_nan (wG_std c one), X.div_nan]

/-- the run from 0 to 1 goes on for ever. -/
theorem run_nan (hc : rocoe meth = some c) (one : Bool) :
    Diverges (step (exactLinX 1) nanProb (wG c one)) (wStart 0.5 0 1) ∧
    ∃ s, Reach (step (exactLinX 1) nanProb (wG c one)) (wStart 0.5 0 1) s ∧ s.inner = true ∧
      s.h = .nan := by
  have hS := wG_std c one
  obtain ⟨a1, a2, -⟩ := top_values (P := nanProb) hS (by norm_num : (0 : ℝ) < 1)
    (inv_start (L := exactLinX 1) wO (.fin 0.5) 0 1 (fins fun _ => 0)) rfl rfl rfl rfl
    (by norm_num) (by norm_num) (by norm_num)
  change step _ _ _ (wStart 0.5 0 1) = _ at a1
  rw [if_pos (by norm_num)] at a2
  constructor
  · refine diverges_of_inv (I := fun s => s = wStart 0.5 0 1 ∨ (s.inner = true ∧
      s.jac.1 = (fun _ _ => .fin 0) ∧ (s.h = .nan ∨ s.h = .fin 0.5))) ?_ (Or.inl rfl)
    rintro s (rfl | ⟨hi, hj, hh⟩)
    · exact ⟨_, a1, Or.inr ⟨rfl, rfl, Or.inr a2⟩⟩
    · obtain ⟨s', b1, b2, b3, b4⟩ := nan_reject hc one hi hj hh
      exact ⟨s', b1, Or.inr ⟨b2, b3, Or.inl b4⟩⟩
  · obtain ⟨s', b1, b2, b3, b4⟩ := nan_reject hc one
      (s := prepared (exactLinX 1) nanProb (wG c one) (start wO (X.fin 0.5) (X.fin 0) (X.fin 1)
        (fins fun _ => 0))) rfl rfl (Or.inr a2)
    exact ⟨s', ((Reach.refl _ _).tail a1).tail b1, b2, b4⟩

end

end Odes.Rodas
