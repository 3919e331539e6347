import Verif.Lemmas.RockErr
import Mathlib.Analysis.Calculus.Deriv.Prod
import Verif.Props.Rock4Stab

/-!
# C103: error of the ROCK4 solvers on linear problems

`y' = A y + b`, `A` symmetric for a scalar product with weights and with its spectrum in `[-ρ, 0]`.
All constants are explicit; none depends on `A` or on the dimension.
-/

namespace Odes

open Matrix
open Rock4 (Sel)
open Spec

variable {n : ℕ}

/-- C103 (the formulas): on the whole interval the step size control relies on, the amplification
factor of every formula of both tables differs from the exponential by at most `|z|^5 / 50`, up to
the rounding of the coefficients. -/
def NearExp (T : Rock4L.Tab ℝ) (d mz mr : ℤ) : Prop :=
  ∀ z, -stabLen d ≤ z → z ≤ 0 → |amp (Rock4L.formulaOf T d mz mr) z - Real.exp z|
    ≤ |z| ^ 5 / 50 + 1e-14 * (|z| + |z| ^ 2 + |z| ^ 3 + |z| ^ 4)

theorem Fine.near_exp {R : Gen.Formula ℝ} (f : Fine R) {z : ℝ} (hz : z ≤ 0) (ha : |amp R z| ≤ 1.15) :
    |amp R z - Real.exp z| ≤ |z| ^ 5 / 50 + 1e-14 * (|z| + |z| ^ 2 + |z| ^ 3 + |z| ^ 4) := by
  have h := mul_le_mul_of_nonneg_left (f.psi_near hz ha) (abs_nonneg z)
  have e : z * ((psi R).eval z - phi1 z) = amp R z - Real.exp z := by
    rw [mul_sub, phi1_mul, amp_psi]; ring
  rw [← abs_mul, e] at h
  refine h.trans (le_of_eq ?_)
  unfold dev
  ring

theorem rock4_near_exp {d mz mr : ℤ} (hs : Sel d mz mr) :
    NearExp Rock4.realTab d mz mr ∧ NearExp Rock4L.shipped d mz mr :=
  ⟨fun z h1 h2 => (Rock4.fine hs).near_exp h2 ((rock4_amp_le hs z h1 h2).trans (betD_bounds d).2),
    fun z h1 h2 => (Rock4L.fine hs).near_exp h2 ((rock4l_amp_le hs z h1 h2).trans (betD_bounds d).2)⟩

/-! ### the linear solver -/

/-- C103: one step of the linear solver, from a value `v` at the time `t`. -/
theorem rock4l_step_error {w : Fin n → ℝ} {A : Matrix (Fin n) (Fin n) ℝ} {ρ h : ℝ}
    (hA : SymSpec w A ρ) (hh : 0 ≤ h) {d mz mr : ℤ} (hc : Rock4L.Chosen ρ h d mz mr)
    {b : Fin n → ℝ} {y : ℝ → Fin n → ℝ} (hy : Solution A b y) (t : ℝ) (v : Fin n → ℝ) :
    wnorm2 w (Gen.step (Rock4L.formulaOf Rock4L.shipped d mz mr) (fun v => A *ᵥ v + b) h v - y (t + h))
      ≤ betD d * wnorm2 w (v - y t) + h * errBound w A (A *ᵥ y t + b) h :=
  (Rock4L.fine hc.1).step_error hA hy hh (by linarith [(betD_bounds d).1]) (betD_bounds d).2
    (fun z h1 h2 => rock4l_amp_le hc.1 z (by linarith [chosen_covers hc]) h2) t v

theorem rock4l_steps_error {w : Fin n → ℝ} {A : Matrix (Fin n) (Fin n) ℝ} {ρ h : ℝ}
    (hA : SymSpec w A ρ) (hh : 0 ≤ h) {d mz mr : ℤ} (k : ℕ) (hc : 0 < k → Rock4L.Chosen ρ h d mz mr)
    {b : Fin n → ℝ} {y : ℝ → Fin n → ℝ} (hy : Solution A b y) (t : ℝ) :
    wnorm2 w ((Gen.step (Rock4L.formulaOf Rock4L.shipped d mz mr) (fun v => A *ᵥ v + b) h)^[k] (y t)
        - y (t + k * h)) ≤ betD d ^ k * (k * h * errBound w A (A *ᵥ y t + b) h) := by
  have hE := errBound_nonneg w A (A *ᵥ y t + b) hh
  induction k with
  | zero => simp [wnorm2]
  | succ k ih =>
    rw [Function.iterate_succ_apply']
    have e : t + ((k + 1 : ℕ) : ℝ) * h = t + k * h + h := by push_cast; ring
    rw [e]
    have hs := rock4l_step_error hA hh (hc (by omega)) hy (t + k * h)
      ((Gen.step (Rock4L.formulaOf Rock4L.shipped d mz mr) (fun v => A *ᵥ v + b) h)^[k] (y t))
    have hdec := hA.errBound_decay hy t (h := k * h) (by positivity) hh
    have h1 := (betD_bounds d).1
    have hb : (1 : ℝ) ≤ betD d ^ (k + 1) := one_le_pow₀ h1
    have s1 := mul_le_mul_of_nonneg_left (ih fun _ => hc (by omega)) (by linarith : (0 : ℝ) ≤ betD d)
    have s2 : h * errBound w A (A *ᵥ y (t + k * h) + b) h
        ≤ betD d ^ (k + 1) * (h * errBound w A (A *ᵥ y t + b) h) :=
      (mul_le_mul_of_nonneg_left hdec hh).trans (le_mul_of_one_le_left (by positivity) hb)
    have e2 : betD d ^ (k + 1) * (((k + 1 : ℕ) : ℝ) * h * errBound w A (A *ᵥ y t + b) h)
        = betD d * (betD d ^ k * (k * h * errBound w A (A *ᵥ y t + b) h))
          + betD d ^ (k + 1) * (h * errBound w A (A *ᵥ y t + b) h) := by
      push_cast; ring
    rw [e2]
    linarith

/-- C103: **the error of a whole call of the linear solver**, `y' = A y` or `y' = A y + b`.  With
`v = y'(t0)`, `H = 1.01 h` and `T = te - t0` the distance to the solution at `te` is at most
`T (H^4/50 ‖A^4 v‖ + 1e-14 (‖v‖ + H ‖A v‖ + H^2 ‖A^2 v‖ + H^3 ‖A^3 v‖))` if at most 63 stages are
needed, and at most `1.15^steps` times this in general. -/
theorem rock4l_run_error {aff : Bool} {O : Rock4L.Oper X n} {T : Rock4L.Tab X}
    {A : Matrix (Fin n) (Fin n) ℝ} (hok : Rock4L.Ok aff O T A Rock4L.shipped) {te t0 h ρ : ℝ}
    (hL : t0 < te) (hh : 0 < h)
    (hρ : 0 ≤ ρ) (hbig : 1.01 * h * ρ ≤ 1e18) (o : Rock4L.St n) (hu : o.uround = 1.0e-16) (p q : ℕ)
    (hp : 4 ≤ p) (hq : 4 ≤ q) (b : Fin n → ℝ) (hb : aff = true → o.heap q = Rock4L.up b ∧ q ≠ p)
    (hb0 : aff = false → b = 0)
    {y : ℝ → Fin n → ℝ} (hy : Solution A b y) (hy0 : o.heap p = Rock4L.up (y t0))
    (hf : Rock4L.FullOk ρ h (Rock4L.fullSteps (te - t0) h))
    (hs : 1e-15 ≤ Rock4L.lastStep (te - t0) h)
    (hn : Rock4L.need ρ (Rock4L.lastStep (te - t0) h) ≤ 152)
    {w : Fin n → ℝ} (hA : SymSpec w A ρ) :
    ∃ s' y', Returns (Rock4L.step aff O T (X.fin te))
        (Rock4L.start o (X.fin ρ) p q (X.fin t0) (X.fin h)) s' ∧
      s'.t = X.fin te ∧ s'.heap p = Rock4L.up y' ∧
      wnorm2 w (y' - y te) ≤ 1.15 ^ (Rock4L.fullSteps (te - t0) h + 1) *
        ((te - t0) * errBound w A (A *ᵥ y t0 + b) (1.01 * h)) ∧
      (Rock4L.need ρ h ≤ 63 → Rock4L.need ρ (Rock4L.lastStep (te - t0) h) ≤ 63 →
        wnorm2 w (y' - y te) ≤ (te - t0) * errBound w A (A *ᵥ y t0 + b) (1.01 * h)) := by
  obtain ⟨s', a, b1, c, a', b1', c', r1, r2, r3, r4, -, r6, -⟩ := Rock4L.rock4l_run hok hL hh hρ hbig o hu
    p q hp hq (y t0) b hy0 hb hf hs hn
  obtain ⟨l1, l2, -, l4⟩ := Rock4L.lastStep_bounds hh (sub_pos.2 hL)
  have hrhs : Rock4L.rhs aff A b = fun v => A *ᵥ v + b := by
    funext v
    cases aff with
    | true => simp [Rock4L.rhs]
    | false => rw [hb0 rfl]; simp [Rock4L.rhs]
  rw [hrhs] at r6
  set N := Rock4L.fullSteps (te - t0) h with hN
  set l := Rock4L.lastStep (te - t0) h with hl
  have et : t0 + N * h + l = te := by linarith
  have h1 := rock4l_steps_error hA hh.le N r2 hy t0
  have h2 := rock4l_step_error hA l1.le r3 hy (t0 + N * h)
    ((Gen.step (Rock4L.formulaOf Rock4L.shipped a b1 c) (fun v => A *ᵥ v + b) h)^[N] (y t0))
  rw [et] at h2
  have hH : (0 : ℝ) ≤ 1.01 * h := by positivity
  have d1 := errBound_mono w A (A *ᵥ y t0 + b) hh.le (by linarith : h ≤ 1.01 * h)
  have d2 := errBound_mono w A (A *ᵥ y (t0 + N * h) + b) l1.le l2
  have d3 := hA.errBound_decay hy t0 (h := N * h) (by positivity) hH
  have hE := errBound_nonneg w A (A *ᵥ y t0 + b) hH
  have hE1 := errBound_nonneg w A (A *ᵥ y t0 + b) hh.le
  set E := errBound w A (A *ᵥ y t0 + b) (1.01 * h) with hEdef
  have key : ∀ B B' : ℝ, 1 ≤ B → 1 ≤ B' → (0 < N → betD a ≤ B) → betD a' ≤ B' →
      wnorm2 w (Gen.step (Rock4L.formulaOf Rock4L.shipped a' b1' c') (fun v => A *ᵥ v + b) l
        ((Gen.step (Rock4L.formulaOf Rock4L.shipped a b1 c) (fun v => A *ᵥ v + b) h)^[N] (y t0)) - y te)
      ≤ B' * B ^ N * ((te - t0) * E) := by
    intro B B' hB hB' hBa hBa'
    have g1 : betD a ^ N * (N * h * errBound w A (A *ᵥ y t0 + b) h) ≤ B ^ N * (N * h * E) := by
      rcases Nat.eq_zero_or_pos N with h0 | h0
      · rw [h0]; simp
      · refine mul_le_mul (pow_le_pow_left₀ (by linarith [(betD_bounds a).1]) (hBa h0) N) ?_
          (by positivity) (by positivity)
        exact mul_le_mul_of_nonneg_left d1 (by positivity)
    have g2 : l * errBound w A (A *ᵥ y (t0 + N * h) + b) l ≤ B' * B ^ N * (l * E) := by
      have hBB : 1 ≤ B' * B ^ N := by
        have := one_le_pow₀ hB (n := N)
        nlinarith
      refine (mul_le_mul_of_nonneg_left (d2.trans d3) l1.le).trans ?_
      exact le_mul_of_one_le_left (by positivity) hBB
    have g3 : betD a' * wnorm2 w ((Gen.step (Rock4L.formulaOf Rock4L.shipped a b1 c)
        (fun v => A *ᵥ v + b) h)^[N] (y t0) - y (t0 + N * h)) ≤ B' * (B ^ N * (N * h * E)) :=
      mul_le_mul hBa' (h1.trans g1) (wnorm2_nonneg _ _) (by linarith)
    have e : B' * B ^ N * ((te - t0) * E) = B' * (B ^ N * (N * h * E)) + B' * B ^ N * (l * E) := by
      rw [← l4]; ring
    rw [e]
    linarith
  refine ⟨s', _, r1, r4, r6, ?_, ?_⟩
  · have := key 1.15 1.15 (by norm_num) (by norm_num) (fun _ => (betD_bounds a).2) (betD_bounds a').2
    rw [pow_succ']
    exact this
  · intro n1 n2
    have := key 1 1 le_rfl le_rfl (fun h0 => (betD_one (chosen_good (r2 h0) n1)).le)
      (betD_one (chosen_good r3 n2)).le
    rw [one_pow, one_mul, one_mul] at this
    exact this

/-! ### the adaptive solver -/

/-- a linear problem with a constant term. -/
structure AffProblem (P : Rock4.Problem n) (w : Fin n → ℝ) (A : Matrix (Fin n) (Fin n) ℝ)
    (b : Fin n → ℝ) (ρ : ℝ) : Prop where
  spec : SymSpec w A ρ
  rhs : ∀ v, P.F (Rock4L.up v) = Rock4L.up (A *ᵥ v + b)
  rho : ∀ k, ∃ r, ρ ≤ r ∧ P.rho k = X.fin r

/-- what holds in every state of a call: the lengths of the accepted steps `l` (last first), and the
error. -/
structure ErrInv (w : Fin n → ℝ) (A : Matrix (Fin n) (Fin n) ℝ) (b : Fin n → ℝ) (ρ t0 : ℝ)
    (y : ℝ → Fin n → ℝ) (s : Rock4.St n) (l : List ℝ) : Prop where
  eig : s.nrho = 0 ∨ ∃ r, ρ ≤ r ∧ s.eigmax = X.fin r
  acc : (l.length : ℤ) = s.nacc
  pos : ∀ h ∈ l, 0 < h
  time : s.t = X.fin (t0 + l.sum)
  val : ∃ v, s.heap s.y = Rock4L.up v ∧ wnorm2 w (v - y (t0 + l.sum))
    ≤ 1.15 ^ l.length * (l.map fun h => h * errBound w A (A *ᵥ y t0 + b) h).sum

theorem sum_nonneg_of {l : List ℝ} (h : ∀ x ∈ l, 0 < x) : 0 ≤ l.sum :=
  List.sum_nonneg fun x hx => (h x hx).le

theorem err_iter {P : Rock4.Problem n} {w : Fin n → ℝ} {A : Matrix (Fin n) (Fin n) ℝ}
    {b : Fin n → ℝ} {ρ : ℝ} (hP : AffProblem P w A b ρ) {te t0 : ℝ} {y : ℝ → Fin n → ℝ}
    (hy : Solution A b y) {y0 : Rock4.Vec n} {s0 s s' : Rock4.St n} {l : List ℝ}
    (I : Rock4.Inv P Rock4.shipped te t0 y0 s0 s) (J : ErrInv w A b ρ t0 y s l)
    (h : Rock4.step P Rock4.shipped (X.fin te) s = .next s') :
    ∃ l', ErrInv w A b ρ t0 y s' l' := by
  obtain ⟨t, s1, hh, err, ht, -, -, D⟩ := Rock4.step_next P Rock4.shipped te t0 _ _ _ s' I h
  obtain ⟨v, hv, hN⟩ := J.val
  have et : t = t0 + l.sum := X.fin_inj.1 (ht.symm.trans J.time)
  obtain ⟨hh', eig, c1, c2, c3, -, c5, -⟩ := D.chosen.num
  have ehh : hh' = hh := by
    have := D.h
    rw [c1] at this
    exact X.fin_inj.1 this
  subst ehh
  have hpos : 0 < hh' := lt_of_lt_of_le (by norm_num [Rock4.hmin]) c3
  have heig : ρ ≤ eig := by
    by_cases h0 : s.nrho = 0
    · obtain ⟨r, hr1, hr2⟩ := hP.rho s.rhoCalls
      have := (D.chosen.rho0 h0).1
      rw [c2, hr2, X.fin_inj] at this
      rw [this]; exact hr1
    · obtain ⟨r, hr1, hr2⟩ := J.eig.resolve_left h0
      have := (D.chosen.rho1 h0).1
      rw [c2, hr2, X.fin_inj] at this
      rw [this]; exact hr1
  have heig' : ∃ r, ρ ≤ r ∧ s'.eigmax = X.fin r := ⟨eig, heig, by rw [D.rho.2, c2]⟩
  by_cases ha : err < 1.0
  · obtain ⟨a1, a2, -, a4, -⟩ := D.accept ha
    rw [hv, stages_up P _ hP.rhs] at a4
    have hn := (Rock4.fine D.chosen.sel).step_error hP.spec hy hpos.le
      (by linarith [(betD_bounds s1.mdeg).1]) (betD_bounds s1.mdeg).2
      (fun z h1 h2 => rock4_amp_le D.chosen.sel z (by
        unfold stabLen
        have := mul_le_mul_of_nonneg_left heig hpos.le
        linarith) h2) (t0 + l.sum) v
    have hsum : (hh' :: l).sum = hh' + l.sum := List.sum_cons
    have ets : t0 + (hh' :: l).sum = t0 + l.sum + hh' := by rw [hsum]; ring
    refine ⟨hh' :: l, Or.inr heig', by rw [a2, ← J.acc]; simp, ?_, ?_, _, a4, ?_⟩
    · intro x hx
      rcases List.mem_cons.1 hx with rfl | hx
      · exact hpos
      · exact J.pos x hx
    · rw [a1, ets, et]
    · rw [ets]
      refine hn.trans ?_
      have hd := hP.spec.errBound_decay hy t0 (sum_nonneg_of J.pos) (H := hh') hpos.le
      have hE := errBound_nonneg w A (A *ᵥ y t0 + b) hpos.le
      have hS : 0 ≤ (l.map fun h => h * errBound w A (A *ᵥ y t0 + b) h).sum := by
        refine List.sum_nonneg fun x hx => ?_
        obtain ⟨h, hm, rfl⟩ := List.mem_map.1 hx
        exact mul_nonneg (J.pos h hm).le (errBound_nonneg _ _ _ (J.pos h hm).le)
      rw [List.length_cons, List.map_cons, List.sum_cons, pow_succ', mul_add]
      have p1 : (1 : ℝ) ≤ 1.15 * 1.15 ^ l.length := by
        have := one_le_pow₀ (by norm_num : (1 : ℝ) ≤ 1.15) (n := l.length)
        linarith
      have p2 : betD s1.mdeg * wnorm2 w (v - y (t0 + l.sum))
          ≤ 1.15 * (1.15 ^ l.length * (l.map fun h => h * errBound w A (A *ᵥ y t0 + b) h).sum) :=
        mul_le_mul (betD_bounds _).2 hN (wnorm2_nonneg _ _) (by norm_num)
      have p3 : hh' * errBound w A (A *ᵥ y (t0 + l.sum) + b) hh'
          ≤ 1.15 * 1.15 ^ l.length * (hh' * errBound w A (A *ᵥ y t0 + b) hh') :=
        (mul_le_mul_of_nonneg_left hd hpos.le).trans (le_mul_of_one_le_left (by positivity) p1)
      rw [← mul_assoc] at p2
      linarith
  · obtain ⟨a1, a2, -, a4, -, a6, -⟩ := D.reject ha
    have e : s'.heap s'.y = Rock4L.up v := by rw [a4, a6, hv]
    exact ⟨l, Or.inr heig', by rw [a2]; exact J.acc, J.pos, by rw [a1]; exact J.time, v, e, hN⟩

/-- C103 for the adaptive solver: in every state of a call **the error is at most the sum of
`h (h^4/50 ‖A^4 v‖ + 1e-14 (‖v‖ + h ‖A v‖ + h^2 ‖A^2 v‖ + h^3 ‖A^3 v‖))`, `v = y'(t0)`, over the accepted
steps** of length `h`, times `1.15` to the power of their number. -/
theorem rock4_run_error {P : Rock4.Problem n} {w : Fin n → ℝ} {A : Matrix (Fin n) (Fin n) ℝ}
    {b : Fin n → ℝ} {ρ : ℝ} (hP : AffProblem P w A b ρ) (o : Rock4.St n) (p : ℕ) (t0 te : ℝ) (h0 : X)
    (hv : Rock4.Valid o p) (hle : t0 ≤ te) {y : ℝ → Fin n → ℝ} (hy : Solution A b y)
    (hy0 : o.heap p = Rock4L.up (y t0)) (s : Rock4.St n)
    (h : Reach (Rock4.step P Rock4.shipped (X.fin te)) (Rock4.start P o p (X.fin t0) h0) s) :
    ∃ (l : List ℝ) (v : Fin n → ℝ), (l.length : ℤ) = s.nacc ∧ (∀ h ∈ l, 0 < h) ∧
      s.t = X.fin (t0 + l.sum) ∧ s.heap s.y = Rock4L.up v ∧
      wnorm2 w (v - y (t0 + l.sum))
        ≤ 1.15 ^ l.length * (l.map fun h => h * errBound w A (A *ᵥ y t0 + b) h).sum := by
  have key : Rock4.Inv P Rock4.shipped te t0 (o.heap p) (Rock4.start P o p (X.fin t0) h0) s ∧
      ∃ l, ErrInv w A b ρ t0 y s l := by
    refine Reach.inv (I := fun s => Rock4.Inv P Rock4.shipped te t0 (o.heap p)
      (Rock4.start P o p (X.fin t0) h0) s ∧ ∃ l, ErrInv w A b ρ t0 y s l) ?_ ?_ h
    · rintro s s' ⟨I, l, J⟩ hst
      exact ⟨Rock4.step_inv P Rock4.shipped te t0 _ _ _ _ I hst, err_iter hP hy I J hst⟩
    · refine ⟨hv.inv P Rock4.shipped hle h0, [], Or.inl rfl, rfl, by simp, ?_, y t0, ?_, ?_⟩
      · show X.fin t0 = _
        simp
      · have hne : p ≠ o.fn := by
          have := hv.nodup
          rw [List.nodup_cons] at this
          intro e
          exact this.1 (by rw [e]; simp)
        show Rock4.upd o.heap o.fn (P.F (o.heap p)) p = _
        rw [Rock4.upd, if_neg hne]; exact hy0
      · simp [wnorm2]
  obtain ⟨-, l, J⟩ := key
  obtain ⟨v, hv1, hv2⟩ := J.val
  exact ⟨l, v, J.acc, J.pos, J.time, hv1, hv2⟩

/-- C103: the value returned by the adaptive solver, if no step was longer than `H`. -/
theorem rock4_call_error {P : Rock4.Problem n} {w : Fin n → ℝ} {A : Matrix (Fin n) (Fin n) ℝ}
    {b : Fin n → ℝ} {ρ : ℝ} (hP : AffProblem P w A b ρ) (o : Rock4.St n) (p : ℕ) (t0 te : ℝ) (h0 : X)
    (hv : Rock4.Valid o p) (hle : t0 ≤ te) {y : ℝ → Fin n → ℝ} (hy : Solution A b y)
    (hy0 : o.heap p = Rock4L.up (y t0)) (s : Rock4.St n)
    (h : Returns (Rock4.step P Rock4.shipped (X.fin te)) (Rock4.start P o p (X.fin t0) h0) s) :
    ∃ (l : List ℝ) (v : Fin n → ℝ), (l.length : ℤ) = s.nacc ∧ (∀ h ∈ l, 0 < h) ∧ l.sum = te - t0 ∧
      s.heap s.y = Rock4L.up v ∧
      wnorm2 w (v - y te)
        ≤ 1.15 ^ l.length * (l.map fun h => h * errBound w A (A *ᵥ y t0 + b) h).sum ∧
      ∀ H, (∀ h ∈ l, h ≤ H) →
        wnorm2 w (v - y te) ≤ 1.15 ^ l.length * ((te - t0) * errBound w A (A *ᵥ y t0 + b) H) := by
  obtain ⟨u, hu, hr⟩ := h.last
  have hI : Rock4.Inv P Rock4.shipped te t0 (o.heap p) (Rock4.start P o p (X.fin t0) h0) u :=
    Reach.inv (I := fun s => Rock4.Inv P Rock4.shipped te t0 (o.heap p)
      (Rock4.start P o p (X.fin t0) h0) s)
      (fun s s' hI hst => Rock4.step_inv P Rock4.shipped te t0 _ _ _ _ hI hst)
      (hv.inv P Rock4.shipped hle h0) hu
  obtain ⟨rfl, hte⟩ := Rock4.step_ret P Rock4.shipped te t0 _ _ _ _ hI hr
  obtain ⟨l, v, h1, h2, h3, h4, h5⟩ := rock4_run_error hP o p t0 te h0 hv hle hy hy0 s hu
  have et : t0 + l.sum = te := X.fin_inj.1 (h3.symm.trans hte)
  rw [et] at h5
  refine ⟨l, v, h1, h2, by linarith, h4, h5, fun H hH => h5.trans ?_⟩
  refine mul_le_mul_of_nonneg_left ?_ (by positivity)
  have e : te - t0 = l.sum := by linarith
  have e2 : l.sum * errBound w A (A *ᵥ y t0 + b) H
      = (l.map fun x => x * errBound w A (A *ᵥ y t0 + b) H).sum := by
    rw [List.sum_map_mul_right, List.map_id']
  rw [e, e2]
  refine List.sum_le_sum fun x hx => ?_
  exact mul_le_mul_of_nonneg_left (errBound_mono _ _ _ (h2 x hx).le (hH x hx)) (h2 x hx).le

/-! ### instances -/

/-- `y' = -2 y`, `y(t) = exp(-2 t)`. -/
example : Solution (fun _ _ : Fin 1 => -2) 0 (fun t _ => Real.exp (-2 * t)) ∧
    SymSpec (fun _ : Fin 1 => 1) (fun _ _ => -2) 2 := by
  refine ⟨fun t => ?_, symSpec_ex⟩
  rw [hasDerivAt_pi]
  intro i
  have h := ((hasDerivAt_id t).const_mul (-2 : ℝ)).exp
  have e : ((fun _ _ : Fin 1 => (-2 : ℝ)) *ᵥ (fun _ => Real.exp (-2 * t)) + 0) i
      = Real.exp (-2 * id t) * (-2 * 1) := by
    simp [Matrix.mulVec, dotProduct, mul_comm]
  exact e ▸ h

/-- an affine problem. -/
example : ∃ P : Rock4.Problem 1, AffProblem P (fun _ => 1) (fun _ _ => -2) (fun _ => 1) 2 :=
  ⟨⟨fun v i => X.fin (-2) * v i + X.fin 1, fun _ => X.fin 3⟩, symSpec_ex, fun v => by
    funext i
    simp [Rock4L.up, Matrix.mulVec, dotProduct, Subsingleton.elim i 0], fun _ => ⟨3, by norm_num, rfl⟩⟩

end Odes
