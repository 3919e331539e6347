import Verif.Props.Radau
import Verif.Lemmas.RadauSim
import Verif.Lemmas.Mem

/-! # Radau5: settings and repeated calls, properties C27 - C29 -/

namespace Odes.Radau

open Classical Mem

variable {n : ℕ} {L : Lin X n} {P : Prob X n} {g : Cfg n}

/-! ### C27: tolerances -/

/-- entry of the caller's array which concerns component `i`. -/
def entry (same : Bool) (i : ℤ) : ℤ := if same then 0 else i - 1

/-- C27: for arrays which are large enough, component `i` gets `rtol' = 0.1 rtol^(2/3)` and
`atol' = rtol' atol/rtol`, computed from the first entries or from entry `i`. -/
theorem radau_tolerances (N : ℤ) (same : Bool) (a r : Buf X) (hN : 1 ≤ N)
    (ha : ∀ i, 1 ≤ i → i ≤ N → entry same i < a.size)
    (hr : ∀ i, 1 ≤ i → i ≤ N → entry same i < r.size) :
    ∃ at_ rt, setTestPolicy N same a r = some (at_, rt) ∧ ∀ i, 1 ≤ i → i ≤ N →
      rt i = 0.1 * X.pow (r.cell (entry same i)) (2 / 3) ∧
      at_ i = 0.1 * X.pow (r.cell (entry same i)) (2 / 3) *
        (a.cell (entry same i) / r.cell (entry same i)) := by
  cases same with
  | true =>
    have ha0 : (0 : ℤ) < a.size := ha 1 le_rfl hN
    have hr0 : (0 : ℤ) < r.size := hr 1 le_rfl hN
    obtain ⟨at_, p1, p2⟩ := forUp_inv (lo := 1) (hi := N)
      (body := fun i at_ => some (Function.update at_ i
        (0.1 * X.pow (r.cell 0) (2 / 3) * (a.cell 0 / r.cell 0)))) (s := fun _ => X.nan)
      (fun k at_ => ∀ i, 1 ≤ i → i < k → at_ i =
        0.1 * X.pow (r.cell 0) (2 / 3) * (a.cell 0 / r.cell 0)) (by omega)
      (fun i h1 h2 => by omega)
      (by
        intro k s _ _ hs
        refine ⟨_, rfl, fun i h1 h2 => ?_⟩
        by_cases e : i = k
        · rw [e, Function.update_self]
        · rw [Function.update_of_ne e]; exact hs i h1 (by omega))
    obtain ⟨rt, q1, q2⟩ := forUp_inv (lo := 1) (hi := N)
      (body := fun i at_ => some (Function.update at_ i
        (0.1 * X.pow (r.cell 0) (2 / 3)))) (s := fun _ => X.nan)
      (fun k at_ => ∀ i, 1 ≤ i → i < k → at_ i =
        0.1 * X.pow (r.cell 0) (2 / 3)) (by omega)
      (fun i h1 h2 => by omega)
      (by
        intro k s _ _ hs
        refine ⟨_, rfl, fun i h1 h2 => ?_⟩
        by_cases e : i = k
        · rw [e, Function.update_self]
        · rw [Function.update_of_ne e]; exact hs i h1 (by omega))
    refine ⟨at_, rt, ?_, fun i h1 h2 => ⟨q2 i h1 (by omega), p2 i h1 (by omega)⟩⟩
    unfold setTestPolicy
    rw [if_pos rfl, Buf.rd_in ⟨le_rfl, ha0⟩, Option.bind_some, Buf.rd_in ⟨le_rfl, hr0⟩,
      Option.bind_some]
    dsimp only
    rw [p1, Option.bind_some, q1, Option.map_some]
  | false =>
    obtain ⟨s, p1, p2⟩ := forUp_inv (lo := 1) (hi := N)
      (body := fun i (s : (ℤ → X) × (ℤ → X)) => (a.rd (i - 1)).bind fun ai =>
        (r.rd (i - 1)).bind fun ri =>
          some (Function.update s.1 i (0.1 * X.pow ri (2 / 3) * (ai / ri)),
            Function.update s.2 i (0.1 * X.pow ri (2 / 3))))
      (s := (fun _ => X.nan, fun _ => X.nan))
      (fun k s => ∀ i, 1 ≤ i → i < k → s.2 i = 0.1 * X.pow (r.cell (i - 1)) (2 / 3) ∧
        s.1 i = 0.1 * X.pow (r.cell (i - 1)) (2 / 3) * (a.cell (i - 1) / r.cell (i - 1)))
      (by omega)
      (fun i h1 h2 => by omega)
      (by
        intro k s h1 h2 hs
        have h3 : k - 1 < a.size := ha k h1 h2
        have h4 : k - 1 < r.size := hr k h1 h2
        rw [Buf.rd_in ⟨by omega, h3⟩, Option.bind_some, Buf.rd_in ⟨by omega, h4⟩, Option.bind_some]
        refine ⟨_, rfl, fun i h1 h2 => ?_⟩
        by_cases e : i = k
        · subst e
          exact ⟨Function.update_self .., Function.update_self ..⟩
        · dsimp only
          rw [Function.update_of_ne e, Function.update_of_ne e]; exact hs i h1 (by omega))
    refine ⟨s.1, s.2, ?_, fun i h1 h2 => p2 i h1 (by omega)⟩
    unfold setTestPolicy
    rw [if_neg (by decide)]
    exact p1

/-- C27: vector tolerances with identical entries give the values of the scalar tolerances. -/
theorem radau_tolerances_agree (N : ℤ) (hN : 1 ≤ N) (a r a' r' : Buf X) (va vr : X)
    (hs : 1 ≤ a.size ∧ 1 ≤ r.size) (h0 : a.cell 0 = va ∧ r.cell 0 = vr)
    (hs' : N ≤ a'.size ∧ N ≤ r'.size)
    (h' : ∀ i, 0 ≤ i → i < N → a'.cell i = va ∧ r'.cell i = vr) :
    ∃ T T', setTestPolicy N true a r = some T ∧ setTestPolicy N false a' r' = some T' ∧
      ∀ i, 1 ≤ i → i ≤ N → T.1 i = T'.1 i ∧ T.2 i = T'.2 i := by
  obtain ⟨p, q, h1, h2⟩ := radau_tolerances N true a r hN
    (fun _ _ _ => by show (0 : ℤ) < _; omega) (fun _ _ _ => by show (0 : ℤ) < _; omega)
  obtain ⟨p', q', h3, h4⟩ := radau_tolerances N false a' r' hN
    (fun i _ _ => by show i - 1 < _; omega) (fun i _ _ => by show i - 1 < _; omega)
  refine ⟨_, _, h1, h3, fun i i1 i2 => ?_⟩
  obtain ⟨e1, e2⟩ := h2 i i1 i2
  obtain ⟨e3, e4⟩ := h4 i i1 i2
  have c0 : entry true i = 0 := rfl
  have c1 : entry false i = i - 1 := rfl
  obtain ⟨k1, k2⟩ := h' (i - 1) (by omega) (by omega)
  rw [c0, h0.1, h0.2] at e2
  rw [c0, h0.2] at e1
  rw [c1, k1, k2] at e4
  rw [c1, k2] at e3
  exact ⟨e2.trans e4.symm, e1.trans e3.symm⟩

/-- C27: the values for positive real tolerances. -/
theorem radau_tolerances_real {a r : ℝ} (hr : 0 < r) :
    (0.1 * X.pow (.fin r) (2 / 3) : X) = .fin (0.1 * r ^ (2 / 3 : ℝ)) ∧
    (0.1 * X.pow (.fin r) (2 / 3) * (X.fin a / .fin r) : X) =
      .fin (0.1 * r ^ (2 / 3 : ℝ) * (a / r)) ∧ 0 < 0.1 * r ^ (2 / 3 : ℝ) := by
  have e : (0.1 : X) = .fin 0.1 := X.ofSci_eq _ _ _
  have hp : X.pow (.fin r) (2 / 3) = .fin (r ^ (2 / 3 : ℝ)) := by
    unfold X.pow
    rw [if_neg (by norm_num)]
    dsimp only
    rw [if_pos hr]
  rw [hp, e, X.fin_mul, X.fin_div _ _ hr.ne', X.fin_mul]
  exact ⟨rfl, rfl, by positivity⟩

/-- C27 (precondition): without an entry for each component the code reads outside of the array. -/
theorem radau_tolerances_oob (N : ℤ) (a r : Buf X) (h0 : 0 ≤ a.size) (hN : a.size < N) :
    setTestPolicy N false a r = none := by
  unfold setTestPolicy
  rw [if_neg (by decide)]
  have key : ∀ (k : ℕ) (i : ℤ) (s : (ℤ → X) × (ℤ → X)), 1 ≤ i → a.size + 1 < i + k → i ≤ a.size + 1 →
      loopUp (fun i (s : (ℤ → X) × (ℤ → X)) => (a.rd (i - 1)).bind fun ai =>
        (r.rd (i - 1)).bind fun ri =>
          some (Function.update s.1 i (0.1 * X.pow ri (2 / 3) * (ai / ri)),
            Function.update s.2 i (0.1 * X.pow ri (2 / 3)))) k i s = none := by
    intro k
    induction k with
    | zero => intro i s h1 h2 h3; omega
    | succ k ih =>
      intro i s h1 h2 h3
      unfold loopUp
      by_cases hi : i = a.size + 1
      · have : a.rd (i - 1) = none := by
          unfold Buf.rd; exact if_neg (by omega)
        rw [this]; rfl
      · cases hr : r.rd (i - 1) with
        | none => cases a.rd (i - 1) <;> rfl
        | some ri =>
          rw [Buf.rd_in ⟨by omega, by omega⟩]
          exact ih _ _ (by omega) (by push_cast at h2; omega) (by omega)
  exact key _ 1 _ le_rfl (by omega) (by omega)

example : ∃ T, setTestPolicy 3 true ⟨1, fun _ => .fin 1⟩ ⟨1, fun _ => .fin 8⟩ = some T ∧
    T.2 2 = .fin (0.1 * 8 ^ (2 / 3 : ℝ)) ∧ T.1 3 = .fin (0.1 * 8 ^ (2 / 3 : ℝ) * (1 / 8)) := by
  obtain ⟨p, q, h1, h2⟩ := radau_tolerances 3 true ⟨1, fun _ => .fin 1⟩ ⟨1, fun _ => .fin 8⟩
    (by decide) (fun _ _ _ => by show (0 : ℤ) < 1; decide) (fun _ _ _ => by show (0 : ℤ) < 1; decide)
  obtain ⟨e1, e2, -⟩ := radau_tolerances_real (a := 1) (r := 8) (by norm_num)
  exact ⟨_, h1, (h2 2 (by decide) (by decide)).1.trans e1, (h2 3 (by decide) (by decide)).2.trans e2⟩

/-! ### C28: the stopping criterion of the Newton iteration -/

/-- the object after a sequence of calls of setters; a call which throws leaves it as it was. -/
noncomputable def history (s : Settings) : List Setter → Settings
  | [] => s
  | t :: l => history (match t.apply s with | .ok s' => s' | .error _ => s) l

/-- the tolerances are positive numbers. -/
def Setter.positive : Setter → Prop
  | .tolerances v => ∃ r : ℝ, 0 < r ∧ v = .fin r
  | _ => True

/-- the setter does not concern the Newton criterion. -/
def Setter.other : Setter → Prop
  | .tolerances _ => False
  | .fnewt _ => False
  | _ => True

/-- the criterion is above `uround/rtol'`. -/
structure Usable (s : Settings) : Prop where
  uround : s.uround = .fin 1.0e-16
  tolst : ∃ r : ℝ, 0 < r ∧ s.tolst = .fin r
  fnewt : s.fnewt = .nan ∨ s.uround / s.tolst < s.fnewt

theorem fnewtDefault_above {r : ℝ} (hr : 0 < r) :
    (X.fin 1.0e-16 / X.fin r : X) < fnewtDefault (.fin 1.0e-16) (.fin r) := by
  have e : (10 : X) * X.fin 1.0e-16 / X.fin r = .fin (10 * 1.0e-16 / r) := by
    rw [show (10 : X) = .fin 10 from X.ofNat_eq _, X.fin_mul, X.fin_div _ _ hr.ne']
  have e3 : (0.03 : X) = .fin 0.03 := X.ofSci_eq _ _ _
  unfold fnewtDefault
  rw [e, X.sqrt_fin_nonneg hr.le, e3, X.MIN_fin, X.MAX_fin, X.fin_div _ _ hr.ne', X.fin_lt]
  refine lt_of_lt_of_le ?_ (le_max_left _ _)
  have : 0 < 1.0e-16 / r := by positivity
  calc 1.0e-16 / r < 10 * (1.0e-16 / r) := by linarith
    _ = 10 * 1.0e-16 / r := by ring

theorem lt_of_not_le {a : ℝ} {v : X} (h : ¬ v ≤ .fin a) : v = .nan ∨ .fin a < v := by
  cases v with
  | nan => exact Or.inl rfl
  | pinf => right; simp
  | ninf => exfalso; simp at h
  | fin b => right; rw [X.fin_lt]; rw [X.fin_le] at h; exact not_le.1 h

theorem usable_apply {s s' : Settings} {t : Setter} (hs : Usable s) (ht : t.positive)
    (h : t.apply s = .ok s') : Usable s' := by
  obtain ⟨r, hr, er⟩ := hs.tolst
  cases t with
  | tolerances v =>
    obtain ⟨r', hr', rfl⟩ := ht
    injection h with h
    subst h
    refine ⟨hs.uround, ⟨r', hr', rfl⟩, Or.inr ?_⟩
    show s.uround / X.fin r' < fnewtDefault s.uround (.fin r')
    rw [hs.uround]
    exact fnewtDefault_above hr'
  | fnewt v =>
    unfold Setter.apply at h
    dsimp only at h
    by_cases hc : v ≤ s.uround / s.tolst
    · rw [if_pos hc] at h; cases h
    · rw [if_neg hc] at h
      injection h with h
      subst h
      refine ⟨hs.uround, ⟨r, hr, er⟩, ?_⟩
      show v = .nan ∨ s.uround / s.tolst < v
      rw [hs.uround, er, X.fin_div _ _ hr.ne'] at hc ⊢
      exact lt_of_not_le hc
  | _ =>
    injection h with h
    subst h
    exact ⟨hs.uround, ⟨r, hr, er⟩, hs.fnewt⟩

/-- C28: on an object built by the constructor, after any sequence of calls of setters with positive
tolerances, the criterion is above `uround/rtol'` (or NaN if the caller gave NaN). -/
theorem radau_fnewt_usable {r : ℝ} (hr : 0 < r) (l : List Setter) (hl : ∀ t ∈ l, t.positive) :
    ∃ t : ℝ, 0 < t ∧ (history (Settings.default (.fin r)) l).tolst = .fin t ∧
      ((history (Settings.default (.fin r)) l).fnewt = .nan ∨
       .fin (1.0e-16 / t) < (history (Settings.default (.fin r)) l).fnewt) := by
  have key : ∀ (l : List Setter) (s : Settings), Usable s → (∀ t ∈ l, t.positive) →
      Usable (history s l) := by
    intro l
    induction l with
    | nil => intro s hs _; exact hs
    | cons t l ih =>
      intro s hs hl
      unfold history
      refine ih _ ?_ (fun t' h' => hl t' (List.mem_cons_of_mem _ h'))
      cases e : t.apply s with
      | ok s' => exact usable_apply hs (hl t List.mem_cons_self) e
      | error _ => exact hs
  have h0 : Usable (Settings.default (.fin r)) := by
    have e : (1.0e-16 : X) = .fin 1.0e-16 := X.ofSci_eq _ _ _
    refine ⟨e, ⟨r, hr, rfl⟩, Or.inr ?_⟩
    show (1.0e-16 : X) / X.fin r < fnewtDefault 1.0e-16 (.fin r)
    rw [e]
    exact fnewtDefault_above hr
  have hU := key l _ h0 hl
  obtain ⟨t, ht, et⟩ := hU.tolst
  refine ⟨t, ht, et, ?_⟩
  have h := hU.fnewt
  rw [et, hU.uround, X.fin_div _ _ ht.ne'] at h
  exact h

/-- C28: `setFnewt` throws exactly for the values up to `uround/rtol'`. -/
theorem radau_setFnewt_throws (s : Settings) (v : X) :
    (∃ e, Setter.apply s (.fnewt v) = .error e) ↔ v ≤ s.uround / s.tolst := by
  unfold Setter.apply
  dsimp only
  by_cases hc : v ≤ s.uround / s.tolst
  · rw [if_pos hc]; exact ⟨fun _ => hc, fun _ => ⟨_, rfl⟩⟩
  · rw [if_neg hc]; exact ⟨(by rintro ⟨e, h⟩; cases h), fun h => absurd h hc⟩

/-- C28: an accepted value is the one used by `operator()`, whatever else is set later, until the
tolerances or the criterion are set again. -/
theorem radau_setFnewt_used {s s' : Settings} {v : X} (h : Setter.apply s (.fnewt v) = .ok s')
    (l : List Setter) (hl : ∀ t ∈ l, t.other) (atol rtol : Fin n → X) :
    ((history s' l).cfg atol rtol).fnewt = v := by
  have key : ∀ (l : List Setter) (s : Settings), (∀ t ∈ l, t.other) → (history s l).fnewt = s.fnewt := by
    intro l
    induction l with
    | nil => intro s _; rfl
    | cons t l ih =>
      intro s hl
      unfold history
      rw [ih _ (fun t' h' => hl t' (List.mem_cons_of_mem _ h'))]
      have ht := hl t List.mem_cons_self
      cases t <;> first | rfl | exact ht.elim
  show (history s' l).fnewt = v
  rw [key l s' hl]
  unfold Setter.apply at h
  dsimp only at h
  by_cases hc : v ≤ s.uround / s.tolst
  · rw [if_pos hc] at h; cases h
  · rw [if_neg hc] at h
    injection h with h
    subst h
    rfl

example : ∃ s', Setter.apply (Settings.default (.fin 1)) (.fnewt (.fin 0.5)) = .ok s' ∧
    (history s' [.nit 3, .safe (.fin 0.5)]).fnewt = .fin 0.5 := by
  refine ⟨{ Settings.default (.fin 1) with fnewt := .fin 0.5 }, ?_, rfl⟩
  unfold Setter.apply
  dsimp only
  refine if_neg ?_
  show ¬ X.fin 0.5 ≤ (1.0e-16 : X) / X.fin 1
  rw [show (1.0e-16 : X) = .fin 1.0e-16 from X.ofSci_eq _ _ _, X.fin_div _ _ one_ne_zero, X.fin_le]
  norm_num

/-! ### C29: repeated calls -/

/-- C29 (part): two calls with the same arguments on objects with the same settings and the same
`faccon` (a member which `operator()` uses without setting it) behave alike: normal returns with the
same time, solution, counters and accepted steps (and the same `getLastTimeStep` after two accepted
steps), the same exceptions, and non termination together.  `Reloads`: the factorisations depend on
the Jacobian just computed, not on the former contents of the matrices. -/
theorem radau_calls_agree_partial (hL : Reloads L g.c) {o o' : St n L.σ} (h x xe : X)
    (y : Fin n → X) (hf : o'.faccon = o.faccon) :
    (∀ t, Returns (step L P g) (call o h x xe y) t → ∃ t',
      Returns (step L P g) (call o' h x xe y) t' ∧ SameOut t t') ∧
    (∀ e, Throws (step L P g) (call o h x xe y) e → Throws (step L P g) (call o' h x xe y) e) ∧
    (Diverges (step L P g) (call o h x xe y) → Diverges (step L P g) (call o' h x xe y)) := by
  have key := fun k => sim_call (P := P) (h := h) (x := x) (xe := xe) (y := y) hL hf k
  have up : ∀ (k : ℕ) (r : Res (St n L.σ)), (∀ t, r ≠ .next t) →
      run (step L P g) k (call o h x xe y) = r → run (step L P g) (k + 1) (call o h x xe y) = r := by
    intro k r hr e
    rw [run_add, e]
    cases r with
    | next t => exact absurd rfl (hr t)
    | _ => rfl
  refine ⟨?_, ?_, ?_⟩
  · rintro t ⟨k, hk⟩
    have h1 := key k
    rw [up k _ (by simp) hk] at h1
    cases h2 : run (step L P g) (k + 1) (call o' h x xe y) with
    | ret t' => rw [h2] at h1; exact ⟨t', ⟨_, h2⟩, h1⟩
    | _ => rw [h2] at h1; exact h1.elim
  · rintro e ⟨k, hk⟩
    have h1 := key k
    rw [up k _ (by simp) hk] at h1
    cases h2 : run (step L P g) (k + 1) (call o' h x xe y) with
    | throw e' => rw [h2] at h1; exact ⟨_, by rw [h2, show e = e' from h1]⟩
    | _ => rw [h2] at h1; exact h1.elim
  · intro hd k
    cases k with
    | zero => exact ⟨_, rfl⟩
    | succ k =>
      obtain ⟨t, ht⟩ := hd (k + 1)
      have h1 := key k
      rw [ht] at h1
      cases h2 : run (step L P g) (k + 1) (call o' h x xe y) with
      | next t' => exact ⟨t', rfl⟩
      | _ => rw [h2] at h1; exact h1.elim

theorem scalar_reloads (c : Consts X) : Reloads scalar c := by
  intro J a b h
  unfold newtonMatrices
  dsimp only
  by_cases h1 : X.Feq (c.U1 / h - J 0 0) 0
  · rw [if_pos h1, if_pos h1]
  · rw [if_neg h1, if_neg h1, Option.bind_some, Option.bind_some]

/-- the hypothesis on the matrices holds for the class used in the examples, and there are runs. -/
example (o : St 1 Sc) (hk : o.faccon = .fin 1) : ∃ t', Returns
    (step scalar (ofTime (after 0.9 0.1)) (wcfg 7 false)) (at0 o 1 0 1) t' ∧ t'.nfonccalled = 7 := by
  obtain ⟨t, h1, h2, h3, h4⟩ := first_call obj rfl
  obtain ⟨t', h5, h6⟩ := (radau_calls_agree_partial (scalar_reloads _) _ _ _ _ (hk.trans rfl)).1 t h1
  exact ⟨t', h5, h6.nfonccalled.trans h3⟩

/-- C29 fails: the second of two equal calls on one object (which the constructor has left with
`faccon` = 1) makes 4 evaluations of the right hand side instead of 7: `faccon` is kept. -/
theorem radau_second_call_differs (o : St 1 Sc) (hk : o.faccon = .fin 1) :
    ∃ (P : Prob X 1) (t t' : St 1 Sc), Returns (step scalar P (wcfg 7 false)) (at0 o 1 0 1) t ∧
      Returns (step scalar P (wcfg 7 false)) (at0 t 1 0 1) t' ∧ t.nfonccalled = 7 ∧
      t'.nfonccalled = 4 := by
  obtain ⟨t, h1, h2, h3, -⟩ := first_call o hk
  obtain ⟨t', h4, h5, -⟩ := second_call t h2
  exact ⟨_, t, t', h1, h4, h3, h5⟩

end Odes.Radau
