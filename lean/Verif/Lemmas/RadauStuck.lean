import Verif.Lemmas.RadauNewton

/-! Runs of Radau5 which repeat the Newton loop for ever. -/

namespace Odes.Radau

open Classical

variable {n : ℕ} {L : Lin X n} {P : Prob X n} {g : Cfg n} {sf u : ℝ}

/-- the factorisations succeed: `H` holds of the step sizes, `R` of the contents of the Jacobian. -/
structure Works (L : Lin X n) (P : Prob X n) (g : Cfg n) (H : X → Prop) (R : L.σ → Prop) : Prop where
  load : ∀ s : St n L.σ, R (newJac L P g s).jac
  fac : ∀ h j, H h → R j → ∃ j', newtonMatrices L g.c h j = some j' ∧ R j'

variable {H : X → Prop} {R : L.σ → Prop}

theorem withMatrices_works (hL : Works L P g H R) (s : St n L.σ) (hh : H s.h) (hj : R s.jac)
    (k : St n L.σ → Res (St n L.σ)) :
    ∃ j, R j ∧ withMatrices L g s k = k { s with jac := j, ndec := s.ndec + 1 } := by
  obtain ⟨j, e, hj⟩ := hL.fac _ _ hh hj
  unfold withMatrices
  rw [e]
  exact ⟨j, hj, rfl⟩

theorem refresh_works (hL : Works L P g H R) (s : St n L.σ) (hj : R s.jac) :
    R (refreshJac L P g s).jac := by
  rcases refreshJac_cases (P := P) (g := g) (L := L) s with ⟨-, e⟩ | ⟨-, e⟩ <;> rw [e]
  · exact hj
  · exact hL.load s

theorem refresh_h (s : St n L.σ) : (refreshJac L P g s).h = s.h := by
  rcases refreshJac_cases (P := P) (g := g) (L := L) s with ⟨-, e⟩ | ⟨-, e⟩ <;> rw [e]
  rfl

theorem init_works (hL : Works L P g H R) (s : St n L.σ) (hh : H (entered P g s).h) :
    ∃ j, R j ∧ init L P g s = .next (begun L P g s j) := by
  unfold init
  obtain ⟨j, hj, e⟩ := withMatrices_works hL (newJac L P g (entered P g s)) hh (hL.load _) (fun s =>
    .next { s with scal := doScal g s.Y, phase := .check })
  rw [e]; exact ⟨j, hj, rfl⟩

/-- after an exhausted Newton loop, before any convergence. -/
theorem dnc_works (hL : Works L P g H R) {s : St n L.σ} (hh : H (s.h * 0.5)) (hj : R s.jac)
    (hr : s.redonewton = true) :
    ∃ t, afterNewton L P g .didNotConverge s = .next t ∧ t.phase = .attempt ∧
      t.redonewton = true ∧ t.h = s.h * 0.5 ∧ R t.jac := by
  unfold afterNewton
  dsimp only
  obtain ⟨j, hj', e⟩ := withMatrices_works hL (refreshJac L P g
    { s with h := s.h * 0.5, dnc := true, reason := .didNotConverge }) (by rw [refresh_h]; exact hh)
    (refresh_works hL _ hj) (fun s =>
      Res.next { s with scal := doScal g s.Y, newt := 0
                        phase := if s.redonewton then .attempt else .tail })
  refine ⟨_, e, ?_⟩
  rcases refreshJac_cases (P := P) (g := g) (L := L)
      { s with h := s.h * 0.5, dnc := true, reason := .didNotConverge } with ⟨-, e⟩ | ⟨e1, e⟩
  · rw [e]
    exact ⟨if_pos hr, hr, rfl, hj'⟩
  · rw [e]
    exact ⟨if_pos hr, hr, rfl, hj'⟩

/-- after a Newton loop which gave up. -/
theorem wnc_works (hL : Works L P g H R) (s : St n L.σ) (hh : H s.h) (hj : R s.jac) :
    ∃ t, afterNewton L P g .willNotConverge s = .next t ∧ t.phase = .attempt ∧ t.h = s.h ∧
      t.first = s.first ∧ R t.jac := by
  unfold afterNewton
  dsimp only
  obtain ⟨j, hj', e⟩ := withMatrices_works hL (refreshJac L P g
    { s with newt := 0, redonewton := true, reason := .willNotConverge })
    (by rw [refresh_h]; exact hh) (refresh_works hL _ hj) (fun s =>
      Res.next { s with scal := doScal g s.Y, phase := if s.redonewton then .attempt else .tail })
  refine ⟨_, e, ?_⟩
  rcases refreshJac_cases (P := P) (g := g) (L := L)
      { s with newt := 0, redonewton := true, reason := .willNotConverge } with ⟨-, e⟩ | ⟨e1, e⟩
  all_goals rw [e]
  · exact ⟨rfl, rfl, rfl, hj'⟩
  · exact ⟨rfl, rfl, rfl, hj'⟩

/-- `nit = 1`: the run never ends, whatever the problem. -/
theorem nit_one_diverges (hL : Works L P g H R) (hH : ∀ h, H h → H (h * 0.5)) (hn : g.nit = 1)
    (h0 : 0 ≤ g.nmax) (s : St n L.σ) (hp : s.phase = .init) (hh : H (entered P g s).h) :
    Diverges (step L P g) s := by
  refine diverges_of_inv (I := fun s => (s.phase = .init ∧ H (entered P g s).h) ∨
    (s.phase = .check ∧ s.nstep = 0 ∧ s.redonewton = true ∧ H s.h ∧ R s.jac) ∨
    (s.phase = .attempt ∧ s.redonewton = true ∧ H s.h ∧ R s.jac) ∨
    (s.phase = .newton ∧ s.newt = 0 ∧ s.redonewton = true ∧ H s.h ∧ R s.jac)) ?_ (Or.inl ⟨hp, hh⟩)
  rintro s (⟨hp, hh⟩ | ⟨hp, h1, h2, h3, h4⟩ | ⟨hp, h1, h3, h4⟩ | ⟨hp, h1, h2, h3, h4⟩)
  · obtain ⟨j, hj, e⟩ := init_works hL s hh
    exact ⟨begun L P g s j, by rw [step_init hp, e], Or.inr (Or.inl ⟨rfl, rfl, rfl, hh, hj⟩)⟩
  · rw [step_check hp, if_neg (by omega)]
    exact ⟨_, rfl, Or.inr (Or.inr (Or.inl ⟨rfl, h2, h3, h4⟩))⟩
  · rw [step_attempt hp]
    exact ⟨_, rfl, Or.inr (Or.inr (Or.inr ⟨rfl, rfl, h1, h3, h4⟩))⟩
  · rw [step_newton hp]
    have e := newtonStep_out (L := L) (P := P) (g := g) (s := s) (by omega)
    rw [if_pos (by omega)] at e
    rw [newton_some e]
    obtain ⟨t, e, e1, e2, e3, e4⟩ := dnc_works hL
      (s := pass L P g s s.faccon s.theta s.thqold) (hH _ h3) h4 h2
    exact ⟨t, e, Or.inr (Or.inr (Or.inl ⟨e1, e2, by rw [e3]; exact hH _ h3, e4⟩))⟩

/-! ### increments which are not numbers -/

theorem foldl_nan_of_mem (f : X → Fin n → X) (hf : ∀ i, f .nan i = .nan) {i : Fin n}
    (hi : ∀ a, f a i = .nan) : ∀ (l : List (Fin n)) (a : X), i ∈ l → l.foldl f a = .nan := by
  have h0 : ∀ l : List (Fin n), l.foldl f .nan = .nan := by
    intro l
    induction l with
    | nil => rfl
    | cons b l ih => rw [List.foldl_cons, hf]; exact ih
  intro l
  induction l with
  | nil => intro a h; cases h
  | cons b l ih =>
    intro a h
    rw [List.foldl_cons]
    rcases List.mem_cons.mp h with rfl | h
    · rw [hi]; exact h0 l
    · exact ih _ h

theorem pow_two_nan : X.pow .nan 2 = .nan := by unfold X.pow; simp

theorem dynoOf_nan {scal : Fin n → X} {Z : Tri X n} {i : Fin n} (h : Z.v1 i = .nan) :
    dynoOf scal Z = .nan := by
  unfold dynoOf
  rw [foldl_nan_of_mem (i := i)]
  · simp
  · intro i; simp
  · intro a; rw [h]; simp [pow_two_nan]
  · exact List.mem_finRange i

/-- the real solver hands a NaN on. -/
def NanProp (L : Lin X n) : Prop :=
  ∀ s b, (∃ i : Fin n, b i = .nan) → ∃ i, L.solvereal s b i = .nan

variable {Q : X → Prop}

/-- the run never ends if each Newton increment contains a NaN: `Q` is a property of the step size
preserved by halving; `K` one of the accumulated increments. -/
theorem nan_diverges (hL : Works L P g Q R) (hn : 3 ≤ g.nit)
    (hQ : ∀ h, Q h → Q (h / 2.0)) (K : Tri X n → Prop)
    (hK0 : K { v1 := fun _ => 0.0, v2 := fun _ => 0.0, v3 := fun _ => 0.0 })
    (hK1 : ∀ s : St n L.σ, Q s.h → K s.FF → ∃ i, (incr L P g s).v1 i = .nan)
    (hK2 : ∀ s : St n L.σ, Q s.h → K s.FF → K (addTri s.FF (incr L P g s)))
    {s : St n L.σ} (hp : s.phase = .attempt) (hf : s.first = true) (hh : Q s.h)
    (hj : R s.jac) : Diverges (step L P g) s := by
  refine diverges_of_inv (I := fun s => Q s.h ∧ R s.jac ∧ s.first = true ∧ (s.phase = .attempt ∨
    (s.phase = .newton ∧ K s.FF ∧ (s.newt = 0 ∨ s.newt = 1)))) ?_ ⟨hh, hj, hf, Or.inl hp⟩
  rintro s ⟨hh, hj, hf, hp | ⟨hp, hk, hw⟩⟩
  · rw [step_attempt hp]
    refine ⟨_, rfl, hh, hj, hf, Or.inr ⟨rfl, ?_, Or.inl rfl⟩⟩
    have e : (attempt g s).FF = { v1 := fun _ => 0.0, v2 := fun _ => 0.0, v3 := fun _ => 0.0 } := by
      show (if (s.startn || s.first) = true then _ else _) = _
      rw [if_pos (by rw [hf, Bool.or_true])]
    rw [e]; exact hK0
  · obtain ⟨i, hi⟩ := hK1 s hh hk
    have hd := dynoOf_nan (scal := s.scal) hi
    rw [step_newton hp]
    rcases hw with hw | hw
    · have e := newtonStep_out (L := L) (P := P) (g := g) (s := s) (by omega)
      rw [if_neg (by omega), hd, X.mul_nan, if_neg (X.not_nan_lt _)] at e
      rw [newton_none e]
      refine ⟨_, rfl, hh, hj, hf, Or.inr ⟨hp, hK2 s hh hk, Or.inr ?_⟩⟩
      show s.newt + 1 = 1
      omega
    · have ht : ¬ thetaNow L P g s < 0.99 := by
        unfold thetaNow thetaOf thqNow
        rw [if_pos (by omega), hd, X.nan_div]
        exact X.not_nan_lt _
      have e := newtonStep_diverge (L := L) (P := P) (g := g) (s := s) (by omega) ht
      rw [newton_some e]
      obtain ⟨t, e, e1, e2, e3, e4⟩ := wnc_works hL
        (fail L P g s s.faccon (thetaNow L P g s) (thqNow L P g s) (s.h / 2.0)) (hQ _ hh) hj
      exact ⟨t, e, by rw [e2]; exact hQ _ hh, e4, by rw [e3]; exact hf, Or.inl e1⟩

/-- from the entry of `operator()` to the first attempt. -/
theorem reach_attempt (hL : Works L P g H R) (h0 : 0 ≤ g.nmax) (s : St n L.σ)
    (hp : s.phase = .init) (hh : H (entered P g s).h) : ∃ j, R j ∧ Reach (step L P g) s
      { begun L P g s j with phase := .attempt } := by
  obtain ⟨j, hj, e⟩ := init_works hL s hh
  refine ⟨j, hj, Reach.tail (Reach.tail (Reach.refl _ _) (by rw [step_init hp, e])) ?_⟩
  rw [step_check rfl]
  exact if_neg (by show ¬ (0 : ℤ) > g.nmax; omega)

theorem diverges_of_reach {σ : Type} {st : σ → Res σ} {s t : σ} (hr : Reach st s t)
    (hd : Diverges st t) : Diverges st s := by
  obtain ⟨k, hk⟩ := hr
  intro m
  by_cases hm : k ≤ m
  · obtain ⟨v, hv⟩ := hd (m - k)
    refine ⟨v, ?_⟩
    have e : m = k + (m - k) := by omega
    rw [e, run_add, hk]; exact hv
  · have e : k = m + (k - m) := by omega
    rw [e, run_add] at hk
    cases hr : run st m s with
    | next v => exact ⟨v, rfl⟩
    | ret x => rw [hr] at hk; simp at hk
    | throw x => rw [hr] at hk; simp at hk
    | ub x => rw [hr] at hk; simp at hk

/-- a right hand side which is never a number: the run never ends. -/
theorem nan_rhs_diverges (hn0 : 0 < n) (hL : Works L P g H R) (hH : ∀ h, H h → H (h / 2.0))
    (hN : NanProp L) (hn : 3 ≤ g.nit) (h0 : 0 ≤ g.nmax) (hF : ∀ x y i, P.F x y i = .nan)
    (s : St n L.σ) (hp : s.phase = .init) (hh : H (entered P g s).h) :
    Diverges (step L P g) s := by
  obtain ⟨j, hj, hr⟩ := reach_attempt hL h0 s hp hh
  refine diverges_of_reach hr (nan_diverges hL hn hH
    (fun _ => True) trivial ?_ (fun _ _ _ => trivial) rfl rfl hh hj)
  intro s _ _
  refine hN _ _ ⟨⟨0, hn0⟩, ?_⟩
  dsimp only
  rw [hF]; simp

/-- the first step of an interval of length 0. -/
theorem empty_h {s : St n L.σ} {x : ℝ} (hs : AtInit x x s) : (entered P g s).h = .fin 0 := by
  have ep : X.SIGN (s.xend - s.x) = .fin 1 := by
    unfold X.SIGN
    rw [hs.x, hs.xend, X.fin_sub, X.zero_eq, X.fin_le, if_pos (by linarith), X.one_eq]
  have em : X.MIN (X.ABS (s.xend - s.x)) (X.ABSsub s.xend s.x) = .fin 0 := by
    rw [hs.x, hs.xend, X.fin_sub, X.ABS_fin, X.ABSsub_fin, if_pos le_rfl, X.MIN_fin]; simp
  have eh : (entered P g s).h =
    (if 0.0 < (s.x + X.MIN (X.ABS (if X.ABS s.h < 10.0 * g.uround then 1.0e-6 else s.h))
      (X.MIN (X.ABS (s.xend - s.x)) (X.ABSsub s.xend s.x))
      * X.SIGN (s.xend - s.x) * 1.0001 - s.xend) * X.SIGN (s.xend - s.x) then
      s.xend - s.x else X.MIN (X.ABS (if X.ABS s.h < 10.0 * g.uround then 1.0e-6 else s.h))
      (X.MIN (X.ABS (s.xend - s.x)) (X.ABSsub s.xend s.x))
      * X.SIGN (s.xend - s.x)) := rfl
  rw [eh, em, ep]
  obtain ⟨v, ev, v1, v2, -, -⟩ := MIN_ABS_fin
    (if X.ABS s.h < 10.0 * g.uround then 1.0e-6 else s.h) 0
  have v0 : v = 0 := le_antisymm v1 (v2 le_rfl)
  rw [ev, v0]
  split
  · rw [hs.x, hs.xend, X.fin_sub, sub_self]
  · rw [X.fin_mul, zero_mul]

/-- the interval of length 0: the run never ends. -/
theorem empty_diverges (hn0 : 0 < n) (hL : Works L P g (· = .fin 0) R) (hN : NanProp L)
    (hn : 3 ≤ g.nit) (h0 : 0 ≤ g.nmax) {U : ℝ} (hU : g.c.U1 = .fin U) (hU0 : 0 < U) {x : ℝ}
    {s : St n L.σ} (hs : AtInit x x s) : Diverges (step L P g) s := by
  obtain ⟨j, hj, hr⟩ := reach_attempt hL h0 s hs.phase (empty_h hs)
  have key : ∀ s : St n L.σ, s.h = .fin 0 → (∃ i, s.FF.v1 i = .fin 0 ∨ s.FF.v1 i = .nan) →
      ∃ i, (incr L P g s).v1 i = .nan := by
    rintro s hs ⟨i, hi⟩
    refine hN _ _ ⟨i, ?_⟩
    dsimp only
    have e : g.c.U1 / s.h = .pinf := by
      rw [hU, hs, X.fin_div', if_pos rfl, X.infTimes_pos hU0]
    rw [e]
    rcases hi with hi | hi <;> rw [hi] <;> simp
  refine diverges_of_reach hr (nan_diverges (Q := fun h => h = .fin 0) hL hn ?_
    (fun F => ∃ i, F.v1 i = .fin 0 ∨ F.v1 i = .nan) ⟨⟨0, hn0⟩, Or.inl ?_⟩ key ?_ rfl rfl ?_ hj)
  · rintro h rfl
    have e2 : (2.0 : X) = .fin 2 := (X.ofSci_eq _ _ _).trans (by norm_num)
    rw [e2, X.fin_div _ _ (by norm_num), zero_div]
  · exact (X.ofSci_eq _ _ _).trans (by norm_num)
  · rintro s hs hi
    obtain ⟨k, hk⟩ := key s hs hi
    refine ⟨k, Or.inr ?_⟩
    show s.FF.v1 k + (incr L P g s).v1 k = _
    rw [hk, X.add_nan]
  · exact empty_h (P := P) (g := g) hs

end Odes.Radau
