import Verif.Lemmas.Rock4Witness

/-!
# Properties of ROCK4 (C45–C55)

`step P T tend` is one iteration of the loop of `Rock4::operator()`;
`start P o y t0 h0` the state at the beginning of the loop when `operator()` is called on the
object `o`, the user's array being buffer `y`.
-/

namespace Odes.Rock4

open Classical

variable {n : ℕ}

/-- Precondition of every call: the object was built by the constructor (so `uround` has its
value) and the user's array is none of the object's work arrays, which are pairwise
different. -/
structure Valid (o : St n) (y : ℕ) : Prop where
  uround : o.uround = 1.0e-16
  nodup : [y, o.fn, o.k1, o.k2, o.k3, o.k4, o.temp, o.g0].Nodup

/-- a new object satisfies the precondition for every user array allocated separately. -/
theorem valid_fresh (junk : St n) (b y : ℕ) (h : y < b ∨ b + 7 ≤ y) : Valid (fresh junk b) y where
  uround := rfl
  nodup := by
    simp only [fresh, List.nodup_cons, List.mem_cons, List.not_mem_nil, or_false, not_or,
      List.nodup_nil, not_false_eq_true, and_true]
    omega

theorem Valid.inv {o : St n} {y : ℕ} (v : Valid o y) (P : Problem n) (T : Tables) {te t0 : ℝ}
    (hle : t0 ≤ te) (h0 : X) :
    Inv P T te t0 (o.heap y) (start P o y (X.fin t0) h0) (start P o y (X.fin t0) h0) :=
  start_inv P T te t0 o y h0 hle v.uround v.nodup

theorem Valid.reach {o : St n} {y : ℕ} (v : Valid o y) {P : Problem n} {T : Tables} {te t0 : ℝ}
    (hle : t0 ≤ te) {h0 : X} {s : St n}
    (h : Reach (step P T (X.fin te)) (start P o y (X.fin t0) h0) s) :
    Inv P T te t0 (o.heap y) (start P o y (X.fin t0) h0) s :=
  Reach.inv (fun _ _ I hs => step_inv P T te t0 _ _ _ _ I hs) (v.inv P T hle h0) h

/-! ### C45 (ROCK4): empty interval -/

/-- C45: when `t0 < tend` fails (equal times, reversed interval, NaN), the call returns at once
and the user's array and pointer are unchanged. -/
theorem rock4_empty_interval (P : Problem n) (T : Tables) (o : St n) (y : ℕ) (t0 tend h0 : X)
    (hv : Valid o y) (h : ¬ t0 < tend) :
    Returns (step P T tend) (start P o y t0 h0) (start P o y t0 h0) ∧
    (start P o y t0 h0).y = y ∧ (start P o y t0 h0).heap y = o.heap y := by
  refine ⟨⟨1, ?_⟩, rfl, ?_⟩
  · have : step P T tend (start P o y t0 h0) = .ret (start P o y t0 h0) := by
      rw [step]; exact if_neg h
    simp [run, this]
  · simp only [start]
    rw [upd_ne]
    have := hv.nodup
    simp only [List.nodup_cons, List.mem_cons, not_or] at this
    exact this.1.1

example : ∃ (o : St 1) (y : ℕ), Valid o y ∧ ¬ (X.fin 2 < X.fin 2) :=
  ⟨zeroObj, 0, valid_fresh _ 1 0 (Or.inl (by norm_num)), by simp⟩

/-! ### C46: end time -/

/-- C46: a call on `[t0,tend]` that returns normally returns at `t = tend` exactly, and the
user's array holds the value obtained by finitely many accepted ROCK4 steps of positive lengths
which add up to `tend - t0`, started at the initial value; nothing is assumed on the right hand
side, the spectral radius estimates, the tolerances or the proposed step. -/
theorem rock4_returns_at_tend (P : Problem n) (T : Tables) (o : St n) (y : ℕ) (t0 te : ℝ) (h0 : X)
    (hv : Valid o y) (hle : t0 ≤ te) (s : St n)
    (h : Returns (step P T (X.fin te)) (start P o y (X.fin t0) h0) s) :
    s.t = X.fin te ∧
    Spec.Path P.F (StepOk P T o.atol o.rtol) t0 (o.heap y) te (s.heap s.y) := by
  obtain ⟨u, hu, hr⟩ := h.last
  have I := hv.reach hle hu
  obtain ⟨e1, e2⟩ := step_ret P T te t0 _ _ u s I hr
  subst e1
  obtain ⟨t, ht, -, -, hp⟩ := I.time
  rw [e2, X.fin_inj] at ht
  subst ht
  exact ⟨e2, hp⟩

/-- C46: at every moment of the call the time is in `[t0,tend]` and the user's array holds a
value obtained by accepted steps up to that time; each attempt either leaves the time unchanged
or advances it by a step `0 < h ≤ tend - t`. -/
theorem rock4_stays_in_interval (P : Problem n) (T : Tables) (o : St n) (y : ℕ) (t0 te : ℝ) (h0 : X)
    (hv : Valid o y) (hle : t0 ≤ te) (s : St n)
    (h : Reach (step P T (X.fin te)) (start P o y (X.fin t0) h0) s) :
    (∃ t, s.t = X.fin t ∧ t0 ≤ t ∧ t ≤ te ∧
      Spec.Path P.F (StepOk P T o.atol o.rtol) t0 (o.heap y) t (s.heap s.y)) ∧
    ∀ s', step P T (X.fin te) s = .next s' →
      ∃ t t', s.t = X.fin t ∧ s'.t = X.fin t' ∧ (t' = t ∨ (t < t' ∧ t' ≤ te)) := by
  have I := hv.reach hle h
  refine ⟨I.time, ?_⟩
  intro s' hs'
  obtain ⟨t, s1, hh, err, ht, hlt, -, D⟩ := step_next P T te t0 _ _ s s' I hs'
  by_cases ha : err < 1.0
  · refine ⟨t, t + hh, ht, (D.accept ha).1, Or.inr ⟨?_, ?_⟩⟩
    · have := D.hge; norm_num [hmin] at this; linarith
    · have := D.hle; linarith
  · exact ⟨t, t, ht, by rw [(D.reject ha).1, ht], Or.inl rfl⟩

/-- tables with all entries one: used in the examples. -/
noncomputable def oneT : Tables := ⟨fun _ => X.fin 1, fun _ _ => X.fin 1, fun _ _ => X.fin 1, fun _ _ => X.fin 1⟩
theorem oneT_finite : oneT.Finite :=
  ⟨fun _ => ⟨_, rfl⟩, fun _ _ => ⟨_, rfl⟩, fun _ _ => ⟨_, rfl⟩, fun _ _ => ⟨_, rfl⟩⟩

/-- hypotheses of C46 are met by a run that takes a step. -/
example : ∃ s, Returns (step restP oneT (X.fin 1)) (start restP zeroObj 0 (X.fin 0) (X.fin 1)) s ∧
    s.nacc = 1 ∧ Valid zeroObj 0 := by
  obtain ⟨s, h1, h2, h3, -⟩ := rest_returns oneT oneT_finite
  exact ⟨s, (Reach.tail (Reach.refl _ _) h1).returns h2, h3, valid_fresh _ 1 0 (Or.inl (by norm_num))⟩

/-! ### C47: termination -/

/-- C47: every call on an interval with finite ends comes to an end, for every right hand side
(including NaN and infinite values), every sequence of spectral radius estimates, all
tolerances and every proposed step (including NaN and infinities). -/
theorem rock4_terminates (P : Problem n) (T : Tables) (o : St n) (y : ℕ) (t0 te : ℝ) (h0 : X)
    (hv : Valid o y) (hle : t0 ≤ te) :
    Terminates (step P T (X.fin te)) (start P o y (X.fin t0) h0) := by
  have I := hv.inv P T hle h0
  have key : ∀ s, (Inv P T te t0 (o.heap y) (start P o y (X.fin t0) h0) s ∧ ∃ h, s.h = X.fin h) →
      Terminates (step P T (X.fin te)) s := by
    intro s hs
    refine terminates_of_measure (α := ℕ ×ₗ ℕ ×ₗ ℕ) (r := (· < ·)) wellFounded_lt (meas te)
      (I := fun s => Inv P T te t0 (o.heap y) (start P o y (X.fin t0) h0) s ∧ ∃ h, s.h = X.fin h)
      ?_ hs
    intro s s' hI hst
    exact step_decreases P T te t0 _ _ s s' hI.1 hI.2 hst
  cases hst : step P T (X.fin te) (start P o y (X.fin t0) h0) with
  | next s' =>
    have hI' := step_inv P T te t0 _ _ _ s' I hst
    obtain ⟨t, s1, hh, err, -, -, -, D⟩ := step_next P T te t0 _ _ _ s' I hst
    have hf : ∃ h, s'.h = X.fin h := by
      by_cases ha : err < 1.0
      · obtain ⟨-, -, -, -, -, -, -, -, -, -, -, -, hn, b, -⟩ := D.accept ha
        exact ⟨hn, b⟩
      · obtain ⟨-, -, -, -, -, -, -, -, -, -, -, -, -, -, hn, b, -⟩ := D.reject ha
        exact ⟨hn, b⟩
    obtain ⟨k, hk⟩ := key s' ⟨hI', hf⟩
    exact ⟨k + 1, fun t => by rw [run_succ_next hst]; exact hk t⟩
  | ret x => exact ⟨1, fun t => by simp [run, hst]⟩
  | throw x => exact ⟨1, fun t => by simp [run, hst]⟩
  | ub x => exact ⟨1, fun t => by simp [run, hst]⟩

/-- C47: the call ends by a normal return, by the exception "step too small", or with the
undefined conversion of an unrepresentable number of stages to `int`. -/
theorem rock4_outcomes (P : Problem n) (T : Tables) (o : St n) (y : ℕ) (t0 te : ℝ) (h0 : X)
    (hv : Valid o y) (hle : t0 ≤ te) :
    (∃ s, Returns (step P T (X.fin te)) (start P o y (X.fin t0) h0) s) ∨
    Throws (step P T (X.fin te)) (start P o y (X.fin t0) h0) .stepTooSmall ∨
    HasUb (step P T (X.fin te)) (start P o y (X.fin t0) h0) .intConversion := by
  obtain ⟨k, hk⟩ := rock4_terminates P T o y t0 te h0 hv hle
  cases hr : run (step P T (X.fin te)) k (start P o y (X.fin t0) h0) with
  | next s => exact absurd hr (hk s)
  | ret s => exact Or.inl ⟨s, k, hr⟩
  | throw e =>
    have ht : Throws (step P T (X.fin te)) (start P o y (X.fin t0) h0) e := ⟨k, hr⟩
    obtain ⟨u, hu, he⟩ := ht.last
    have := (step_throw P T te t0 _ _ u (hv.reach hle hu) e he).1
    subst this
    exact Or.inr (Or.inl ht)
  | ub b =>
    have ht : HasUb (step P T (X.fin te)) (start P o y (X.fin t0) h0) b := ⟨k, hr⟩
    obtain ⟨u, hu, he⟩ := ht.last
    have := (step_ub P T te t0 _ _ u (hv.reach hle hu) b he).1
    subst this
    exact Or.inr (Or.inr ht)

/-- C47: with a finite proposed step and spectral radius estimates in `[0,R]` with
`(tend-t0) R ≤ 10^18` there is no undefined behaviour: the call returns or throws. -/
theorem rock4_returns_or_throws (P : Problem n) (T : Tables) (o : St n) (y : ℕ) (t0 te R h0 : ℝ)
    (hv : Valid o y) (hle : t0 ≤ te) (hrho : ∀ k, ∃ r, P.rho k = X.fin r ∧ 0 ≤ r ∧ r ≤ R)
    (hR : (te - t0) * R ≤ 1e18) :
    (∃ s, Returns (step P T (X.fin te)) (start P o y (X.fin t0) (X.fin h0)) s) ∨
    Throws (step P T (X.fin te)) (start P o y (X.fin t0) (X.fin h0)) .stepTooSmall := by
  rcases rock4_outcomes P T o y t0 te (X.fin h0) hv hle with h | h | h
  · exact Or.inl h
  · exact Or.inr h
  · exfalso
    obtain ⟨u, hu, he⟩ := h.last
    have I := hv.reach hle hu
    -- the stored estimate is an earlier answer of rho()
    have hI2 : (Inv P T te t0 (o.heap y) (start P o y (X.fin t0) (X.fin h0)) u) ∧
        (∃ h, u.h = X.fin h) ∧ (u.nrho ≠ 0 → ∃ r, u.eigmax = X.fin r ∧ 0 ≤ r ∧ r ≤ R) := by
      refine Reach.inv (I := fun s => Inv P T te t0 (o.heap y)
          (start P o y (X.fin t0) (X.fin h0)) s ∧ (∃ h, s.h = X.fin h) ∧
          (s.nrho ≠ 0 → ∃ r, s.eigmax = X.fin r ∧ 0 ≤ r ∧ r ≤ R)) ?_
        ⟨hv.inv P T hle _, ⟨h0, rfl⟩, fun h => absurd rfl h⟩ hu
      rintro s s' ⟨I1, I2, I3⟩ hst
      obtain ⟨t, s1, hh, err, -, -, -, D⟩ := step_next P T te t0 _ _ _ s' I1 hst
      obtain ⟨⟨J1, J2⟩, -⟩ := step_decreases P T te t0 _ _ _ s' I1 I2 hst
      refine ⟨J1, J2, fun _ => ?_⟩
      rw [D.rho.2]
      by_cases hz : s.nrho = 0
      · rw [(D.chosen.rho0 hz).1]; exact hrho _
      · rw [(D.chosen.rho1 hz).1]; exact I3 hz
    obtain ⟨-, ⟨h, hh⟩, heig⟩ := hI2
    obtain ⟨-, hub⟩ := step_ub P T te t0 _ _ u I _ he
    obtain ⟨t, ht, ht0, hte, -⟩ := I.time
    by_cases hlt : t < te
    swap
    · rw [step, ht, if_neg (by simpa using hlt)] at he; cases he
    obtain ⟨e, he1, he0, heR⟩ : ∃ e, eigUsed P u = X.fin e ∧ 0 ≤ e ∧ e ≤ R := by
      unfold eigUsed
      split_ifs with hz
      · exact hrho _
      · exact heig hz
    by_cases hs : hCapped (X.fin te) u < 10.0 * u.uround
    · rw [choose_throw P _ u hs] at hub; cases hub
    · have hc := choose_h te t hlt u.h u.uround I.uround
      rw [← ht] at hc
      simp only at hc
      change hCapped (X.fin te) u = X.nan ∨ hCapped (X.fin te) u < 10.0 * u.uround ∨
        ∃ r, hCapped (X.fin te) u = X.fin r ∧ r ≤ te - t ∧ _ at hc
      rcases hc with hc | hc | ⟨r, hr, hr1, hr2, -⟩
      · unfold hCapped at hc
        rw [ht, hh, X.ABSsub_fin] at hc
        split_ifs at hc
      · exact hs hc
      · have hr0 : 0 ≤ r := le_trans (by norm_num) hr2
        have hR0 : 0 ≤ R := he0.trans heR
        have hre : r * e ≤ 1e18 := by
          calc r * e ≤ r * R := mul_le_mul_of_nonneg_left heR hr0
            _ ≤ (te - t0) * R := mul_le_mul_of_nonneg_right (by linarith) hR0
            _ ≤ 1e18 := hR
        have hre0 : 0 ≤ r * e := mul_nonneg hr0 he0
        obtain ⟨md, hmd, -⟩ := toInt_stage (r := r) (e := e) (by linarith) hre
        obtain ⟨s1, hs1, -⟩ := choose_of_toInt P (X.fin te) u hs md (by rw [hr, he1]; exact hmd)
        rw [hs1] at hub; cases hub

example : Valid zeroObj 0 ∧ (0:ℝ) ≤ 1 ∧ (∀ k, ∃ r, restP.rho k = X.fin r ∧ 0 ≤ r ∧ r ≤ 3) ∧
    ((1:ℝ) - 0) * 3 ≤ 1e18 :=
  ⟨valid_fresh _ 1 0 (Or.inl (by norm_num)), by norm_num,
    fun _ => ⟨0, rfl, le_rfl, by norm_num⟩, by norm_num⟩

/-- C47 (undefined behaviour): a NaN answer of `rho()` at the first attempt of a sensible call
is undefined behaviour (conversion of NaN to `int`). -/
theorem rock4_nan_rho_ub (P : Problem n) (T : Tables) (o : St n) (y : ℕ) (t0 te h0 : ℝ)
    (hv : Valid o y) (hlt : t0 < te) (h1 : 1e-15 ≤ h0) (h2 : 1e-15 ≤ te - t0)
    (hrho : P.rho 0 = X.nan) :
    HasUb (step P T (X.fin te)) (start P o y (X.fin t0) (X.fin h0)) .intConversion := by
  refine ⟨1, ?_⟩
  have hcap : ¬ hCapped (X.fin te) (start P o y (X.fin t0) (X.fin h0)) <
      10.0 * (start P o y (X.fin t0) (X.fin h0)).uround := by
    have hu : (10.0 : X) * (start P o y (X.fin t0) (X.fin h0)).uround = X.fin 1e-15 := by
      show (10.0 : X) * o.uround = _
      rw [hv.uround]; simp; norm_num
    rw [hu]
    show ¬ (if X.ABSsub (X.fin te) (X.fin t0) ≤ 1.01 * X.fin h0 then
      X.ABSsub (X.fin te) (X.fin t0) else X.fin h0) < X.fin 1e-15
    rw [X.ABSsub_fin, if_pos hlt.le]
    split_ifs
    · rw [X.fin_lt]; exact not_lt.2 h2
    · rw [X.fin_lt]; exact not_lt.2 h1
  have := choose_ub P (X.fin te) (start P o y (X.fin t0) (X.fin h0)) hcap (by
    have : eigUsed P (start P o y (X.fin t0) (X.fin h0)) = X.nan := hrho
    rw [this]; simp [X.toInt])
  have hs : step P T (X.fin te) (start P o y (X.fin t0) (X.fin h0)) = .ub .intConversion := by
    rw [step, this]; exact if_pos (show X.fin t0 < X.fin te from hlt)
  simp [run, hs]

example : ∃ (P : Problem 1), P.rho 0 = X.nan ∧ Valid zeroObj 0 ∧ (1e-15 : ℝ) ≤ 1 - 0 :=
  ⟨⟨fun z => z, fun _ => X.nan⟩, rfl, valid_fresh _ 1 0 (Or.inl (by norm_num)), by norm_num⟩

/-! ### C48: tables -/

/-- C48: no call ever reads a coefficient table outside its bounds. -/
theorem rock4_tables_in_bounds (P : Problem n) (T : Tables) (o : St n) (y : ℕ) (t0 te : ℝ) (h0 : X)
    (hv : Valid o y) (hle : t0 ≤ te) :
    ¬ HasUb (step P T (X.fin te)) (start P o y (X.fin t0) h0) .outOfBounds := by
  intro h
  obtain ⟨u, hu, he⟩ := h.last
  have := (step_ub P T te t0 _ _ u (hv.reach hle hu) _ he).1
  cases this

/-- C48: at every attempt the degree is one of the list, `mp[1]` is its position (one-based) in
the list and `mp[2]` is where its block starts when the blocks of the preceding degrees are laid
one after the other; its last coefficient is inside the table. -/
theorem rock4_degree_block (P : Problem n) (T : Tables) (o : St n) (y : ℕ) (t0 te : ℝ) (h0 : X)
    (hv : Valid o y) (hle : t0 ≤ te) (s s1 : St n)
    (h : Reach (step P T (X.fin te)) (start P o y (X.fin t0) h0) s)
    (hlt : s.t < X.fin te) (hc : choose P (X.fin te) s = .next s1) :
    ∃ k : ℕ, k < 50 ∧ MS[k]? = some s1.mdeg ∧ s1.mp1 = k + 1 ∧
      s1.mp2 = Spec.blockStart MS k ∧ s1.mp2 + 2 * s1.mdeg - 2 ≤ 4382 := by
  have I := hv.reach hle h
  obtain ⟨t, ht, -⟩ := I.time
  rw [ht] at hlt
  have C := choose_next P te t s s1 ht hlt I.uround (I.sel.imp id And.left) hc
  have hb := C.sel.bounds
  obtain ⟨k, h1, h2, h3, h4⟩ := C.sel
  exact ⟨k, h1, h2, h3, h4, hb.2.2.2.2.2⟩

theorem gRec_congr (F : Vec n → Vec n) (mu mu' kap kap' : ℕ → X) (h : X) (y : Vec n) :
    ∀ d : ℕ, (∀ j, 1 ≤ j → j ≤ d → mu j = mu' j) → (∀ j, 2 ≤ j → j ≤ d → kap j = kap' j) →
      Spec.gRec F mu kap h y d = Spec.gRec F mu' kap' h y d ∧
      (1 ≤ d → Spec.gRec F mu kap h y (d - 1) = Spec.gRec F mu' kap' h y (d - 1)) := by
  intro d
  induction d with
  | zero => intro _ _; exact ⟨rfl, fun h => by omega⟩
  | succ d ih =>
    intro h1 h2
    obtain ⟨i1, i2⟩ := ih (fun j a b => h1 j a (by omega)) (fun j a b => h2 j a (by omega))
    refine ⟨?_, fun _ => by simpa using i1⟩
    cases d with
    | zero => simp only [Spec.gRec, h1 1 le_rfl le_rfl]
    | succ d =>
      have i2' := i2 (by omega)
      simp only [Nat.add_sub_cancel] at i2'
      simp only [Spec.gRec, i1, i2', h1 (d + 2) (by omega) le_rfl, h2 (d + 2) (by omega) le_rfl]

/-- C48: one step uses only the entries of the block of its degree and of the row of its degree:
two tables which agree there give the same new value and the same error. -/
theorem rock4_step_reads_only_block (P : Problem n) (T T' : Tables) (s s' s'' : St n) (dt err err' : X)
    (hd : Distinct s) (hsel : Sel s.mdeg s.mp1 s.mp2) (hfn : s.heap s.fn = P.F (s.heap s.y))
    (hrec : ∀ i : ℤ, s.mp2 ≤ i → i ≤ s.mp2 + 2 * s.mdeg - 2 → T.recf i.toNat = T'.recf i.toNat)
    (ha : ∀ j, T.fpa s.mp1.toNat j = T'.fpa s.mp1.toNat j)
    (hb : ∀ j, T.fpb s.mp1.toNat j = T'.fpb s.mp1.toNat j)
    (he : ∀ j, T.fpbe s.mp1.toNat j = T'.fpbe s.mp1.toNat j)
    (h1 : kernel P T s dt = some (s', err)) (h2 : kernel P T' s dt = some (s'', err')) :
    s'.heap s'.temp = s''.heap s''.temp ∧ err = err' := by
  obtain ⟨b1, -, b3, -, b5, -⟩ := hsel.bounds
  obtain ⟨k1, -, -, -, k5⟩ := kernel_spec P T s s' dt err h1 hd b1 hfn
  obtain ⟨l1, -, -, -, l5⟩ := kernel_spec P T' s s'' dt err' h2 hd b1 hfn
  have hg := (gRec_congr P.F (muOf T s.mp2) (muOf T' s.mp2) (kapOf T s.mp2) (kapOf T' s.mp2) dt
    (s.heap s.y) s.mdeg.toNat (by
      intro j j1 j2
      unfold muOf
      split_ifs with hj
      · exact hrec _ le_rfl (by omega)
      · exact hrec _ (by omega) (by omega)) (by
      intro j j1 j2
      unfold kapOf
      exact hrec _ (by omega) (by omega))).1
  have hst : Spec.stages (formulaOf T s.mdeg s.mp1 s.mp2) P.F dt (s.heap s.y) =
      Spec.stages (formulaOf T' s.mdeg s.mp1 s.mp2) P.F dt (s.heap s.y) := by
    simp only [Spec.stages, formulaOf, hg, ha, hb]
  refine ⟨by rw [k1, l1, hst], ?_⟩
  rw [k5, l5, hst]
  congr 1
  funext i
  simp only [Spec.errVec, formulaOf, hb, he]

example : Sel 1 1 1 := ⟨0, by norm_num, rfl, rfl, rfl⟩
example : Sel 148 50 4088 := ⟨49, by norm_num, rfl, rfl, by decide +kernel⟩

/-! ### C49: the stability interval -/

/-- C49: at every attempt, with `h` the step size used, `rho` the estimate in force and
`stages = mdeg+4` the number of stages: `3 + h rho ≤ 0.353 stages²`; and the degree is the
smallest of the list compatible with the requested one. -/
theorem rock4_stages_cover_spectrum (P : Problem n) (T : Tables) (o : St n) (y : ℕ) (t0 te : ℝ) (h0 : X)
    (hv : Valid o y) (hle : t0 ≤ te) (s s1 : St n)
    (h : Reach (step P T (X.fin te)) (start P o y (X.fin t0) h0) s)
    (hlt : s.t < X.fin te) (hc : choose P (X.fin te) s = .next s1) :
    ∃ hh rho, s1.h = X.fin hh ∧ s1.eigmax = X.fin rho ∧ 0 < hh ∧
      3 + hh * rho ≤ 0.353 * ((s1.mdeg : ℝ) + 4) ^ 2 ∧
      (s.nrho = 0 → P.rho s.rhoCalls = X.fin rho) := by
  have I := hv.reach hle h
  obtain ⟨t, ht, -⟩ := I.time
  rw [ht] at hlt
  have C := choose_next P te t s s1 ht hlt I.uround (I.sel.imp id And.left) hc
  obtain ⟨hh, eig, c1, c2, c3, -, c5, -⟩ := C.num
  exact ⟨hh, eig, c1, c2, lt_of_lt_of_le (by norm_num [hmin]) c3, c5, fun h => by
    rw [← c2, (C.rho0 h).1]⟩

/-- the hypotheses of C48/C49 are met at the first attempt of a run. -/
example : ∃ s1, Reach (step restP oneT (X.fin 1)) (start restP zeroObj 0 (X.fin 0) (X.fin 1))
      (start restP zeroObj 0 (X.fin 0) (X.fin 1)) ∧
    (start restP zeroObj 0 (X.fin 0) (X.fin 1)).t < X.fin 1 ∧
    choose restP (X.fin 1) (start restP zeroObj 0 (X.fin 0) (X.fin 1)) = .next s1 := by
  obtain ⟨s', h1, -⟩ := rest_returns oneT oneT_finite
  obtain ⟨t, s1, hh, err, ht, hlt, hc, -⟩ := step_next restP oneT 1 0 _ _ _ s'
    (zeroStart_inv restP oneT 1 1 (by norm_num)) h1
  refine ⟨s1, Reach.refl _ _, ?_, hc⟩
  show X.fin 0 < X.fin 1
  simp

/-! ### C50: renewal of the spectral radius -/

/-- C50 fails: for every `N` there is a call in which `N` consecutive attempts (all accepted) are
made without renewing the spectral radius estimate.  The first attempt, rejected, sets `nrho` to 1;
`nrho` then runs through odd values modulo 10 and never becomes 0 while steps are accepted. -/
theorem rock4_rho_not_renewed (T : Tables) (hT : T.Finite) (c : ℝ) (hc : T.recf 1 = X.fin c)
    (hc0 : c ≠ 0) (N : ℕ) :
    ∃ (P : Problem 1) (te : ℝ) (s1 s2 : St 1),
      run (step P T (X.fin te)) 1 (start P zeroObj 0 (X.fin 0) (X.fin 1)) = .next s1 ∧
      run (step P T (X.fin te)) N s1 = .next s2 ∧
      s2.nsteps = s1.nsteps + N ∧ s2.nacc = s1.nacc + N ∧ s2.rhoCalls = s1.rhoCalls := by
  obtain ⟨s1, h1, J1⟩ := trap_first T c hc hc0 (6 ^ (N + 5)) (by
    have : (1 : ℝ) ≤ 6 ^ N := one_le_pow₀ (by norm_num)
    have : (6 : ℝ) ^ (N + 5) = 7776 * 6 ^ N := by rw [pow_add]; norm_num; ring
    linarith)
  have key : ∀ k, k ≤ N → ∃ s2, run (step (trapP c) T (X.fin (6 ^ (N + 5)))) k s1 = .next s2 ∧
      TrapInv T c (6 ^ (N + 5)) k s2 := by
    intro k
    induction k with
    | zero => intro _; exact ⟨s1, rfl, J1⟩
    | succ k ih =>
      intro hk
      obtain ⟨s2, r2, J2⟩ := ih (by omega)
      obtain ⟨s3, r3, J3⟩ := trap_next T hT c hc hc0 N k (by omega) s2 J2
      exact ⟨s3, by rw [run_add, r2]; simp [run, r3], J3⟩
  obtain ⟨s2, r2, J2⟩ := key N le_rfl
  refine ⟨trapP c, 6 ^ (N + 5), s1, s2, ?_, r2, ?_, ?_, ?_⟩
  · change step _ _ _ (start (trapP c) zeroObj 0 (X.fin 0) (X.fin 1)) = _ at h1
    simp [run, h1]
  · obtain ⟨-, -, -, -, -, a, -⟩ := J1
    obtain ⟨-, -, -, -, -, b, -⟩ := J2
    rw [a, b]; push_cast; ring
  · obtain ⟨-, -, -, -, -, -, a, -⟩ := J1
    obtain ⟨-, -, -, -, -, -, b, -⟩ := J2
    rw [a, b]; push_cast; ring
  · obtain ⟨-, -, a, -⟩ := J1
    obtain ⟨-, -, b, -⟩ := J2
    rw [a, b]

example : oneT.Finite ∧ oneT.recf 1 = X.fin 1 := ⟨oneT_finite, rfl⟩

/-- C50, what holds: as long as no attempt has been rejected the estimate is renewed at attempts
number 1, 6, 11, ...: after `k` accepted steps exactly `⌈k/5⌉` renewals were made. Missing: the
claim after a rejection, which is false (`rock4_rho_not_renewed`). -/
theorem rock4_rho_renewed_partial (P : Problem n) (T : Tables) (o : St n) (y : ℕ) (t0 te : ℝ) (h0 : X)
    (hv : Valid o y) (hle : t0 ≤ te) (s : St n)
    (h : Reach (step P T (X.fin te)) (start P o y (X.fin t0) h0) s) (hn : s.nrej = 0) :
    (s.rhoCalls : ℤ) = (s.nacc + 4) / 5 := by
  have : Inv P T te t0 (o.heap y) (start P o y (X.fin t0) h0) s ∧
      (s.nrej = 0 → s.nrho = 2 * s.nacc % 10 ∧ (s.rhoCalls : ℤ) = (s.nacc + 4) / 5) := by
    refine Reach.inv (I := fun s => Inv P T te t0 (o.heap y) (start P o y (X.fin t0) h0) s ∧
      (s.nrej = 0 → s.nrho = 2 * s.nacc % 10 ∧ (s.rhoCalls : ℤ) = (s.nacc + 4) / 5)) ?_
      ⟨hv.inv P T hle h0, fun _ => ⟨rfl, rfl⟩⟩ h
    rintro s s' ⟨I, IH⟩ hst
    refine ⟨step_inv P T te t0 _ _ _ _ I hst, ?_⟩
    intro hz
    obtain ⟨t, s1, hh, err, -, -, -, D⟩ := step_next P T te t0 _ _ _ s' I hst
    have hc := I.count
    by_cases ha : err < 1.0
    · obtain ⟨-, a2, a3, -, -, -, -, -, -, a10, -⟩ := D.accept ha
      rw [a3] at hz
      obtain ⟨i1, i2⟩ := IH hz
      refine ⟨by rw [a10, a2, i1]; omega, ?_⟩
      rw [D.rho.1, a2]
      by_cases h0 : s.nrho = 0
      · rw [(D.chosen.rho0 h0).2]; push_cast; omega
      · rw [(D.chosen.rho1 h0).2]; omega
    · obtain ⟨-, a2, a3, -⟩ := D.reject ha
      rw [a3] at hz
      omega
  exact (this.2 hn).2

/-! ### C51: buffers -/

/-- What the user does with one object: calls with arbitrary arguments on any of their array
variables `us`, changes of tolerances.  A call may end normally or by an exception; in both cases
the user's pointer variable is the one the loop left (it is passed by reference). -/
inductive Session (P : Problem n) (T : Tables) (o0 : St n) (us0 : List ℕ) : St n → List ℕ → Prop
  | init : Session P T o0 us0 o0 us0
  | tol {o us} (a r : X) : Session P T o0 us0 o us →
      Session P T o0 us0 { o with atol := a, rtol := r } us
  | write {o us} (i : ℕ) (v : Vec n) : Session P T o0 us0 o us →
      Session P T o0 us0 { o with heap := upd o.heap i v } us
  | call {o us} (i : ℕ) (hi : i < us.length) (t0 te : ℝ) (h0 : X) (s : St n) :
      Session P T o0 us0 o us → t0 ≤ te →
      Reach (step P T (X.fin te)) (start P o us[i] (X.fin t0) h0) s →
      Session P T o0 us0 s (us.set i s.y)

/-- work arrays of the object. -/
def own (o : St n) : List ℕ := [o.fn, o.k1, o.k2, o.k3, o.k4, o.temp, o.g0]

theorem perm_set {us : List ℕ} {i : ℕ} (hi : i < us.length) (y' : ℕ) (l l' : List ℕ)
    (h : (y' :: l').Perm (us[i] :: l)) : (us.set i y' ++ l').Perm (us ++ l) := by
  rw [List.perm_iff_count] at h ⊢
  intro a
  replace h := h a
  have e : List.count a (us.set i y') + (if us[i] = a then 1 else 0)
      = List.count a us + (if y' = a then 1 else 0) := by
    clear h
    induction us generalizing i with
    | nil => simp at hi
    | cons x xs ih =>
      cases i with
      | zero => simp [List.count_cons]; omega
      | succ i =>
        have := ih (i := i) (by simpa using hi)
        simp only [List.set_cons_succ, List.count_cons, List.getElem_cons_succ]
        omega
  simp only [List.count_cons, List.count_append, beq_iff_eq] at h ⊢
  omega

/-- C51: during and after any session the user's arrays and the object's work arrays are pairwise
different and together they are exactly the arrays of the beginning (so that the user freeing
their arrays and the destructor freeing its seven free every array exactly once). -/
theorem rock4_buffers_disjoint (P : Problem n) (T : Tables) (o0 : St n) (us0 : List ℕ)
    (hu : o0.uround = 1.0e-16) (hd : (us0 ++ own o0).Nodup) (o : St n) (us : List ℕ)
    (h : Session P T o0 us0 o us) :
    (us ++ own o).Nodup ∧ (us ++ own o).Perm (us0 ++ own o0) := by
  have key : o.uround = 1.0e-16 ∧ (us ++ own o).Perm (us0 ++ own o0) := by
    induction h with
    | init => exact ⟨hu, List.Perm.refl _⟩
    | tol a r _ ih => exact ih
    | write i v _ ih => exact ih
    | call i hi t0 te h0 s _ hle hr ih =>
      rename_i o us _
      have hnd : (us ++ own o).Nodup := (List.Perm.nodup_iff ih.2).2 hd
      have hv : Valid o us[i] := by
        refine ⟨ih.1, ?_⟩
        rw [List.nodup_append] at hnd
        obtain ⟨-, h2, h3⟩ := hnd
        rw [List.nodup_cons]
        exact ⟨fun hm => h3 _ (List.getElem_mem hi) _ hm rfl, h2⟩
      have I := hv.reach hle hr
      refine ⟨I.uround, List.Perm.trans ?_ ih.2⟩
      exact perm_set hi s.y (own o) (own s) I.perm
  exact ⟨(List.Perm.nodup_iff key.2).2 hd, key.2⟩

example : ([0] ++ own zeroObj).Nodup ∧ zeroObj.uround = 1.0e-16 := ⟨by decide, rfl⟩

/-! ### C52: the kernel -/

/-- C52: on pairwise different arrays, whatever their contents apart from `y` and the stored
derivative, one kernel call computes the ROCK4 step of the formula selected by
`mdeg, mp[1], mp[2]`: new value, derivative there, weighted error norm; `y` and the
stored derivative are untouched, and the right hand side is evaluated `mdeg+4` times. -/
theorem rock4_kernel_formula (P : Problem n) (T : Tables) (s : St n) (dt : X)
    (hd : Distinct s) (hsel : Sel s.mdeg s.mp1 s.mp2) (hfn : s.heap s.fn = P.F (s.heap s.y)) :
    let R := formulaOf T s.mdeg s.mp1 s.mp2
    let g := Spec.stages R P.F dt (s.heap s.y)
    ∃ s', kernel P T s dt = some (s', Spec.scaledRms (Spec.errVec R dt g) g.ynew s.atol s.rtol) ∧
      s'.heap s'.temp = g.ynew ∧ s'.heap s'.g0 = P.F g.ynew ∧
      s'.heap s.y = s.heap s.y ∧ s'.heap s.fn = s.heap s.fn ∧
      s'.y = s.y ∧ s'.fn = s.fn ∧ s'.calls = s.calls + (s.mdeg + 4).toNat := by
  obtain ⟨b1, b2, b3, b4, b5, b6⟩ := hsel.bounds
  obtain ⟨s', err, hk⟩ := kernel_isSome P T s dt b1 b3 b4 b5 b6
  obtain ⟨k1, k2, k3, k4, k5⟩ := kernel_spec P T s s' dt err hk hd b1 hfn
  obtain ⟨-, kf⟩ := kernel_frame P T s s' dt err hk hd b1 hfn
  refine ⟨s', by rw [hk, k5], k1, k2, k3, k4, by rw [kf], by rw [kf], by rw [kf]⟩

/-- the kernel is applied in such states: every attempt of every call. -/
theorem rock4_kernel_hypotheses (P : Problem n) (T : Tables) (o : St n) (y : ℕ) (t0 te : ℝ) (h0 : X)
    (hv : Valid o y) (hle : t0 ≤ te) (s s1 : St n)
    (h : Reach (step P T (X.fin te)) (start P o y (X.fin t0) h0) s)
    (hlt : s.t < X.fin te) (hc : choose P (X.fin te) s = .next s1) :
    Distinct s1 ∧ Sel s1.mdeg s1.mp1 s1.mp2 ∧ s1.heap s1.fn = P.F (s1.heap s1.y) := by
  have I := hv.reach hle h
  obtain ⟨t, ht, -⟩ := I.time
  rw [ht] at hlt
  have C := choose_next P te t s s1 ht hlt I.uround (I.sel.imp id And.left) hc
  have hI := I.distinct
  have hfn := I.fn
  refine ⟨?_, C.sel, ?_⟩
  · rw [C.frame]; exact hI
  · rw [C.frame]; exact hfn

/-! ### C53: rejected steps -/

/-- C53: at every moment the stored derivative is `F` of the user's array; a rejected attempt
changes neither the user's pointer nor its contents nor the stored derivative nor the time. -/
theorem rock4_rejected_no_effect (P : Problem n) (T : Tables) (o : St n) (y : ℕ) (t0 te : ℝ) (h0 : X)
    (hv : Valid o y) (hle : t0 ≤ te) (s : St n)
    (h : Reach (step P T (X.fin te)) (start P o y (X.fin t0) h0) s) :
    s.heap s.fn = P.F (s.heap s.y) ∧
    ∀ s', step P T (X.fin te) s = .next s' → s'.nacc = s.nacc →
      s'.y = s.y ∧ s'.heap s'.y = s.heap s.y ∧ s'.fn = s.fn ∧ s'.heap s'.fn = s.heap s.fn ∧
      s'.t = s.t ∧ s'.nrej = s.nrej + 1 := by
  have I := hv.reach hle h
  refine ⟨I.fn, ?_⟩
  intro s' hst hn
  obtain ⟨t, s1, hh, err, -, -, -, D⟩ := step_next P T te t0 _ _ _ s' I hst
  by_cases ha : err < 1.0
  · obtain ⟨-, a2, -⟩ := D.accept ha
    omega
  · obtain ⟨a1, a2, a3, a4, a5, a6, a7, -⟩ := D.reject ha
    exact ⟨a4, by rw [a4, a6], a5, by rw [a5, a7], a1, a3⟩

/-- rejected attempts do occur: first attempt of `trapP`. -/
example : ∃ (te : ℝ) (s' : St 1),
    step (trapP 1) oneT (X.fin te) (start (trapP 1) zeroObj 0 (X.fin 0) (X.fin 1)) = .next s' ∧
    s'.nacc = (start (trapP 1) zeroObj 0 (X.fin 0) (X.fin 1)).nacc := by
  obtain ⟨s1, h1, J1⟩ := trap_first oneT 1 rfl one_ne_zero 2 le_rfl
  obtain ⟨-, -, -, -, -, -, a, -⟩ := J1
  exact ⟨2, s1, h1, by rw [a]; rfl⟩

/-! ### C54: counters -/

/-- C54: at every moment steps = accepted + rejected, all nonnegative, and the reported number of
right hand side evaluations is the number actually made during this call. -/
theorem rock4_counters (P : Problem n) (T : Tables) (o : St n) (y : ℕ) (t0 te : ℝ) (h0 : X)
    (hv : Valid o y) (hle : t0 ≤ te) (s : St n)
    (h : Reach (step P T (X.fin te)) (start P o y (X.fin t0) h0) s) :
    s.nsteps = s.nacc + s.nrej ∧ 0 ≤ s.nacc ∧ 0 ≤ s.nrej ∧ s.funccal = s.calls := by
  have I := hv.reach hle h
  exact ⟨I.count.1.symm, I.count.2.1, I.count.2.2, I.calls⟩

/-! ### C55: NbStages -/

/-- number of evaluations of `F` made by an attempt = stages of both methods together. -/
def stagesUsed (s s' : St n) : ℤ := (s'.calls : ℤ) - s.calls

/-- C55 fails at every attempt: the value returned by `NbStages()` (`mdeg`) is four less than
the number of stages used by the last attempt. -/
theorem rock4_nbStages_wrong (P : Problem n) (T : Tables) (o : St n) (y : ℕ) (t0 te : ℝ) (h0 : X)
    (hv : Valid o y) (hle : t0 ≤ te) (s s' : St n)
    (h : Reach (step P T (X.fin te)) (start P o y (X.fin t0) h0) s)
    (hst : step P T (X.fin te) s = .next s') :
    s'.mdeg ≠ stagesUsed s s' := by
  obtain ⟨t, s1, hh, err, -, -, -, D⟩ := step_next P T te t0 _ _ _ s' (hv.reach hle h) hst
  have := D.chosen.sel.bounds.1
  unfold stagesUsed
  rw [D.calls, D.mdeg]; push_cast; omega

/-- C55, what holds: `NbStages()` is the number of stages of the recurrence alone, i.e. the
number of stages of both methods minus the four of the finishing method.  Missing: the documented
"we count both methods". -/
theorem rock4_nbStages_partial (P : Problem n) (T : Tables) (o : St n) (y : ℕ) (t0 te : ℝ) (h0 : X)
    (hv : Valid o y) (hle : t0 ≤ te) (s s' : St n)
    (h : Reach (step P T (X.fin te)) (start P o y (X.fin t0) h0) s)
    (hst : step P T (X.fin te) s = .next s') :
    s'.mdeg + 4 = stagesUsed s s' := by
  obtain ⟨t, s1, hh, err, -, -, -, D⟩ := step_next P T te t0 _ _ _ s' (hv.reach hle h) hst
  have := D.chosen.sel.bounds.1
  unfold stagesUsed
  rw [D.calls, D.mdeg]; push_cast; omega

/-- the member `nstagesmax` after the choice of the degree. -/
theorem choose_nstagesmax (P : Problem n) (tend : X) (s s1 : St n)
    (hm : s.mdego = 0 ∨ s.mdego + 4 ≤ s.nstagesmax) (h : choose P tend s = .next s1) :
    s1.nstagesmax = max s.nstagesmax (s1.mdeg + 4) := by
  rw [choose] at h
  simp only at h
  generalize (if X.ABSsub tend s.t ≤ 1.01 * s.h then X.ABSsub tend s.t else s.h) = hc at h
  by_cases hs : hc < 10.0 * s.uround
  · rw [if_pos hs] at h; cases h
  rw [if_neg hs] at h
  generalize X.toInt (X.sqrt ((3.0 + hc * (if s.nrho = 0 then P.rho s.rhoCalls else s.eigmax))
      / 0.353) + 1) = md at h
  cases md with
  | none => cases h
  | some md =>
    simp only at h
    generalize (if md > 152 then 152 else md) = m at h
    by_cases hd : max m 5 - 4 = s.mdego
    · rw [if_neg (not_not.2 hd)] at h
      injection h with h
      subst h
      simp only
      omega
    · rw [if_pos hd] at h
      injection h with h
      subst h
      simp only
      split_ifs <;> omega

/-- the maximum of the number of stages kept in `nstagesmax` (Rock4.hpp 193, 232): zero at the start
of a call, and at every attempt the maximum of its previous value and the number of stages of both
methods used by this attempt.  So after the call it is the largest number of stages of an attempt of
this call. -/
theorem rock4_nstagesmax (P : Problem n) (T : Tables) (o : St n) (y : ℕ) (t0 te : ℝ) (h0 : X)
    (hv : Valid o y) (hle : t0 ≤ te) :
    (start P o y (X.fin t0) h0).nstagesmax = 0 ∧
    ∀ s s', Reach (step P T (X.fin te)) (start P o y (X.fin t0) h0) s →
      step P T (X.fin te) s = .next s' →
      s'.nstagesmax = max s.nstagesmax (stagesUsed s s') := by
  have key : ∀ s s', Inv P T te t0 (o.heap y) (start P o y (X.fin t0) h0) s →
      (s.mdego = 0 ∨ s.mdego + 4 ≤ s.nstagesmax) → step P T (X.fin te) s = .next s' →
      s'.nstagesmax = max s.nstagesmax (stagesUsed s s') ∧ s'.mdego + 4 = stagesUsed s s' := by
    intro s s' I hm hst
    obtain ⟨t, s1, hh, err, ht, hlt, hc, D⟩ := step_next P T te t0 _ _ _ s' I hst
    have e1 := choose_nstagesmax P _ s s1 hm hc
    have b := D.chosen.sel.bounds.1
    have e2 : stagesUsed s s' = s1.mdeg + 4 := by
      unfold stagesUsed; rw [D.calls]; push_cast; omega
    have e3 : s'.nstagesmax = s1.nstagesmax := by
      rw [step, if_pos (by rw [ht]; exact hlt), hc] at hst
      simp only at hst
      cases hk : kernel P T s1 s1.h with
      | none => rw [hk] at hst; cases hst
      | some r =>
        obtain ⟨s2, e⟩ := r
        rw [hk] at hst
        injection hst with hst
        simp only [kernel, Option.bind_eq_some_iff] at hk
        obtain ⟨_, -, _, -, hk⟩ := hk
        injection hk with hk
        injection hk with hk _
        rw [← hst, ← hk]
        unfold control
        simp only
        split_ifs <;> rfl
    exact ⟨by rw [e3, e1, e2], by rw [D.mp.2.2.1, D.chosen.mdego, e2]⟩
  refine ⟨rfl, fun s s' hr hst => ?_⟩
  have := Reach.inv (I := fun s => Inv P T te t0 (o.heap y) (start P o y (X.fin t0) h0) s ∧
      (s.mdego = 0 ∨ s.mdego + 4 ≤ s.nstagesmax))
    (fun a b I hs => ⟨step_inv P T te t0 _ _ _ _ I.1 hs, by
      obtain ⟨h1, h2⟩ := key a b I.1 I.2 hs
      right; omega⟩) ⟨hv.inv P T hle h0, Or.inl rfl⟩ hr
  exact (key s s' this.1 this.2 hst).1

end Odes.Rock4
