import Verif.Props.Rock4L
import Mathlib.Analysis.SpecialFunctions.Pow.Real
import Mathlib.Data.List.Nodup

/-!
# Rock4-L: the time loop on finite data
-/

namespace Odes.Rock4L

open Matrix
open Rock4 (Sel MS)
open Classical

variable {n : ℕ}

/-- a real vector as a vector of extended numbers. -/
def up (v : Fin n → ℝ) : Fin n → X := fun i => X.fin (v i)

theorem up_inj {v w : Fin n → ℝ} (h : up v = up w) : v = w := by
  funext i
  exact X.fin_inj (a := v i) (b := w i) |>.1 (congrFun h i)

/-- The user's operator computes with the real matrix `A` on finite data (the contracts needed
by the entry point `aff`), and the tables contain the real numbers `R`. -/
structure Ok (aff : Bool) (O : Oper X n) (T : Tab X) (A : Matrix (Fin n) (Fin n) ℝ)
    (R : Tab ℝ) : Prop where
  recf : ∀ i, T.recf i = X.fin (R.recf i)
  fpa : ∀ i j, T.fpa i j = X.fin (R.fpa i j)
  fpb : ∀ i j, T.fpb i j = X.fin (R.fpb i j)
  op5 : ∀ v s a b, O.op5 (up v) (up s) (X.fin a) (X.fin b) = up (a • (A *ᵥ v) + b • s)
  op7 : aff = false → ∀ v s a b c, O.op7 (up v) (up s) (X.fin a) (X.fin b) (X.fin c)
    = up (a • (A *ᵥ v) + b • v + c • s)
  op6 : aff = true → ∀ v s a b g, O.op6 (up v) (up s) (X.fin a) (X.fin b) (up g)
    = up (a • (A *ᵥ v + g) + b • s)
  op8 : aff = true → ∀ v s a b c g, O.op8 (up v) (up s) (X.fin a) (X.fin b) (X.fin c) (up g)
    = up (a • (A *ᵥ v + g) + b • v + c • s)

/-- the operator of the shipped example over the reals. -/
def shipOp (A : Matrix (Fin n) (Fin n) ℝ) : Oper ℝ n where
  op5 v s a b := a • (A *ᵥ v) + b • s
  op6 v s a b g := a • (A *ᵥ v + g) + b • s
  op7 v s a b c := a • (A *ᵥ v) + b • v + c • s
  op8 v s a b c g := a • (A *ᵥ v + g) + b • v + c • s

theorem gSeq_up (first : Fin n → ℝ)
    (op : (Fin n → X) → (Fin n → X) → X → X → X → Fin n → X)
    (opR : (Fin n → ℝ) → (Fin n → ℝ) → ℝ → ℝ → ℝ → Fin n → ℝ) (mu kap : ℕ → X)
    (muR kapR : ℕ → ℝ) (hmu : ∀ j, mu j = X.fin (muR j)) (hkap : ∀ j, kap j = X.fin (kapR j))
    (hop : ∀ v s a b c, op (up v) (up s) (X.fin a) (X.fin b) (X.fin c) = up (opR v s a b c))
    (dt : ℝ) (y : Fin n → ℝ) :
    ∀ j, gSeq (up first) op mu kap (X.fin dt) (up y) j = up (gSeq first opR muR kapR dt y j)
  | 0 => rfl
  | 1 => rfl
  | (j + 2) => by
    rw [gSeq, gSeq, gSeq_up first op opR mu kap muR kapR hmu hkap hop dt y (j + 1),
      gSeq_up first op opR mu kap muR kapR hmu hkap hop dt y j, hmu, hkap, X.fin_mul, X.fin_neg,
      X.one_eq, X.fin_sub, hop]

section

variable {aff : Bool} {O : Oper X n} {T : Tab X} {A : Matrix (Fin n) (Fin n) ℝ} {R : Tab ℝ}

theorem muOf_up (h : Ok aff O T A R) (mr : ℤ) (j : ℕ) : muOf T mr j = X.fin (muOf R mr j) := by
  unfold muOf
  split_ifs
  · exact h.recf _
  · exact h.recf _

theorem kapOf_up (h : Ok aff O T A R) (mr : ℤ) (j : ℕ) :
    kapOf T mr j = X.fin (kapOf R mr j) := h.recf _

theorem val1_up (h : Ok false O T A R) (mdeg mz mr : ℤ) (dt : ℝ) (y : Fin n → ℝ) :
    val1 O T mdeg mz mr (X.fin dt) (up y)
      = up (Spec.Gen.step (formulaOf R mdeg mz mr) (fun v => A *ᵥ v) dt y) := by
  rw [← val1_eq A (shipOp A) ⟨fun _ _ _ _ => rfl, fun _ _ _ _ _ => rfl⟩]
  unfold val1
  have e0 : O.op5 (up y) (up y) (X.fin dt * muOf T mr 1) 1
      = up ((shipOp A).op5 y y (dt * muOf R mr 1) 1) := by
    rw [muOf_up h, X.fin_mul, X.one_eq, h.op5]
    rfl
  rw [e0, gSeq_up _ O.op7 (shipOp A).op7 (muOf T mr) (kapOf T mr) (muOf R mr) (kapOf R mr)
    (muOf_up h mr) (kapOf_up h mr) (h.op7 rfl)]
  simp only [fin1, hc4, hc3, hc2, hc1, coefOf, Coef.scale, h.fpa, h.fpb, X.fin_mul, X.fin_add,
    h.op5, X.one_eq]
  rfl

theorem val2_up (h : Ok true O T A R) (mdeg mz mr : ℤ) (dt : ℝ) (b y : Fin n → ℝ) :
    val2 O T mdeg mz mr (X.fin dt) (up b) (up y)
      = up (Spec.Gen.step (formulaOf R mdeg mz mr) (fun v => A *ᵥ v + b) dt y) := by
  rw [← val2_eq A (shipOp A) ⟨fun _ _ _ _ => rfl, fun _ _ _ _ _ => rfl, fun _ _ _ _ _ _ => rfl⟩]
  unfold val2
  have e0 : O.op6 (up y) (up y) (X.fin dt * muOf T mr 1) 1 (up b)
      = up ((shipOp A).op6 y y (dt * muOf R mr 1) 1 b) := by
    rw [muOf_up h, X.fin_mul, X.one_eq, h.op6 rfl]
    rfl
  rw [e0, gSeq_up _ (fun v s a1 a2 a3 => O.op8 v s a1 a2 a3 (up b))
    (fun v s a1 a2 a3 => (shipOp A).op8 v s a1 a2 a3 b) (muOf T mr) (kapOf T mr) (muOf R mr)
    (kapOf R mr) (muOf_up h mr) (kapOf_up h mr) (fun v s a1 a2 a3 => h.op8 rfl v s a1 a2 a3 b)]
  simp only [fin2, hc4, hc3, hc2, hc1, coefOf, h.fpa, h.fpb, X.fin_mul, X.fin_add,
    h.op5, X.one_eq]
  funext i
  rfl

/-- the right hand side integrated. -/
def rhs (aff : Bool) (A : Matrix (Fin n) (Fin n) ℝ) (b : Fin n → ℝ) (v : Fin n → ℝ) : Fin n → ℝ :=
  if aff then A *ᵥ v + b else A *ᵥ v

theorem kern_up (h : Ok aff O T A R) (s : St n) (hs : Sel s.mdeg s.mp1 s.mp2) (dt : ℝ)
    (hdt : s.h = X.fin dt) (y b : Fin n → ℝ) (h1 : s.heap s.y = up y)
    (h2 : aff = true → s.heap s.b = up b) (hy : 4 ≤ s.y) (hb : 4 ≤ s.b) :
    ∃ hp, kern aff O T s = some (hp, s.mdeg.toNat + 4) ∧
      hp s.y = up (Spec.Gen.step (formulaOf R s.mdeg s.mp1 s.mp2) (rhs aff A b) dt y) ∧
      ∀ q, 4 ≤ q → q ≠ s.y → hp q = s.heap q := by
  obtain ⟨b1, b2, b3, b4, b5, b6⟩ := hs.bounds
  cases aff with
  | false =>
    obtain ⟨hp, e1, e2, e3⟩ := kernel1_spec O T s.heap (y := s.y) s.h hy b1 b3 b4 b5 (by omega)
    refine ⟨hp, ?_, ?_, e3⟩
    · simpa [kern] using e1
    · rw [e2, hdt, h1, val1_up h]; rfl
  | true =>
    obtain ⟨hp, e1, e2, e3⟩ := kernel2_spec O T s.heap (y := s.y) (b := s.b) s.h hy hb b1 b3 b4 b5
      (by omega)
    refine ⟨hp, ?_, ?_, e3⟩
    · simpa [kern] using e1
    · rw [e2, hdt, h1, h2 rfl, val2_up h]; rfl

end

/-- number of stages asked for by the stability condition with spectral radius `ρ`. -/
noncomputable def need (ρ h : ℝ) : ℤ := ⌊Real.sqrt ((3 + h * ρ) / 0.353) + 1⌋

/-- (`mdeg`,`mp[1]`,`mp[2]`) is the smallest formula of the family with at least the number of
stages needed (the finishing method has 4). -/
def Chosen (ρ h : ℝ) (mdeg mz mr : ℤ) : Prop :=
  Sel mdeg mz mr ∧ need ρ h ≤ mdeg + 4 ∧ ∀ d ∈ MS, need ρ h ≤ d + 4 → mdeg ≤ d

theorem MS_inj : ∀ k k' : Fin 50, MS[k.1]? = MS[k'.1]? → k = k' := by decide +kernel

theorem MS_pos : ∀ d ∈ MS, 1 ≤ d := by decide +kernel

theorem Sel.mem {a b c : ℤ} (h : Sel a b c) : a ∈ MS := by
  obtain ⟨k, hk, h1, -⟩ := h
  exact List.mem_of_getElem? h1

theorem Sel.unique {a b c b' c' : ℤ} (h : Sel a b c) (h' : Sel a b' c') : b = b' ∧ c = c' := by
  obtain ⟨k, hk, h1, h2, h3⟩ := h
  obtain ⟨k', hk', h1', h2', h3'⟩ := h'
  have := MS_inj ⟨k, hk⟩ ⟨k', hk'⟩ (by simp only [h1, h1'])
  have : k = k' := congrArg Fin.val this
  subst this
  exact ⟨by omega, by rw [h3, h3']⟩

theorem Chosen.unique {ρ h : ℝ} {a b c a' b' c' : ℤ} (h1 : Chosen ρ h a b c)
    (h2 : Chosen ρ h a' b' c') : a = a' ∧ b = b' ∧ c = c' := by
  obtain ⟨s1, n1, m1⟩ := h1
  obtain ⟨s2, n2, m2⟩ := h2
  have e : a = a' := le_antisymm (m1 _ (Sel.mem s2) n2) (m2 _ (Sel.mem s1) n1)
  subst e
  exact ⟨rfl, Sel.unique s1 s2⟩

theorem toInt_need {r e : ℝ} (h0 : 0 ≤ r * e) (h1 : r * e ≤ 1e18) :
    X.toInt (X.sqrt ((3.0 + X.fin r * X.fin e) / 0.353) + 1) = some (need e r) := by
  have e3 : ((3.0 : X) + X.fin r * X.fin e) / 0.353 = X.fin ((3 + r * e) / 0.353) := by
    rw [X.fin_mul, X.ofSci_eq, X.ofSci_eq, X.fin_add, X.fin_div _ _ (by norm_num)]
    norm_num
  have hnn : 0 ≤ (3 + r * e) / 0.353 := div_nonneg (by linarith) (by norm_num)
  rw [e3, X.sqrt_fin_nonneg hnn, X.one_eq, X.fin_add]
  have hs := Real.sqrt_nonneg ((3 + r * e) / 0.353)
  have hs2 := Real.sq_sqrt hnn
  unfold need
  set q := Real.sqrt ((3 + r * e) / 0.353) with hq
  have hqhi : q + 1 < 2147483648 := by
    have : q ^ 2 ≤ (2e9 : ℝ) ^ 2 := by
      rw [hs2, div_le_iff₀ (by norm_num)]
      norm_num at h1 ⊢; linarith
    have : q ≤ 2e9 := le_of_sq_le_sq this (by norm_num)
    norm_num at this ⊢; linarith
  unfold X.toInt
  simp only
  rw [if_pos (by linarith : (0:ℝ) ≤ q + 1), if_pos]
  constructor
  · have : (0 : ℤ) ≤ ⌊q + 1⌋ := Int.floor_nonneg.2 (by linarith)
    omega
  · have : ⌊q + 1⌋ < 2147483648 := by
      rw [Int.floor_lt]; push_cast; exact hqhi
    omega

/-- step size after the test at the head of the loop. -/
noncomputable def cap (te t h : ℝ) : ℝ := if te - t ≤ 1.01 * h then te - t else h

theorem cap_X (te t h : ℝ) (hlt : t < te) :
    (if X.ABS (X.fin te - X.fin t) ≤ 1.01 * X.fin h then X.ABS (X.fin te - X.fin t) else X.fin h)
      = X.fin (cap te t h) := by
  rw [X.fin_sub, X.ABS_fin, abs_of_pos (by linarith), X.ofSci_eq, X.fin_mul]
  unfold cap
  by_cases hc : te - t ≤ 1.01 * h
  · rw [if_pos hc, if_pos (by rw [X.fin_le]; norm_num at hc ⊢; linarith)]
  · rw [if_neg hc, if_neg (by rw [X.fin_le]; norm_num at hc ⊢; linarith)]

/-- loop invariant: what the selected degree designates. -/
def SelInv (s : St n) : Prop :=
  s.mdego = 0 ∨ Sel s.mdego s.mp1 s.mp2 ∧ s.mdego + 4 ≤ s.nstagesmax

theorem choose_small (te t h : ℝ) (s : St n) (ht : s.t = X.fin t) (hh : s.h = X.fin h)
    (hu : s.uround = 1.0e-16) (hlt : t < te) (hs : cap te t h < 1e-15) :
    choose (X.fin te) s = .throw .stepTooSmall := by
  unfold choose
  simp only [ht, hh, hu, cap_X te t h hlt]
  rw [if_pos]
  rw [X.ofSci_eq, X.ofSci_eq, X.fin_mul, X.fin_lt]
  norm_num at hs ⊢
  linarith

theorem choose_large (te t h ρ : ℝ) (s : St n) (ht : s.t = X.fin t) (hh : s.h = X.fin h)
    (hu : s.uround = 1.0e-16) (he : s.eigmax = X.fin ρ) (hlt : t < te)
    (hs : 1e-15 ≤ cap te t h) (h0 : 0 ≤ cap te t h * ρ) (h1 : cap te t h * ρ ≤ 1e18)
    (hn : 152 < need ρ (cap te t h)) :
    choose (X.fin te) s = .throw .degreeTooLarge := by
  unfold choose
  simp only [ht, hh, hu, he, cap_X te t h hlt]
  rw [if_neg, toInt_need h0 h1]
  · simp only
    rw [if_pos hn]
  · rw [X.ofSci_eq, X.ofSci_eq, X.fin_mul, X.fin_lt]
    norm_num at hs ⊢
    linarith

theorem choose_next (te t h ρ : ℝ) (s : St n) (ht : s.t = X.fin t) (hh : s.h = X.fin h)
    (hu : s.uround = 1.0e-16) (he : s.eigmax = X.fin ρ) (hlt : t < te) (hi : SelInv s)
    (hs : 1e-15 ≤ cap te t h) (h0 : 0 ≤ cap te t h * ρ) (h1 : cap te t h * ρ ≤ 1e18)
    (hn : need ρ (cap te t h) ≤ 152) :
    ∃ a b c : ℤ, choose (X.fin te) s = .next
      { s with h := X.fin (cap te t h), mdeg := a, mp1 := b, mp2 := c, mdego := a,
               nstagesmax := max s.nstagesmax (a + 4) } ∧
      Chosen ρ (cap te t h) a b c := by
  unfold choose
  simp only [ht, hh, hu, he, cap_X te t h hlt]
  rw [if_neg, toInt_need h0 h1]
  swap
  · rw [X.ofSci_eq, X.ofSci_eq, X.fin_mul, X.fin_lt]
    norm_num at hs ⊢
    linarith
  simp only
  rw [if_neg (by omega)]
  set N := need ρ (cap te t h) with hN
  obtain ⟨q1, q2, q3⟩ := Rock4.mdegre_spec (max N 5 - 4) s.mp1 (by omega) (by omega)
  have hch : ∀ a b c, Sel a b c → max N 5 - 4 ≤ a → (∀ d ∈ MS, max N 5 - 4 ≤ d → a ≤ d) →
      Chosen ρ (cap te t h) a b c := by
    intro a b c r1 r2 r3
    refine ⟨r1, by omega, fun d hd hd' => r3 d hd ?_⟩
    have := MS_pos d hd
    omega
  by_cases hne : max N 5 - 4 ≠ s.mdego
  · rw [if_pos hne]
    refine ⟨_, _, _, ?_, hch _ _ _ q1 q2 q3⟩
    have e : (if (Rock4.mdegre (max N 5 - 4) s.mp1).1 + 4 > s.nstagesmax then
        (Rock4.mdegre (max N 5 - 4) s.mp1).1 + 4 else s.nstagesmax)
        = max s.nstagesmax ((Rock4.mdegre (max N 5 - 4) s.mp1).1 + 4) := by
      split_ifs <;> omega
    rw [e]
  · rw [if_neg hne]
    push Not at hne
    obtain ⟨hsel, hmx⟩ : Sel s.mdego s.mp1 s.mp2 ∧ s.mdego + 4 ≤ s.nstagesmax := by
      rcases hi with h | h
      · omega
      · exact h
    refine ⟨s.mdego, s.mp1, s.mp2, ?_, hch _ _ _ hsel (by omega) (fun d _ h => by omega)⟩
    rw [hne, max_eq_left hmx]

/-- state of the loop at time `t` with step `h` and value `y`. -/
structure LInv (aff : Bool) (ρ t h : ℝ) (y b : Fin n → ℝ) (p q : ℕ) (s : St n) : Prop where
  ht : s.t = X.fin t
  hh : s.h = X.fin h
  hu : s.uround = 1.0e-16
  he : s.eigmax = X.fin ρ
  sel : SelInv s
  py : s.y = p
  pb : s.b = q
  hp : 4 ≤ p
  hq : 4 ≤ q
  hy : s.heap p = up y
  hb : aff = true → s.heap q = up b ∧ q ≠ p

/-- what a step does besides advancing `y`. -/
structure Counts (a : ℤ) (s s' : St n) : Prop where
  frame : ∀ i, 4 ≤ i → i ≠ s.y → s'.heap i = s.heap i
  nsteps : s'.nsteps = s.nsteps + 1
  calls : s'.calls = s.calls + (a + 4)
  funccal : s'.funccal = s.funccal + (a + 5)
  stages : s'.nstagesmax = max s.nstagesmax (a + 4)

theorem step_real {aff : Bool} {O : Oper X n} {T : Tab X} {A : Matrix (Fin n) (Fin n) ℝ}
    {R : Tab ℝ} (hok : Ok aff O T A R) {te t h ρ : ℝ} {y b : Fin n → ℝ} {p q : ℕ} {s : St n}
    (hi : LInv aff ρ t h y b p q s) (hlt : t < te)
    (hs : 1e-15 ≤ cap te t h) (h0 : 0 ≤ cap te t h * ρ) (h1 : cap te t h * ρ ≤ 1e18)
    (hn : need ρ (cap te t h) ≤ 152) :
    ∃ a b' c s', step aff O T (X.fin te) s = .next s' ∧ Chosen ρ (cap te t h) a b' c ∧
      LInv aff ρ (t + cap te t h)
        (if te < t + cap te t h + cap te t h then te - (t + cap te t h) else cap te t h)
        (Spec.Gen.step (formulaOf R a b' c) (rhs aff A b) (cap te t h) y) b p q s' ∧
      Counts a s s' := by
  obtain ⟨a, b', c, e1, e2⟩ := choose_next te t h ρ s hi.ht hi.hh hi.hu hi.he hlt hi.sel hs h0 h1 hn
  set s1 : St n := { s with h := X.fin (cap te t h), mdeg := a, mp1 := b', mp2 := c, mdego := a,
                            nstagesmax := max s.nstagesmax (a + 4) } with hs1
  obtain ⟨hp, k1, k2, k3⟩ := kern_up hok s1 e2.1 (cap te t h) rfl y b (by rw [← hi.hy, ← hi.py])
    (fun h => by rw [← (hi.hb h).1, ← hi.pb]) (by rw [hs1]; rw [hi.py]; exact hi.hp)
    (by rw [hs1]; rw [hi.pb]; exact hi.hq)
  have ha : 1 ≤ a := e2.1.bounds.1
  refine ⟨a, b', c, advance (X.fin te) s1 hp (s1.mdeg.toNat + 4), ?_, e2, ?_, ?_⟩
  · unfold step
    rw [hi.ht, if_pos (by rw [X.fin_lt]; exact hlt), e1]
    simp only
    rw [k1]
  · refine ⟨?_, ?_, hi.hu, hi.he, ?_, hi.py, hi.pb, hi.hp, hi.hq, ?_, ?_⟩
    · show s.t + X.fin (cap te t h) = _
      rw [hi.ht, X.fin_add]
    · show (if X.fin te < s.t + X.fin (cap te t h) + X.fin (cap te t h) then
        X.fin te - (s.t + X.fin (cap te t h)) else X.fin (cap te t h)) = _
      rw [hi.ht, X.fin_add, X.fin_add, X.fin_sub]
      by_cases hc : te < t + cap te t h + cap te t h
      · rw [if_pos hc, if_pos (by rw [X.fin_lt]; exact hc)]
      · rw [if_neg hc, if_neg (by rw [X.fin_lt]; exact hc)]
    · exact Or.inr ⟨e2.1, le_max_right _ _⟩
    · have := k2
      rw [show s1.y = p from hi.py] at this
      exact this
    · intro h
      refine ⟨?_, (hi.hb h).2⟩
      rw [← (hi.hb h).1]
      exact k3 q hi.hq (by rw [show s1.y = p from hi.py]; exact (hi.hb h).2)
  · refine ⟨fun i h4 hne => k3 i h4 hne, rfl, ?_, ?_, rfl⟩
    · show s.calls + ((a.toNat + 4 : ℕ) : ℤ) = _
      push_cast
      omega
    · show s.funccal + (a + 1) + 4 = _
      ring

end Odes.Rock4L
