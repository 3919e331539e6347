import Verif.Props.Rodas

/-! # Rodas: C35 (result delivered), C36 (vector tolerances) -/

namespace Odes.Rodas

open Classical Odes.Mem Odes.Vec

variable {n : ℕ} {L : Lin X n} {P : Prob X n} {g : Cfg n} {q : ℝ}

/-! ### C35 -/

/-- memory after `Y=y`. -/
theorem enter_spec (hn : 0 < n) {a : ℕ} {m : Heap X} (hm : m.Ok) {b : ℤ → X}
    (ha : m.blk a = some ⟨n, b⟩) (junk : ℤ → X) :
    ∃ m1 v d, enter n a junk m = some (m1, v) ∧ v.x = v.y ∧ v.y ≠ a ∧
      m1.blk v.y = some ⟨n, d⟩ ∧ (∀ i : ℤ, 0 ≤ i → i < n → d i = b i) ∧ m1.blk a = m.blk a := by
  have hlt : a < m.next := by
    by_contra hc
    rw [hm a (by omega)] at ha
    simp at ha
  have h1 : (FVF.new n junk (FVF.new n junk m).1).1.blk a = some ⟨n, b⟩ := by
    show Function.update (Function.update m.blk m.next _) (m.next + 1) _ a = _
    rw [Function.update_of_ne (by omega), Function.update_of_ne (by omega), ha]
  have h2 : (FVF.new n junk (FVF.new n junk m).1).1.blk
      (FVF.new n junk (FVF.new n junk m).1).2.y = some ⟨n, junk⟩ := by
    show Function.update (Function.update m.blk m.next _) (m.next + 1) _ (m.next + 1) = _
    rw [Function.update_self]
  have h3 : (FVF.new n junk (FVF.new n junk m).1).2.y ≠ a := by
    show m.next + 1 ≠ a
    omega
  obtain ⟨h', d, e1, e2, e3, e4, e5⟩ := assignTab_copies (n := (n : ℤ)) (by omega)
    (FVF.new n junk (FVF.new n junk m).1).2 a _ junk b rfl h3 h2 h1
  refine ⟨h', _, d.cell, ?_, rfl, h3, ?_, e4, ?_⟩
  · unfold enter
    dsimp only
    rw [e1]; rfl
  · rw [e2, ← e3]
  · rw [e5 a h3.symm, h1, ha]

/-- C35 fails: whatever the right hand side, the parameters and the run, the caller's array holds
after the call exactly what it held before (`Y.put(y)` copies nothing). -/
theorem rodas_array_unchanged (hn : 0 < n) {o : St n L.σ} {h x xe : X} {a : ℕ} {m m' : Heap X}
    {s : St n L.σ} (hm : m.Ok) {b : ℤ → X} (ha : m.blk a = some ⟨n, b⟩)
    (hc : Call L P g o h x xe a m m' s) : m'.blk a = some ⟨n, b⟩ := by
  obtain ⟨junk, m1, v, y, h1, -, -, h4⟩ := hc
  obtain ⟨m2, w, d, e1, e2, e3, e4, -, e6⟩ := enter_spec hn hm ha junk
  rw [e1] at h1
  simp only [Option.some.injEq, Prod.mk.injEq] at h1
  obtain ⟨rfl, rfl⟩ := h1
  unfold leave at h4
  dsimp only at h4
  rw [put_noop_partial (n := (n : ℤ)) (by omega) w a _ _ e2 (by
    dsimp only
    rw [Function.update_self, e4]; rfl)] at h4
  injection h4 with h4
  subst h4
  dsimp only
  rw [Function.update_of_ne e3.symm, e6, ha]

/-- C35, the claim: after a call which returns, the array holds the solution of the object. -/
def Delivers (n : ℕ) (g : Cfg n) : Prop :=
  ∀ (L : Lin X n) (P : Prob X n) (o : St n L.σ) (h x xe : X) (a : ℕ) (m m' : Heap X)
    (s : St n L.σ) (b : ℤ → X), m.Ok → m.blk a = some ⟨n, b⟩ → Call L P g o h x xe a m m' s →
    ∃ b', m'.blk a = some ⟨n, b'⟩ ∧ ∀ i : Fin n, b' i = s.Y i

/-- C35 fails for the default object with one equation: `y' = 1`, `y(0) = 0` on `[0,1]`: the object
holds 1 (up to `1e-13`), the array 0. -/
theorem rodas_not_delivered {meth : ℤ} {c : Coef ℚ} (hc : rocoe meth = some c) :
    ¬ Delivers 1 (wG c false) := by
  intro H
  obtain ⟨s, y, h1, -, -, -, h5, h6⟩ := run_const hc
  let m : Heap X := ⟨fun k => if k = 0 then some ⟨1, fun _ => .fin 0⟩ else none, 1⟩
  have hm : m.Ok := fun p hp => if_neg (by
    have : m.next = 1 := rfl
    omega)
  have ha : m.blk 0 = some ⟨((1 : ℕ) : ℤ), fun _ => .fin 0⟩ := rfl
  obtain ⟨m1, v, d, e1, e2, e3, e4, e5, e6⟩ := enter_spec (n := 1) one_pos hm ha (fun _ => .nan)
  have hcall : ∃ m', Call (exactLinX 1) (lift (wQ fun _ _ _ => 1)) (wG c false) wO (.fin 0.4)
      (.fin 0) (.fin 1) 0 m m' s := by
    obtain ⟨m', hl⟩ : ∃ m', leave (n := 1) 0 v s.Y m1 = some m' := by
      unfold leave
      dsimp only
      rw [put_noop_partial (n := ((1 : ℕ) : ℤ)) (by norm_num) v 0 _ _ e2 (by
        dsimp only
        rw [Function.update_self, e4]; rfl)]
      exact ⟨_, rfl⟩
    refine ⟨m', fun _ => .nan, m1, v, fins fun _ => 0, e1, fun i => ?_, h1, hl⟩
    unfold contents
    have hi : i.val = 0 := by omega
    rw [rd_live e4 (by rw [hi]; simp)]
    exact congrArg some (e5 _ (by omega) (by omega))
  obtain ⟨m', hcall⟩ := hcall
  obtain ⟨b', b1, b2⟩ := H _ _ _ _ _ _ 0 m m' s (fun _ => .fin 0) hm ha hcall
  rw [rodas_array_unchanged one_pos hm ha hcall] at b1
  injection b1 with b1
  injection b1 with _ b1
  have b3 := b2 0
  rw [← b1, h5] at b3
  have b4 : (0 : ℝ) = y := X.fin_inj.1 b3
  rw [← b4] at h6
  norm_num at h6

/-- C35, what holds: the object itself holds the solution (see `rodas_run_is_rosenbrock`); here:
a call starts from the contents of the caller's array. -/
theorem rodas_reads_array_partial (hn : 0 < n) {o : St n L.σ} {h x xe : X} {a : ℕ} {m m' : Heap X}
    {s : St n L.σ} (hm : m.Ok) {b : ℤ → X} (ha : m.blk a = some ⟨n, b⟩)
    (hc : Call L P g o h x xe a m m' s) :
    Returns (step L P g) (start o h x xe fun i : Fin n => b i) s := by
  obtain ⟨junk, m1, v, y, h1, h2, h3, -⟩ := hc
  obtain ⟨m2, w, d, e1, e2, e3, e4, e5, e6⟩ := enter_spec hn hm ha junk
  rw [e1] at h1
  simp only [Option.some.injEq, Prod.mk.injEq] at h1
  obtain ⟨rfl, rfl⟩ := h1
  have : y = fun i : Fin n => b i := by
    funext i
    have h4 := h2 i
    unfold contents at h4
    rw [rd_live e4 ⟨by omega, by dsimp only; omega⟩] at h4
    injection h4 with h4
    exact h4.symm.trans (e5 _ (by omega) (by omega))
  rw [this] at h3
  exact h3

/-! ### C36 -/

/-- C36 fails: with vector tolerances and arrays of the required size `n`, the loop reads
`_rtol[n]`, outside of the array (`none`), for every `n >= 1` and all contents. -/
theorem rodas_vector_tolerances_oob (hn : 0 < n) (atolA rtolA : Buf X) (hr : rtolA.size = n)
    (ha : atolA.size = n) : setTestPolicy n false atolA rtolA = none := by
  have key : ∀ k : ℕ, ∀ (i : ℤ) (s : (ℤ → X) × (ℤ → X)), 1 ≤ k → i + k - 1 = n → 1 ≤ i →
      loopUp (fun i (s : (ℤ → X) × (ℤ → X)) =>
        if false = true then
          (atolA.rd 0).bind fun a => (rtolA.rd 0).bind fun r =>
            some (Function.update s.1 i a, Function.update s.2 i r)
        else
          (rtolA.rd i).bind fun r => (atolA.rd i).bind fun a =>
            some (Function.update s.1 i a, Function.update s.2 i r)) k i s = none := by
    intro k
    induction k with
    | zero => intro i s h; omega
    | succ k ih =>
      intro i s _ h1 h2
      rw [loopUp, if_neg (by decide)]
      by_cases hi : i = n
      · have : rtolA.rd i = none := by
          unfold Buf.rd
          rw [if_neg (by rw [hr]; omega)]
        rw [this]; rfl
      · rw [Buf.rd_in (b := rtolA) ⟨by omega, by rw [hr]; omega⟩,
          Buf.rd_in (b := atolA) ⟨by omega, by rw [ha]; omega⟩]
        simp only [Option.bind_some]
        exact ih (i + 1) _ (by omega) (by push_cast at h1 ⊢; omega) (by omega)
  unfold setTestPolicy forUp
  exact key _ 1 _ (by omega) (by omega) le_rfl

/-- C36, what holds: scalar tolerances are used for every component and nothing is read outside;
vector tolerances of arrays with one more entry are shifted by one: component `i` (one-based) uses
entry `i` (zero-based). -/
theorem rodas_tolerances_partial (n : ℕ) (atolA rtolA : Buf X) :
    (1 ≤ atolA.size → 1 ≤ rtolA.size → ∃ A R, setTestPolicy n true atolA rtolA = some (A, R) ∧
      ∀ i, 1 ≤ i → i ≤ (n : ℤ) → A i = atolA.cell 0 ∧ R i = rtolA.cell 0) ∧
    ((n : ℤ) + 1 ≤ atolA.size → (n : ℤ) + 1 ≤ rtolA.size →
      ∃ A R, setTestPolicy n false atolA rtolA = some (A, R) ∧
      ∀ i, 1 ≤ i → i ≤ (n : ℤ) → A i = atolA.cell i ∧ R i = rtolA.cell i) := by
  constructor
  · intro ha hr
    obtain ⟨⟨A, R⟩, h1, h2⟩ := forUp_inv
      (P := fun j (s : (ℤ → X) × (ℤ → X)) => ∀ i, 1 ≤ i → i < j →
        s.1 i = atolA.cell 0 ∧ s.2 i = rtolA.cell 0)
      (body := fun i (s : (ℤ → X) × (ℤ → X)) =>
        if true = true then
          (atolA.rd 0).bind fun a => (rtolA.rd 0).bind fun r =>
            some (Function.update s.1 i a, Function.update s.2 i r)
        else
          (rtolA.rd i).bind fun r => (atolA.rd i).bind fun a =>
            some (Function.update s.1 i a, Function.update s.2 i r))
      (lo := 1) (hi := n) (s := (fun _ => X.nan, fun _ => X.nan)) (by omega)
      (fun i a b => by omega) (by
        intro j s hj hj' hP
        rw [if_pos rfl, Buf.rd_in (b := atolA) ⟨le_rfl, by omega⟩,
          Buf.rd_in (b := rtolA) ⟨le_rfl, by omega⟩]
        refine ⟨_, rfl, fun i a b => ?_⟩
        dsimp only
        by_cases e : i = j
        · rw [e, Function.update_self, Function.update_self]; exact ⟨rfl, rfl⟩
        · rw [Function.update_of_ne e, Function.update_of_ne e]; exact hP i a (by omega))
    exact ⟨A, R, h1, fun i a b => h2 i a (by omega)⟩
  · intro ha hr
    obtain ⟨⟨A, R⟩, h1, h2⟩ := forUp_inv
      (P := fun j (s : (ℤ → X) × (ℤ → X)) => ∀ i, 1 ≤ i → i < j →
        s.1 i = atolA.cell i ∧ s.2 i = rtolA.cell i)
      (body := fun i (s : (ℤ → X) × (ℤ → X)) =>
        if false = true then
          (atolA.rd 0).bind fun a => (rtolA.rd 0).bind fun r =>
            some (Function.update s.1 i a, Function.update s.2 i r)
        else
          (rtolA.rd i).bind fun r => (atolA.rd i).bind fun a =>
            some (Function.update s.1 i a, Function.update s.2 i r))
      (lo := 1) (hi := n) (s := (fun _ => X.nan, fun _ => X.nan)) (by omega)
      (fun i a b => by omega) (by
        intro j s hj hj' hP
        rw [if_neg (by decide), Buf.rd_in (b := rtolA) ⟨by omega, by omega⟩,
          Buf.rd_in (b := atolA) ⟨by omega, by omega⟩]
        refine ⟨_, rfl, fun i a b => ?_⟩
        dsimp only
        by_cases e : i = j
        · rw [e, Function.update_self, Function.update_self]; exact ⟨rfl, rfl⟩
        · rw [Function.update_of_ne e, Function.update_of_ne e]; exact hP i a (by omega))
    exact ⟨A, R, h1, fun i a b => h2 i a (by omega)⟩

end Odes.Rodas
