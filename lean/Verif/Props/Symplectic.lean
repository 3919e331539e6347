import Verif.Lemmas.Symplectic
import Verif.Lemmas.GaussSound
import Mathlib.Tactic.FinCases
import Mathlib.Tactic.NormNum

/-!
# Symplectic methods (C67 - C69, C72 - C74)
-/

namespace Odes.Symp

open Odes.Mem Spec

section Generic

variable {α : Type} [Add α] [Sub α] [Mul α] [Zero α] [One α] [LE α] {n : ℕ}

/-! ### C67: coefficients -/

/-- C67: after any history, the arrays of coefficients of a call contain the tables times the step size
of this call (converted to `double`).  The scalar type is arbitrary: its `==` must only hold for equal
values, and multiplication by 1 must change nothing. -/
theorem symp_coeffs {c : Cfg α n} (hT : Tab c) (hS : Scal c) {st st' : St α n} (hist : Hist c st)
    {h : α} {u u' : Fin n → α} {first r : Bool} (hs : step c h u first st = some (r, u', st')) :
    (∀ k : ℕ, k < c.s * c.s → st'.ga.cell k = c.la.getD k 0 * c.narrow h) ∧
    (∀ k : ℕ, k < c.s → st'.gb.cell k = c.lb.getD k 0 * c.narrow h) ∧
    (∀ k : ℕ, k < c.s * c.s → st'.q.cell k = c.lc.getD k 0 * c.narrow h) ∧ st'.oldH = h := by
  obtain ⟨-, a, b, -⟩ := step_cases hT hS (hist.inv hT hS) hs
  exact ⟨a.ga, a.gb, a.q, b⟩

/-- C67, what is computed: the iterates and the increment use the tables times the step size of this
call, whatever calls were made before.  `Y0` are the starting values, all equal to `u` unless the
extrapolation is used. -/
theorem symp_step {c : Cfg α n} (hT : Tab c) (hS : Scal c) {st st' : St α n} (hist : Hist c st)
    {h : α} {u u' : Fin n → α} {first : Bool} (hs : step c h u first st = some (true, u', st')) :
    ∃ (Y0 : ℕ → Fin n → α) (M : ℕ), M < c.itermax.toNat ∧
      ((first = true ∨ ¬ c.eq st.oldH h) → ∀ i, i < c.s → Y0 i = u) ∧
      ∀ l, u' l = u l + (st.e l + sumL (fun i => c.narrow (c.lb.getD i 0 * c.narrow h) *
        c.f (iter (fun i j => c.la.getD (i * c.s + j) 0 * c.narrow h) c.s c.f u Y0 M i) l) 0 c.s) := by
  obtain ⟨-, -, -, Y0, h0, h1⟩ := step_cases hT hS (hist.inv hT hS) hs
  rcases h1 with ⟨-, M, hM, -, -, -, -, -, hd, hu, -⟩ | ⟨hf, -⟩
  · exact ⟨Y0, M, hM, h0, fun l => by rw [hu, hd]⟩
  · cases hf

/-- C67 is violated for `long double`: `change_h` takes a `double`.  When the step size is not a
`double` (`narrow h ≠ h`), a coefficient which is not zero is not the table times the step size. -/
theorem symp_coeffs_narrowed {n : ℕ} {c : Cfg ℝ n} (hT : Tab c) (hS : Scal c) {st st' : St ℝ n}
    (hist : Hist c st) {h : ℝ} {u u' : Fin n → ℝ} {first r : Bool}
    (hs : step c h u first st = some (r, u', st')) (hh : c.narrow h ≠ h) {k : ℕ} (hk : k < c.s * c.s)
    (h0 : c.la.getD k 0 ≠ 0) : st'.ga.cell k ≠ c.la.getD k 0 * h := by
  rw [(symp_coeffs hT hS hist hs).1 k hk]
  exact fun hcon => hh (mul_left_cancel₀ h0 hcon)

/-! ### C68: failure -/

/-- C68: when `step` returns false, `u` and the compensation are unchanged.  Any scalar type, any
function. -/
theorem symp_failure {c : Cfg α n} (hT : Tab c) (hS : Scal c) {st st' : St α n} (hist : Hist c st)
    {h : α} {u u' : Fin n → α} {first : Bool} (hs : step c h u first st = some (false, u', st')) :
    u' = u ∧ st'.e = st.e := by
  obtain ⟨-, -, -, Y0, -, h1⟩ := step_cases hT hS (hist.inv hT hS) hs
  rcases h1 with ⟨hf, -⟩ | ⟨-, a, b, -⟩
  · cases hf
  · exact ⟨a, b⟩

/-! ### C69: success -/

/-- C69 (partial): `step` returns true after the first iteration such that the sum of squares of the
differences of the last two iterates is below the threshold and not smaller than the preceding value.
Missing: "at least two iterations", wrong by `symp_one_iteration`. -/
theorem symp_success_partial {c : Cfg α n} (hT : Tab c) (hS : Scal c) {st st' : St α n}
    (hist : Hist c st) {h : α} {u u' : Fin n → α} {first : Bool}
    (hs : step c h u first st = some (true, u', st')) :
    ∃ (Y0 : ℕ → Fin n → α) (M : ℕ), M < c.itermax.toNat ∧
      st'.tv = rho (fun i j => c.la.getD (i * c.s + j) 0 * c.narrow h) c.s c.f u Y0 M ∧
      c.small st'.tv ∧
      prev (fun i j => c.la.getD (i * c.s + j) 0 * c.narrow h) c.s c.f u Y0 st.tv M ≤ st'.tv ∧
      ∀ j, j < M → ¬ (c.small
          (rho (fun i j => c.la.getD (i * c.s + j) 0 * c.narrow h) c.s c.f u Y0 j) ∧
        prev (fun i j => c.la.getD (i * c.s + j) 0 * c.narrow h) c.s c.f u Y0 st.tv j ≤
          rho (fun i j => c.la.getD (i * c.s + j) 0 * c.narrow h) c.s c.f u Y0 j) := by
  obtain ⟨-, -, -, Y0, -, h1⟩ := step_cases hT hS (hist.inv hT hS) hs
  rcases h1 with ⟨-, M, hM, h2, h3, h4, -⟩ | ⟨hf, -⟩
  · exact ⟨Y0, M, hM, h4, by rw [h4]; exact h2.1, by rw [h4]; exact h2.2, h3⟩
  · cases hf

/-- and `step` returns false exactly when this never happens in the iterations allowed. -/
theorem symp_false {c : Cfg α n} (hT : Tab c) (hS : Scal c) {st st' : St α n} (hist : Hist c st)
    {h : α} {u u' : Fin n → α} {first : Bool} (hs : step c h u first st = some (false, u', st')) :
    ∃ Y0 : ℕ → Fin n → α, ((first = true ∨ ¬ c.eq st.oldH h) → ∀ i, i < c.s → Y0 i = u) ∧
      ∀ j, j < c.itermax.toNat → ¬ (c.small
          (rho (fun i j => c.la.getD (i * c.s + j) 0 * c.narrow h) c.s c.f u Y0 j) ∧
        prev (fun i j => c.la.getD (i * c.s + j) 0 * c.narrow h) c.s c.f u Y0 st.tv j ≤
          rho (fun i j => c.la.getD (i * c.s + j) 0 * c.narrow h) c.s c.f u Y0 j) := by
  obtain ⟨-, -, -, Y0, h0, h1⟩ := step_cases hT hS (hist.inv hT hS) hs
  rcases h1 with ⟨hf, -⟩ | ⟨-, -, -, -, -, h2⟩
  · cases hf
  · exact ⟨Y0, h0, h2⟩

/-! ### C74: `maxIter` -/

/-- C74 is violated: after every successful step `maxIter()` is one less than the number of iterations
made.  The number of iterations is the number of calls of the user's function divided by the number of
stages. -/
theorem symp_maxIter {c : Cfg α n} (hT : Tab c) (hS : Scal c) {st st' : St α n} (hist : Hist c st)
    {h : α} {u u' : Fin n → α} {first : Bool} (hs : step c h u first st = some (true, u', st'))
    {N : ℕ} (hN : st'.calls = st.calls + N * c.s) : st'.iter = N - 1 ∧ 1 ≤ N := by
  obtain ⟨-, -, -, Y0, -, h1⟩ := step_cases hT hS (hist.inv hT hS) hs
  have := hT.two
  rcases h1 with ⟨-, M, -, -, -, -, hi, hc, -⟩ | ⟨hf, -⟩
  · have : N * c.s = (M + 1) * c.s := by omega
    have := Nat.eq_of_mul_eq_mul_right (by omega) this
    subst this
    rw [hi]
    exact ⟨by push_cast; ring, by omega⟩
  · cases hf

/-- C74 (partial): after a failure `maxIter()` is the number of iterations made, the maximal number. -/
theorem symp_maxIter_partial {c : Cfg α n} (hT : Tab c) (hS : Scal c) {st st' : St α n}
    (hist : Hist c st) {h : α} {u u' : Fin n → α} {first : Bool}
    (hs : step c h u first st = some (false, u', st')) :
    st'.iter = max c.itermax 0 ∧ st'.calls = st.calls + c.itermax.toNat * c.s := by
  obtain ⟨-, -, -, Y0, -, h1⟩ := step_cases hT hS (hist.inv hT hS) hs
  rcases h1 with ⟨hf, -⟩ | ⟨-, -, -, hi, hc, -⟩
  · cases hf
  · exact ⟨by rw [hi]; omega, hc⟩

/-! ### C72: extrapolation -/

/-- as `symp_defined_iff`, for the states in the invariant. -/
theorem step_none_iff {c : Cfg α n} (hT : Tab c) (hS : Scal c) {st : St α n}
    (hi : Inv c st) (h : α) (u : Fin n → α) (first : Bool) :
    step c h u first st = none ↔ n < c.s ∧ first = false ∧ c.eq st.oldH h := by
  constructor
  · intro hn
    by_contra hcon
    have hd : c.s ≤ n ∨ first = true ∨ ¬ c.eq st.oldH h := by
      by_contra hd
      push Not at hd
      exact hcon ⟨hd.1, by simpa using hd.2.1, hd.2.2⟩
    obtain ⟨st0, r, w0, -, -, -, -, -, -, -, hr, heq⟩ := step_of hT hS (u := u) hi hd
    rw [heq] at hn
    obtain ⟨r1, hr1, w1, -⟩ := iterLoop_of (c := c) (u := u) (st0 := st0) c.itermax.toNat 0
      (st := st0) ⟨w0, Same.refl _, fun _ _ => rfl, rfl, by simp, by simp⟩ (by simp)
    rw [hr] at hr1
    cases hr1
    split_ifs at hn with hb
    rw [increment_of w1] at hn
    cases hn
  · rintro ⟨h1, h2, h3⟩
    exact step_ub h1 hT.two hi.wf.Y h2 h3

/-- C72: a call of `step` with a defined past is defined itself, unless it extrapolates with more stages
than components: then it writes outside `Y`. -/
theorem symp_defined_iff {c : Cfg α n} (hT : Tab c) (hS : Scal c) {st : St α n}
    (hist : Hist c st) (h : α) (u : Fin n → α) (first : Bool) :
    step c h u first st = none ↔ n < c.s ∧ first = false ∧ c.eq st.oldH h :=
  step_none_iff hT hS (hist.inv hT hS) h u first

/-- the extrapolation when there are as many stages as components: stage `i` is
`u + Σ_j q_ij Y1_j`, with the slopes of the last iteration of the previous call. -/
theorem symp_ext_square {c : Cfg α n} (hn : c.s = n) (u : Fin n → α) {st : St α n} (hw : Wf c st) :
    ∃ st', ext c u st = some st' ∧ Pre c st st' ∧ ∀ i, i < c.s → row st'.Y i =
      stageVal (fun i j => c.narrow (st.q.cell ((i * c.s + j : ℕ) : ℤ))) c.s u (row st.Y1) i := by
  unfold ext
  obtain ⟨st', h1, h2, h3⟩ := forUp_nat (body := fun (i : ℤ) (st : St α n) =>
    (wrN st.Y (c.s * i) u).bind fun Y =>
    forUp 0 (c.s - 1) (fun j (st : St α n) =>
      (st.q.rd (c.s * i + j)).bind fun b =>
      let beta := c.narrow b
      (rdN (n := n) st.Y1 (c.s * j)).bind fun F =>
      (rdN (n := n) st.Y (c.s * i)).bind fun y =>
      (wrN st.Y (c.s * i) fun l => y l + beta * F l).map fun Y => { st with Y := Y })
      { st with Y := Y })
    (fun k st' => Pre c st st' ∧ ∀ i, i < k → row st'.Y i =
      stageVal (fun i j => c.narrow (st.q.cell ((i * c.s + j : ℕ) : ℤ))) c.s u (row st.Y1) i)
    c.s (st := st) ⟨⟨hw, Same.refl _, rfl, rfl, rfl⟩, by simp⟩ (by
      rintro i st1 hi ⟨g, gr⟩
      have hsi : ∀ j : ℕ, (c.s : ℤ) * j = j * n := fun j => by rw [hn]; ring
      simp only [hsi, wrN_in g.wf.Y hi, Option.bind_some]
      obtain ⟨st2, k1, k2, k3, k4⟩ := forUp_nat (body := fun (j : ℤ) (st : St α n) =>
        (st.q.rd ((i : ℤ) * n + j)).bind fun b =>
        let beta := c.narrow b
        (rdN (n := n) st.Y1 (c.s * j)).bind fun F =>
        (rdN (n := n) st.Y (i * n)).bind fun y =>
        (wrN st.Y (i * n) fun l => y l + beta * F l).map fun Y => { st with Y := Y })
        (fun k st2 => Pre c st st2 ∧ (∀ i', i' ≠ i → row (n := n) st2.Y i' = row st1.Y i') ∧
          row st2.Y i = stageVal (fun i j => c.narrow (st.q.cell ((i * c.s + j : ℕ) : ℤ))) k u
            (row st.Y1) i)
        c.s (st := { st1 with Y := setRow st1.Y i u })
        ⟨⟨⟨g.wf.Y, g.wf.Y1, g.wf.ga, g.wf.gb, g.wf.q⟩,
          ⟨g.same.ga, g.same.gb, g.same.q, g.same.e, g.same.oldH⟩, g.Y1, g.tv, g.calls⟩,
          fun i' hi' => by simp only [row_setRow, if_neg hi'],
          by simp only [row_setRow, if_true]; rfl⟩ (by
          rintro j st3 hj ⟨p1, p2, p3⟩
          have hq : 0 ≤ (i : ℤ) * n + j ∧ (i : ℤ) * n + j < st3.q.size := by
            have hn' : (n : ℤ) = c.s := by exact_mod_cast hn.symm
            rw [p1.wf.q, hn']
            have := off_le (n := c.s) hi
            constructor
            · positivity
            · omega
          refine ⟨{ st3 with Y := setRow st3.Y i (fun l : Fin n => row st3.Y i l +
            c.narrow (st3.q.cell ((i : ℤ) * n + j)) * row st3.Y1 j l) }, ?_, ?_, ?_, ?_⟩
          · simp only [Buf.rd_in hq, Option.bind_some, hsi, rdN_in p1.wf.Y1 hj, rdN_in p1.wf.Y hi,
              wrN_in p1.wf.Y hi, Option.map_some]
          · exact ⟨⟨p1.wf.Y, p1.wf.Y1, p1.wf.ga, p1.wf.gb, p1.wf.q⟩,
              ⟨p1.same.ga, p1.same.gb, p1.same.q, p1.same.e, p1.same.oldH⟩, p1.Y1, p1.tv, p1.calls⟩
          · intro i' hi'
            simp only [row_setRow, if_neg hi']
            exact p2 i' hi'
          · simp only [row_setRow, if_true, p3, p1.same.q, p1.Y1]
            funext l
            simp only [stageVal, sumL]
            push_cast
            rw [hn])
      refine ⟨st2, k1, k2, fun i' hi' => ?_⟩
      by_cases hii : i' = i
      · rw [hii]; exact k4
      · rw [k3 i' hii]; exact gr i' (by omega))
  exact ⟨st', h1, h2, h3⟩

/-! ### C73: constructor -/

/-- C73: the constructor throws exactly for a number of stages outside 2..16. -/
theorem symp_construct {c : Cfg α n} (hla : c.la.length ≤ c.s * c.s) (hlb : c.lb.length ≤ c.s)
    (hlc : c.lc.length ≤ c.s * c.s) (junk : St α n) :
    (construct c junk = some (.error .nsteps) ↔ c.s < 2 ∨ 16 < c.s) ∧
    (2 ≤ c.s ∧ c.s ≤ 16 → ∃ st, construct c junk = some (.ok st)) := by
  obtain ⟨q1, hq1, -⟩ := copyL_of (l := c.lc) (b := ⟨c.s * c.s, junk.q.cell⟩)
    (by show (c.lc.length : ℤ) ≤ c.s * c.s; exact_mod_cast hlc)
  obtain ⟨a1, ha1, -⟩ := copyL_of (l := c.la) (b := ⟨c.s * c.s, junk.ga.cell⟩)
    (by show (c.la.length : ℤ) ≤ c.s * c.s; exact_mod_cast hla)
  obtain ⟨b1, hb1, -⟩ := copyL_of (l := c.lb) (b := ⟨c.s, junk.gb.cell⟩)
    (by show (c.lb.length : ℤ) ≤ c.s; exact_mod_cast hlb)
  by_cases h2 : 2 ≤ c.s ∧ c.s ≤ 16
  · refine ⟨⟨fun h => ?_, fun h => by omega⟩, fun _ => ?_⟩
    · simp only [construct, not_true, h2, and_self, if_false, hq1, ha1, hb1, Option.bind_some,
        Option.some.injEq, reduceCtorEq] at h
    · simp only [construct, not_true, h2, and_self, if_false, hq1, ha1, hb1, Option.bind_some]
      exact ⟨_, rfl⟩
  · refine ⟨⟨fun _ => by omega, fun _ => ?_⟩, fun h => absurd h h2⟩
    rw [construct, if_pos h2]

end Generic

/-! ### the tables -/

/-- C73: there is one table per scalar type for each number of stages from 2 to 16, with `s²`, `s` and
`s²` numbers. -/
theorem symp_tables :
    gaussD.map GTab.s = List.range' 2 15 ∧ gaussL.map GTab.s = List.range' 2 15 ∧
    ∀ t ∈ gaussD ++ gaussL, t.la.length = t.s * t.s ∧ t.lb.length = t.s ∧ t.lc.length = t.s * t.s := by
  refine ⟨by decide, by decide, fun t ht => la_length ?_⟩
  rcases List.mem_append.1 ht with h | h
  · have := List.all_eq_true.1 gaussD_ok t h
    simp only [Bool.and_eq_true] at this
    exact this.1.1.1.1.1
  · have := List.all_eq_true.1 gaussL_ok t h
    simp only [Bool.and_eq_true] at this
    exact this.1.1.1.1.1

theorem mem_shape {t : GTab} (ht : t ∈ gaussD ++ gaussL) : okShape t = true ∧ okQ t = true := by
  rcases List.mem_append.1 ht with h | h
  · have := List.all_eq_true.1 gaussD_ok t h
    simp only [Bool.and_eq_true] at this
    exact ⟨this.1.1.1.1.1, this.2⟩
  · have := List.all_eq_true.1 gaussL_ok t h
    simp only [Bool.and_eq_true] at this
    exact ⟨this.1.1.1.1.1, this.2⟩

theorem mem_s {t : GTab} (ht : t ∈ gaussD ++ gaussL) : 2 ≤ t.s ∧ t.s ≤ 16 := by
  have h : ∀ t ∈ gaussD ++ gaussL, t.s ∈ List.range' 2 15 := by
    intro t ht
    rcases List.mem_append.1 ht with h | h
    · rw [← symp_tables.1]; exact List.mem_map_of_mem h
    · rw [← symp_tables.2.1]; exact List.mem_map_of_mem h
  have := h t ht
  rw [List.mem_range'_1] at this
  omega

/-- exact arithmetic: the method with the table `t`, the function `f` and the threshold of `double`. -/
noncomputable def cfgR (t : GTab) (itermax : ℤ) {n : ℕ} (f : (Fin n → ℝ) → Fin n → ℝ) : Cfg ℝ n where
  s := t.s
  itermax := itermax
  f := f
  la := t.la
  lb := t.lb
  lc := t.lc
  eq := (· = ·)
  narrow := id
  small v := v ≤ 5 / 10 ^ 308
  big := 10 ^ 40

theorem cfgR_tab {t : GTab} (ht : t ∈ gaussD ++ gaussL) (itermax : ℤ) {n : ℕ}
    (f : (Fin n → ℝ) → Fin n → ℝ) : Tab (cfgR t itermax f) := by
  obtain ⟨a, b, d⟩ := symp_tables.2.2 t ht
  exact ⟨a, b, d, (mem_s ht).1, (mem_s ht).2⟩

theorem cfgR_scal (t : GTab) (itermax : ℤ) {n : ℕ} (f : (Fin n → ℝ) → Fin n → ℝ) :
    Scal (cfgR t itermax f) := ⟨fun _ _ h => h, fun x => mul_one x⟩

end Odes.Symp
