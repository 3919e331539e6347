import Verif.Model.Mains
import Verif.Lemmas.Mem
import Verif.Props.CallsAgree
import Verif.Props.SympErr
import Mathlib.Algebra.Order.Floor.Semiring

/-!
# C118: what the test programs report
-/

namespace Odes.Mains

open Odes.Mem

/-! ### initial values -/

/-- `out` is `y` where the `n` elements have been replaced by the values of `v`. -/
def Holds (n : ℤ) (v : ℤ → ℝ) (y out : Buf ℝ) : Prop :=
  out.size = y.size ∧ ∀ i, out.cell i = if 0 ≤ i ∧ i < n then v i else y.cell i

theorem wr_in {y : Buf ℝ} {i : ℤ} (v : ℝ) (h : 0 ≤ i ∧ i < y.size) :
    y.wr i v = some { y with cell := Function.update y.cell i v } := if_pos h

/-- a loop which writes the elements `lo`, ..., `hi`. -/
theorem fill {y : Buf ℝ} {lo hi : ℤ} (v : ℤ → ℝ) (h0 : 0 ≤ lo) (h1 : lo ≤ hi + 1) (h2 : hi < y.size) :
    ∃ z, forUp lo hi (fun i y => y.wr i (v i)) y = some z ∧ z.size = y.size ∧
      ∀ i, z.cell i = if lo ≤ i ∧ i ≤ hi then v i else y.cell i := by
  obtain ⟨z, e, hz, hc⟩ := forUp_inv (body := fun i (y : Buf ℝ) => y.wr i (v i))
    (P := fun j (z : Buf ℝ) => z.size = y.size ∧ ∀ i, z.cell i = if lo ≤ i ∧ i < j then v i else y.cell i)
    (lo := lo) (hi := hi) (s := y) h1 ⟨rfl, fun i => by rw [if_neg (by omega)]⟩ (by
      rintro j z hj hj' ⟨g1, g2⟩
      refine ⟨_, wr_in _ ⟨by omega, by omega⟩, g1, fun i => ?_⟩
      by_cases e : i = j
      · subst e; simp only [Function.update_self]; rw [if_pos (by omega)]
      · simp only [Function.update_of_ne e]; rw [g2]
        by_cases q : lo ≤ i ∧ i < j
        · rw [if_pos q, if_pos (by omega)]
        · rw [if_neg q, if_neg (by omega)])
  refine ⟨z, e, hz, fun i => ?_⟩
  rw [hc]
  exact if_congr (by omega) rfl rfl

/-- `y` where the elements have been replaced by those of `f`. -/
theorem Holds.congr {n : ℤ} {v w : ℤ → ℝ} {y z : Buf ℝ} (h : Holds n v y z) (e : ∀ i, 0 ≤ i → i < n → v i = w i) :
    Holds n w y z := by
  refine ⟨h.1, fun i => ?_⟩
  rw [h.2]
  by_cases q : 0 ≤ i ∧ i < n
  · rw [if_pos q, if_pos q, e i q.1 q.2]
  · rw [if_neg q, if_neg q]

/-- C118: KPP and FRadau5. The front is at the middle. -/
theorem init_kpp {n : ℤ} (hn : 0 < n) {y : Buf ℝ} (hy : y.size = n) :
    ∃ z, kppInit n y = some z ∧ Holds n (fun i => if i ≤ n / 2 then 0.9999999 else 0) y z := by
  obtain ⟨z, e1, s1, c1⟩ := fill (y := y) (lo := 0) (hi := n / 2) (fun _ => 0.9999999) le_rfl (by omega) (by omega)
  obtain ⟨w, e2, s2, c2⟩ := fill (y := z) (lo := n / 2 + 1) (hi := n - 1) (fun _ => 0) (by omega) (by omega) (by omega)
  refine ⟨w, by rw [kppInit, e1]; exact e2, s2.trans s1, fun i => ?_⟩
  rw [c2, c1]
  simp only
  split_ifs <;> first | rfl | omega

/-- C118: the Fisher problem of Rock4-NG. -/
theorem init_fkpp {n : ℤ} (hn : 0 ≤ n) {y : Buf ℝ} (hy : y.size = n) :
    ∃ z, fkppInit n y = some z ∧ Holds n (fun i => if i < n / 2 then 1 else 0) y z := by
  obtain ⟨z, e1, s1, c1⟩ := fill (y := y) (lo := 0) (hi := n - 1) (fun i => if i < n / 2 then 1 else 0) le_rfl (by omega)
    (by omega)
  refine ⟨z, e1, s1, fun i => ?_⟩
  rw [c1]
  exact if_congr (by omega) rfl rfl

/-- C118: BZ: 1 for the first species in the middle third, 0 elsewhere. -/
theorem init_bz {nd : ℤ} (hn : 0 ≤ nd) {y : Buf ℝ} (hy : y.size = 3 * nd) :
    ∃ z, bzInit nd y = some z ∧
      Holds (3 * nd) (fun i => if nd / 2 - nd / 6 ≤ i ∧ i < nd / 2 + nd / 6 then 1 else 0) y z := by
  obtain ⟨z, e1, s1, c1⟩ := fill (y := y) (lo := 0) (hi := 3 * nd - 1) (fun _ => 0) le_rfl (by omega) (by omega)
  obtain ⟨w, e2, s2, c2⟩ := fill (y := z) (lo := nd / 2 - nd / 6) (hi := nd / 2 + nd / 6 - 1) (fun _ => 1) (by omega)
    (by omega) (by omega)
  refine ⟨w, by rw [bzInit, e1]; exact e2, s2.trans s1, fun i => ?_⟩
  rw [c2, c1]
  simp only
  split_ifs <;> first | rfl | omega

/-- C118: the Oregonator. -/
theorem init_ore {y : Buf ℝ} (hy : y.size = 3) : ∃ z, oreInit y = some z ∧ Holds 3 (fun i => i + 1) y z := by
  rw [oreInit, wr_in _ (by omega), Option.bind_some, wr_in _ (by show 0 ≤ (1 : ℤ) ∧ 1 < y.size; omega), Option.bind_some,
    wr_in _ (by show 0 ≤ (2 : ℤ) ∧ 2 < y.size; omega)]
  refine ⟨_, rfl, rfl, fun i => ?_⟩
  by_cases q : 0 ≤ i ∧ i < 3
  · rw [if_pos q]
    obtain rfl | rfl | rfl : i = 0 ∨ i = 1 ∨ i = 2 := by omega
    all_goals simp [Function.update]
    all_goals norm_num
  · rw [if_neg q]
    simp only [Function.update_of_ne (show i ≠ 2 by omega), Function.update_of_ne (show i ≠ 1 by omega),
      Function.update_of_ne (show i ≠ 0 by omega)]

example : ∃ z, bzInit 600 ⟨1800, fun _ => 7⟩ = some z ∧ z.cell 0 = 0 ∧ z.cell 300 = 1 ∧ z.cell 900 = 0 := by
  obtain ⟨z, h, -, c⟩ := init_bz (nd := 600) (by norm_num) (y := ⟨1800, fun _ => 7⟩) rfl
  refine ⟨z, h, ?_, ?_, ?_⟩ <;> rw [c] <;> norm_num

/-! ### Rodas -/

section
variable {n : ℕ} {L : Rodas.Lin X n} {P : Rodas.Prob X n} {g : Rodas.Cfg n} {h xend : X} {y0 : Fin n → X}

/-- C118: whatever the number of loops (at least 1), the program prints what it would print after one call on a new
object, and the array `y` is the same. -/
theorem rodas_main_loops {k : ℕ} (hk : 0 < k) {o s : Rodas.St n L.σ} (hr : RodasLoops P g h xend y0 k o s)
    (o' : Rodas.St n L.σ) :
    ∃ s1, Returns (Rodas.step L P g) (Rodas.start o' h (.fin 0) xend y0) s1 ∧ rodasPrinted s = rodasPrinted s1 ∧ s.Y = s1.Y := by
  cases hr with
  | zero => exact absurd hk (lt_irrefl _)
  | succ hk hc =>
    obtain ⟨s1, h1, h2⟩ := (Rodas.rodas_calls_agree _ o' h (.fin 0) xend y0).1 _ hc
    refine ⟨s1, h1, ?_, h2.Y.symm⟩
    unfold rodasPrinted
    rw [h2.nstep, h2.njac, h2.naccpt, h2.nrejct, h2.ndec, h2.first, h2.x]

/-- C118: if one call on any object reaches its end, then any number of loops does. -/
theorem rodas_main_ends {o' s1 : Rodas.St n L.σ} (h1 : Returns (Rodas.step L P g) (Rodas.start o' h (.fin 0) xend y0) s1)
    (k : ℕ) (o : Rodas.St n L.σ) : ∃ s, RodasLoops P g h xend y0 k o s := by
  induction k with
  | zero => exact ⟨o, .zero o⟩
  | succ k ih =>
    obtain ⟨s, hs⟩ := ih
    obtain ⟨s', h', -⟩ := (Rodas.rodas_calls_agree o' s h (.fin 0) xend y0).1 _ h1
    exact ⟨s', .succ hs h'⟩

/-- C118: if one call throws, the program ends in the first loop. -/
theorem rodas_main_throws {o' : Rodas.St n L.σ} {e : Exn}
    (h1 : Throws (Rodas.step L P g) (Rodas.start o' h (.fin 0) xend y0) e) {k : ℕ} (hk : 0 < k) (o s : Rodas.St n L.σ) :
    ¬ RodasLoops P g h xend y0 k o s := by
  intro hr
  obtain ⟨s1, h2, -⟩ := rodas_main_loops hk hr o'
  obtain ⟨a, ha⟩ := h1
  obtain ⟨b, hb⟩ := h2
  have e1 := run_add a b (step := Rodas.step L P g) (Rodas.start o' h (.fin 0) xend y0)
  have e2 := run_add b a (step := Rodas.step L P g) (Rodas.start o' h (.fin 0) xend y0)
  rw [ha] at e1
  rw [hb, Nat.add_comm b a, e1] at e2
  cases e2

/-- five loops on a problem of Rodas: what is printed is what one call on another object gives. -/
example {meth : ℤ} {c : Rodas.Coef ℚ} (hc : Rodas.rocoe meth = some c) :
    ∃ s s1, RodasLoops (L := Rodas.exactLinX 1) (Rodas.lift (Rodas.wQ fun _ _ _ => 1)) (Rodas.wG c false) (.fin 0.4) (.fin 1)
        (Rodas.fins fun _ => 0) 5 Rodas.wO s ∧
      Returns (Rodas.step (Rodas.exactLinX 1) (Rodas.lift (Rodas.wQ fun _ _ _ => 1)) (Rodas.wG c false))
        (Rodas.start { Rodas.wO with naccpt := 12 } (.fin 0.4) (.fin 0) (.fin 1) (Rodas.fins fun _ => 0)) s1 ∧
      rodasPrinted s = rodasPrinted s1 := by
  obtain ⟨s, y, hs, -⟩ := Rodas.run_const hc
  obtain ⟨s', h'⟩ := rodas_main_ends hs 5 Rodas.wO
  obtain ⟨s1, h1, h2, -⟩ := rodas_main_loops (by norm_num) h' { Rodas.wO with naccpt := 12 }
  exact ⟨s', s1, h', h1, h2⟩

end

/-! ### ROCK4 -/

section
variable {n : ℕ}

/-- C118: the file `result` contains the value of a path of accepted steps at a time `t` of `[0,xend]`; without
exception `t` is `xend`, after an exception `t` is less than `xend`. -/
theorem rock4_main_partial (P : Rock4.Problem n) (T : Rock4.Tables) (o : Rock4.St n) (y : ℕ) (h : X) (xend : ℝ)
    (hv : Rock4.Valid o y) (hx : 0 ≤ xend) {caught : Bool} {u : Rock4.St n}
    (hc : Rock4Call P T o y h (.fin xend) caught u) :
    ∃ t, 0 ≤ t ∧ t ≤ xend ∧ (caught = true ↔ t < xend) ∧
      Spec.Path P.F (Rock4.StepOk P T o.atol o.rtol) 0 (o.heap y) t (rock4Written u).file := by
  cases caught with
  | false =>
    obtain ⟨h1, h2⟩ := Rock4.rock4_returns_at_tend P T o y 0 xend h hv hx u hc
    exact ⟨xend, hx, le_rfl, by simp, h2⟩
  | true =>
    obtain ⟨e, hr, he⟩ := hc
    obtain ⟨⟨t, h1, h2, h3, h4⟩, -⟩ := Rock4.rock4_stays_in_interval P T o y 0 xend h hv hx u hr
    refine ⟨t, h2, h3, ⟨fun _ => ?_, fun _ => rfl⟩, h4⟩
    by_contra hn
    rw [Rock4.step, if_neg (by rw [h1]; exact hn)] at he
    cases he

open Classical in
/-- C118 fails: with an initial step of at most `0.99e-15` the program prints "ok", "Results at the end of the
integration are in file './result'", and the file contains the initial values; the last accepted time step it prints
is what the object contained before (indeterminate in a new object). -/
theorem rock4_main_reports_initial (P : Rock4.Problem n) (T : Rock4.Tables) (o : Rock4.St n) (y : ℕ) (hv : Rock4.Valid o y)
    {h xend : ℝ} (hx : 0 < xend) (hh : h ≤ 0.99e-15) :
    ∃ u, Rock4Call P T o y (.fin h) (.fin xend) true u ∧ (rock4Written u).file = o.heap y ∧
      (rock4Written u).lastStep = o.hlast := by
  have hst : Rock4.step P T (.fin xend) (Rock4.start P o y (.fin 0) (.fin h)) = .throw .stepTooSmall := by
    rw [Rock4.step, if_pos (show (Rock4.start P o y (.fin 0) (.fin h)).t < X.fin xend from hx)]
    have : Rock4.choose P (.fin xend) (Rock4.start P o y (.fin 0) (.fin h)) = .throw .stepTooSmall := by
      unfold Rock4.choose
      rw [if_pos]
      have hu : (Rock4.start P o y (.fin 0) (.fin h)).uround = 1.0e-16 := hv.uround
      have e2 : (10.0 : X) * (1.0e-16 : X) = X.fin 1e-15 := by simp; norm_num
      have e3 : (1.01 : X) * X.fin h = X.fin (1.01 * h) := by simp
      have e1 : X.ABSsub (X.fin xend) (X.fin 0) = X.fin xend := by rw [X.ABSsub_fin, if_pos hx.le, sub_zero]
      show (if X.ABSsub (X.fin xend) (X.fin 0) ≤ 1.01 * X.fin h then X.ABSsub (X.fin xend) (X.fin 0) else X.fin h) <
        10.0 * (Rock4.start P o y (.fin 0) (.fin h)).uround
      rw [hu, e1, e2, e3]
      split_ifs with q
      · have q' : xend ≤ 1.01 * h := q
        show xend < 1e-15
        norm_num at hh ⊢; linarith
      · show h < 1e-15
        norm_num at hh ⊢; linarith
    rw [this]
  refine ⟨_, ⟨_, Reach.refl _ _, hst⟩, ?_, rfl⟩
  have := hv.nodup
  simp only [List.nodup_cons, List.mem_cons, not_or] at this
  exact Rock4.upd_ne _ _ this.1.1

/-- a call which reaches the end of the interval. -/
example : ∃ u, Rock4Call Rock4.restP Rock4.oneT Rock4.zeroObj 0 (.fin 1) (.fin 1) false u := by
  obtain ⟨s, h1, h2, -⟩ := Rock4.rest_returns Rock4.oneT Rock4.oneT_finite
  exact ⟨s, (Reach.tail (Reach.refl _ _) h1).returns h2⟩

/-- and one which ends by the exception. -/
example : ∃ u, Rock4Call Rock4.restP Rock4.oneT Rock4.zeroObj 0 (.fin 0) (.fin 1) true u ∧
    (rock4Written u).file = Rock4.zeroObj.heap 0 := by
  obtain ⟨u, h1, h2, -⟩ := rock4_main_reports_initial Rock4.restP Rock4.oneT Rock4.zeroObj 0
    (Rock4.valid_fresh _ 1 0 (.inl one_pos)) (h := 0) (xend := 1) one_pos (by norm_num)
  exact ⟨u, h1, h2⟩

end

/-! ### SymplecticRK -/

section
variable {α : Type} [Add α] [Sub α] [Mul α] [Zero α] [One α] [LE α] {n : ℕ} {c : Symp.Cfg α n} {h : α} {more : ℕ → Prop}
  {u0 u : Fin n → α} {st0 st : Symp.St α n} {it : ℕ} {w : List (Fin n → α)}

omit [One α] in
theorem SympLoop.tests (hl : SympLoop c h more u0 st0 it u st w) : w.length = it ∧ ∀ j < it, more j := by
  induction hl with
  | start => exact ⟨rfl, fun j hj => absurd hj (Nat.not_lt_zero _)⟩
  | next hk hm hs ih =>
    refine ⟨by simp [ih.1], fun j hj => ?_⟩
    rcases Nat.lt_succ_iff_lt_or_eq.1 hj with hj | rfl
    · exact ih.2 j hj
    · exact hm

/-- C118: number of steps, number of lines of values in the file. -/
theorem symp_main_steps {years hR : ℝ} (he : SympEnds c h (moreSteps years hR) u0 st0 it u st w) :
    it = ⌈years * 365.25 * hR⌉₊ ∧ w.length = it := by
  obtain ⟨hl, hn⟩ := he
  obtain ⟨h1, h2⟩ := hl.tests
  refine ⟨le_antisymm ?_ ?_, h1⟩
  · by_contra hlt
    have := h2 _ (not_le.1 hlt)
    exact absurd (Nat.le_ceil (years * 365.25 * hR)) (not_le.2 this)
  · exact Nat.ceil_le.2 (not_lt.1 hn)

/-- C118: the program as it is (`h=1`, 200 years) makes 73050 steps: 200 years of 365.25 days. -/
theorem symp_main_years_partial (he : SympEnds c h (moreSteps 200 1) u0 st0 it u st w) :
    it = 73050 ∧ (it : ℝ) * 1 = 200 * 365.25 := by
  obtain ⟨h1, -⟩ := symp_main_steps he
  have : it = 73050 := by
    rw [h1, show (200 * 365.25 * 1 : ℝ) = ((73050 : ℕ) : ℝ) by norm_num, Nat.ceil_natCast]
  exact ⟨this, by rw [this]; norm_num⟩

/-- C118 fails for other step sizes: the number of days integrated is `years*365.25*h²` (up to one step), not
`years*365.25`. -/
theorem symp_main_days {years hR : ℝ} (hy : 0 ≤ years) (hh : 0 < hR)
    (he : SympEnds c h (moreSteps years hR) u0 st0 it u st w) :
    years * 365.25 * hR ^ 2 ≤ it * hR ∧ it * hR < years * 365.25 * hR ^ 2 + hR := by
  obtain ⟨h1, -⟩ := symp_main_steps he
  have a : years * 365.25 * hR ≤ it := by rw [h1]; exact Nat.le_ceil _
  have b : (it : ℝ) < years * 365.25 * hR + 1 := by rw [h1]; exact Nat.ceil_lt_add_one (by positivity)
  constructor <;> nlinarith

/-- with half a day: 50 years instead of 200. -/
theorem symp_main_half (he : SympEnds c h (moreSteps 200 (1 / 2)) u0 st0 it u st w) :
    (it : ℝ) * (1 / 2) = 50 * 365.25 := by
  obtain ⟨h1, -⟩ := symp_main_steps he
  have : it = 36525 := by
    rw [h1, show (200 * 365.25 * (1 / 2) : ℝ) = ((36525 : ℕ) : ℝ) by norm_num, Nat.ceil_natCast]
  rw [this]; norm_num

end

section
variable {F : Symp.FP} {n : ℕ}

/-- C118: the loop of the program is a run of C109. -/
theorem symp_main_run {c : Symp.Cfg F.T n} {h : F.T} {more : ℕ → Prop} {u0 u : Fin n → F.T} {st0 st : Symp.St F.T n} {it : ℕ}
    {w : List (Fin n → F.T)} (hl : SympLoop c h more u0 st0 it u st w) : Symp.RunF c h it u0 st0 u st := by
  induction hl with
  | start => exact .zero _ _
  | next hk hm hs ih => exact .succ ih hs

/-- the free particle: the program reaches its end, for every step size. -/
example (junk : Symp.St F.T 2) (h : F.T) (years hR : ℝ) (u0 : Fin 2 → F.T) :
    ∃ st0, Symp.construct (Symp.cfgFt F Symp.gaussD2 100 Symp.freeF) junk = some (.ok st0) ∧
      ∃ it u st w, SympEnds (Symp.cfgFt F Symp.gaussD2 100 Symp.freeF) h (moreSteps years hR) u0 st0 it u st w := by
  have hT := Symp.cfgFt_tab (F := F) Symp.gaussD2_mem 100 Symp.freeF
  obtain ⟨st0, hst⟩ := (Symp.symp_construct (c := Symp.cfgFt F Symp.gaussD2 100 Symp.freeF) hT.la.le hT.lb.le hT.lc.le junk).2
    ⟨hT.two, hT.max⟩
  refine ⟨st0, hst, ⌈years * 365.25 * hR⌉₊, ?_⟩
  have key : ∀ it, it ≤ ⌈years * 365.25 * hR⌉₊ → ∃ u st w,
      SympLoop (Symp.cfgFt F Symp.gaussD2 100 Symp.freeF) h (moreSteps years hR) u0 st0 it u st w ∧
        Symp.Hist (Symp.cfgFt F Symp.gaussD2 100 Symp.freeF) st := by
    intro it
    induction it with
    | zero => exact fun _ => ⟨u0, st0, [], .start, .new hst⟩
    | succ it ih =>
      intro hi
      obtain ⟨u, st, w, h1, h2⟩ := ih (by omega)
      obtain ⟨u2, st2, h3⟩ := Symp.free_stepF h2 h u
      exact ⟨u2, st2, _, .next h1 (Nat.lt_ceil.1 hi) h3, .step h u u2 true true h2 h3⟩
  obtain ⟨u, st, w, h1, -⟩ := key _ le_rfl
  exact ⟨u, st, w, h1, not_lt.2 (Nat.le_ceil _)⟩

end

end Odes.Mains
