import Verif.Model.Omp
import Verif.Lemmas.Num
import Mathlib.Algebra.BigOperators.Fin
import Mathlib.Algebra.Order.BigOperators.Group.Finset
import Mathlib.Tactic.Linarith

/-!
# C56: the OpenMP build of ROCK4
-/

namespace Odes.Omp

variable {n k : ℕ} {α : Type}

/-- The element-wise loops: every complete schedule stores in `dst[i]` the function of the values
the operands had *before* the loop, and touches nothing else. -/
theorem exec_spec (dst : ℕ) (src : Fin k → ℕ) (f : (Fin k → α) → α) (mem : ℕ → Fin n → α)
    (reg : Fin n → Fin k → α) (sched : List (Fin n)) (hd : Done (exec dst src f mem reg sched)) :
    (exec dst src f mem reg sched).mem =
      Function.update mem dst (fun i => f (fun j => mem (src j) i)) := by
  revert hd
  suffices key : ∀ i,
      (∀ b, b ≠ dst → (exec dst src f mem reg sched).mem b i = mem b i) ∧
      ((exec dst src f mem reg sched).pc i ≤ k →
        (exec dst src f mem reg sched).mem dst i = mem dst i ∧
        ∀ j : Fin k, (j : ℕ) < (exec dst src f mem reg sched).pc i →
          (exec dst src f mem reg sched).reg i j = mem (src j) i) ∧
      (k < (exec dst src f mem reg sched).pc i →
        (exec dst src f mem reg sched).mem dst i = f (fun j => mem (src j) i)) by
    intro hd
    funext b i
    obtain ⟨h1, -, h3⟩ := key i
    by_cases hb : b = dst
    · subst hb
      rw [Function.update_self]
      exact h3 (hd i)
    · rw [Function.update_of_ne hb]
      exact h1 b hb
  unfold exec
  induction sched using List.reverseRecOn with
  | nil => intro i; simp
  | append_singleton l a ih =>
    intro i
    rw [List.foldl_append]
    simp only [List.foldl_cons, List.foldl_nil]
    generalize List.foldl (access dst src f) ⟨mem, fun _ => 0, reg⟩ l = s at ih ⊢
    have hi := ih i
    obtain ⟨i1, i2, i3⟩ := hi
    unfold access
    split_ifs with h1 h2
    · -- a load
      by_cases ha : i = a
      · subst ha
        obtain ⟨m1, m2⟩ := i2 h1.le
        refine ⟨i1, ?_, ?_⟩
        · intro _
          refine ⟨m1, ?_⟩
          intro j hj
          simp only [Function.update_self] at hj ⊢
          by_cases hjj : j = ⟨s.pc i, h1⟩
          · rw [hjj, Function.update_self]
            by_cases hb : src ⟨s.pc i, h1⟩ = dst
            · rw [hb]; exact m1
            · exact i1 _ hb
          · rw [Function.update_of_ne hjj]
            apply m2
            have : (j : ℕ) ≠ s.pc i := fun e => hjj (Fin.ext e)
            omega
        · intro h
          simp only [Function.update_self] at h
          omega
      · simp only [Function.update_of_ne ha]
        exact ⟨i1, i2, i3⟩
    · -- the store
      by_cases ha : i = a
      · subst ha
        obtain ⟨m1, m2⟩ := i2 h2.le
        refine ⟨?_, ?_, ?_⟩
        · intro b hb
          simp only [Function.update_of_ne hb]
          exact i1 b hb
        · intro h
          simp only [Function.update_self] at h
          omega
        · intro _
          simp only [Function.update_self]
          congr 1
          funext j
          exact m2 j (by omega)
      · refine ⟨?_, ?_, ?_⟩
        · intro b hb
          simp only [Function.update_of_ne hb]
          exact i1 b hb
        · intro h
          simp only [Function.update_self, Function.update_of_ne ha] at h ⊢
          exact i2 h
        · intro h
          simp only [Function.update_self, Function.update_of_ne ha] at h ⊢
          exact i3 h
    · exact ⟨i1, i2, i3⟩

theorem upd_eq_update (heap : ℕ → Rock4.Vec n) (p : ℕ) (v : Rock4.Vec n) :
    Rock4.upd heap p v = Function.update heap p v := by
  funext q
  by_cases h : q = p
  · subst h; simp [Rock4.upd]
  · simp [Rock4.upd, h]

/-- complete schedules exist: all accesses of iteration 0, then of iteration 1, ... -/
theorem exists_done (dst : ℕ) (src : Fin k → ℕ) (f : (Fin k → α) → α) (mem : ℕ → Fin n → α)
    (reg : Fin n → Fin k → α) : ∃ sched, Done (exec dst src f mem reg sched) := by
  have adv : ∀ (s : St n k α) (i : Fin n),
      (∀ j, s.pc j ≤ (access dst src f s i).pc j) ∧
      (s.pc i ≤ k → (access dst src f s i).pc i = s.pc i + 1) := by
    intro s i
    unfold access
    split_ifs with h1 h2
    · refine ⟨fun j => ?_, fun _ => by simp⟩
      by_cases h : j = i
      · subst h; simp
      · simp [Function.update_of_ne h]
    · refine ⟨fun j => ?_, fun _ => by simp⟩
      by_cases h : j = i
      · subst h; simp
      · simp [Function.update_of_ne h]
    · exact ⟨fun j => le_rfl, fun h => by omega⟩
  have rep : ∀ (m : ℕ) (s : St n k α) (i : Fin n),
      (∀ j, s.pc j ≤ ((List.replicate m i).foldl (access dst src f) s).pc j) ∧
      (min (s.pc i + m) (k + 1) ≤ ((List.replicate m i).foldl (access dst src f) s).pc i) := by
    intro m
    induction m with
    | zero => intro s i; simp
    | succ m ih =>
      intro s i
      rw [List.replicate_succ, List.foldl_cons]
      obtain ⟨a1, a2⟩ := adv s i
      obtain ⟨b1, b2⟩ := ih (access dst src f s i) i
      refine ⟨fun j => (a1 j).trans (b1 j), ?_⟩
      by_cases h : s.pc i ≤ k
      · rw [a2 h] at b2; omega
      · have := (a1 i).trans (b1 i); omega
  have all : ∀ (l : List (Fin n)) (s : St n k α), ∃ sched : List (Fin n),
      (∀ j, s.pc j ≤ (sched.foldl (access dst src f) s).pc j) ∧
      ∀ i ∈ l, k < (sched.foldl (access dst src f) s).pc i := by
    intro l
    induction l with
    | nil => intro s; exact ⟨[], by simp, by simp⟩
    | cons i l ih =>
      intro s
      obtain ⟨a1, a2⟩ := rep (k + 1) s i
      obtain ⟨sched, b1, b2⟩ := ih ((List.replicate (k + 1) i).foldl (access dst src f) s)
      refine ⟨List.replicate (k + 1) i ++ sched, ?_, ?_⟩
      · intro j; rw [List.foldl_append]; exact (a1 j).trans (b1 j)
      · intro j hj
        rw [List.foldl_append]
        rcases List.mem_cons.1 hj with h | h
        · subst h
          have := b1 j
          omega
        · exact b2 j h
  obtain ⟨sched, -, h⟩ := all (List.finRange n) ⟨mem, fun _ => 0, reg⟩
  exact ⟨sched, fun i => h i (List.mem_finRange i)⟩

/-- C56 (`cl`, first two forms): any complete schedule = the sequential loop. -/
theorem omp_cl1 (heap : ℕ → Rock4.Vec n) (cible y : ℕ) (a1 : X) (x1 : ℕ)
    (reg : Fin n → Fin 2 → X) (sched : List (Fin n))
    (hd : Done (exec cible ![y, x1] (fun v => v 0 + a1 * v 1) heap reg sched)) :
    (exec cible ![y, x1] (fun v => v 0 + a1 * v 1) heap reg sched).mem =
      Rock4.cl1 heap cible y a1 x1 := by
  rw [exec_spec _ _ _ _ _ _ hd, Rock4.cl1, upd_eq_update]; rfl

/-- C56 (`cl` with two operands). -/
theorem omp_cl2 (heap : ℕ → Rock4.Vec n) (cible y : ℕ) (a1 : X) (x1 : ℕ) (a2 : X) (x2 : ℕ)
    (reg : Fin n → Fin 3 → X) (sched : List (Fin n))
    (hd : Done (exec cible ![y, x1, x2] (fun v => v 0 + a1 * v 1 + a2 * v 2) heap reg sched)) :
    (exec cible ![y, x1, x2] (fun v => v 0 + a1 * v 1 + a2 * v 2) heap reg sched).mem =
      Rock4.cl2 heap cible y a1 x1 a2 x2 := by
  rw [exec_spec _ _ _ _ _ _ hd, Rock4.cl2, upd_eq_update]; rfl

/-- C56 (`cl` with three operands). -/
theorem omp_cl3 (heap : ℕ → Rock4.Vec n) (cible y : ℕ) (a1 : X) (x1 : ℕ) (a2 : X) (x2 : ℕ)
    (a3 : X) (x3 : ℕ) (reg : Fin n → Fin 4 → X) (sched : List (Fin n))
    (hd : Done (exec cible ![y, x1, x2, x3] (fun v => v 0 + a1 * v 1 + a2 * v 2 + a3 * v 3)
      heap reg sched)) :
    (exec cible ![y, x1, x2, x3] (fun v => v 0 + a1 * v 1 + a2 * v 2 + a3 * v 3)
      heap reg sched).mem = Rock4.cl3 heap cible y a1 x1 a2 x2 a3 x3 := by
  rw [exec_spec _ _ _ _ _ _ hd, Rock4.cl3, upd_eq_update]; rfl

/-- C56 (`ct`). -/
theorem omp_ct (heap : ℕ → Rock4.Vec n) (cible y : ℕ) (a1 : X) (x1 : ℕ) (a2 : X) (x2 : ℕ)
    (a3 : X) (x3 : ℕ) (a4 : X) (x4 : ℕ) (reg : Fin n → Fin 5 → X) (sched : List (Fin n))
    (hd : Done (exec cible ![y, x1, x2, x3, x4]
      (fun v => v 0 + a1 * v 1 + a2 * v 2 + a3 * v 3 + a4 * v 4) heap reg sched)) :
    (exec cible ![y, x1, x2, x3, x4]
      (fun v => v 0 + a1 * v 1 + a2 * v 2 + a3 * v 3 + a4 * v 4) heap reg sched).mem =
      Rock4.ct heap cible y a1 x1 a2 x2 a3 x3 a4 x4 := by
  rw [exec_spec _ _ _ _ _ _ hd, Rock4.ct, upd_eq_update]; rfl

/-- C56 (`apply`, degree > 2): the target is also an operand. -/
theorem omp_apply (P : Rock4.Problem n) (T : Rock4.Tables) (mr : ℤ) (h : X) (k1 : ℕ) (deg : ℤ)
    (r r' : Rock4.RL n) (c1 c2 : X)
    (hc1 : Rock4.recfAt T (mr + 2 * (deg - 2) + 1) = some c1)
    (hc2 : Rock4.recfAt T (mr + 2 * (deg - 2) + 2) = some c2)
    (hr : Rock4.applyDeg P T mr h k1 deg r = some r')
    (reg : Fin n → Fin 3 → X) (sched : List (Fin n))
    (hd : Done (exec r.g0 ![k1, r.g1, r.g0]
      (fun v => h * c1 * v 0 + (1.0 - -c2) * v 1 + -c2 * v 2)
      (Rock4.upd r.heap k1 (P.F (r.heap r.g1))) reg sched)) :
    (exec r.g0 ![k1, r.g1, r.g0]
      (fun v => h * c1 * v 0 + (1.0 - -c2) * v 1 + -c2 * v 2)
      (Rock4.upd r.heap k1 (P.F (r.heap r.g1))) reg sched).mem = r'.heap := by
  rw [exec_spec _ _ _ _ _ _ hd]
  simp only [Rock4.applyDeg, hc1, hc2, Option.bind_eq_bind, Option.bind_some, Option.pure_def,
    Option.some.injEq] at hr
  rw [← hr]
  simp only
  rw [← upd_eq_update]; rfl

/-- C56 (`apply`, degree 2). -/
theorem omp_apply2 (P : Rock4.Problem n) (T : Rock4.Tables) (mr : ℤ) (h : X) (y : ℕ)
    (r r' : Rock4.RL n) (c1 c2 : X)
    (hc1 : Rock4.recfAt T (mr + 1) = some c1) (hc2 : Rock4.recfAt T (mr + 2) = some c2)
    (hr : Rock4.apply2 P T mr h y r = some r')
    (reg : Fin n → Fin 3 → X) (sched : List (Fin n))
    (hd : Done (exec r.g0 ![r.g0, r.g1, y]
      (fun v => h * c1 * v 0 + (1.0 - -c2) * v 1 + -c2 * v 2)
      (Rock4.upd r.heap r.g0 (P.F (r.heap r.g1))) reg sched)) :
    (exec r.g0 ![r.g0, r.g1, y]
      (fun v => h * c1 * v 0 + (1.0 - -c2) * v 1 + -c2 * v 2)
      (Rock4.upd r.heap r.g0 (P.F (r.heap r.g1))) reg sched).mem = r'.heap := by
  rw [exec_spec _ _ _ _ _ _ hd]
  simp only [Rock4.apply2, hc1, hc2, Option.bind_eq_bind, Option.bind_some, Option.pure_def,
    Option.some.injEq] at hr
  rw [← hr]
  simp only
  rw [← upd_eq_update]; rfl

/-- the hypothesis `Done` of the six theorems is satisfiable for every loop and every size. -/
example (heap : ℕ → Rock4.Vec n) (cible y : ℕ) (a1 : X) (x1 : ℕ) (reg : Fin n → Fin 2 → X) :
    ∃ sched, Done (exec cible ![y, x1] (fun v => v 0 + a1 * v 1) heap reg sched) :=
  exists_done _ _ _ _ _

/-! ### the accumulation loop -/

/-- the loop `ret+=...` has ended. -/
def AccDone (s : Acc n α) : Prop := ∀ i, s.pc i = 2

/-- iterations executed one after the other without interleaving, in the order of `ls`. -/
theorem acc_pairs {α : Type} [AddMonoid α] (term : Fin n → α) (ls : List (Fin n)) (s : Acc n α)
    (hnd : ls.Nodup) (hpc : ∀ l ∈ ls, s.pc l = 0) :
    ((ls.flatMap fun l => [l, l]).foldl (accAccess term) s).ret = s.ret + (ls.map term).sum ∧
    (∀ l ∈ ls, ((ls.flatMap fun l => [l, l]).foldl (accAccess term) s).pc l = 2) ∧
    (∀ l, l ∉ ls → ((ls.flatMap fun l => [l, l]).foldl (accAccess term) s).pc l = s.pc l ∧
      ((ls.flatMap fun l => [l, l]).foldl (accAccess term) s).reg l = s.reg l) := by
  induction ls generalizing s with
  | nil => simp
  | cons a ls ih =>
    rw [List.nodup_cons] at hnd
    have h0 : s.pc a = 0 := hpc a (by simp)
    have e : (((a :: ls).flatMap fun l => [l, l]).foldl (accAccess term) s) =
        ((ls.flatMap fun l => [l, l]).foldl (accAccess term)
          ⟨s.ret + term a, Function.update s.pc a 2, Function.update s.reg a s.ret⟩) := by
      rw [List.flatMap_cons, List.foldl_append]
      congr 1
      simp [accAccess, h0]
    rw [e]
    obtain ⟨i1, i2, i3⟩ := ih ⟨s.ret + term a, Function.update s.pc a 2,
      Function.update s.reg a s.ret⟩ hnd.2 (by
        intro l hl
        have : l ≠ a := fun h => hnd.1 (h ▸ hl)
        simp only [Function.update_of_ne this]
        exact hpc l (by simp [hl]))
    refine ⟨?_, ?_, ?_⟩
    · rw [i1, List.map_cons, List.sum_cons, add_assoc]
    · intro l hl
      rcases List.mem_cons.1 hl with h | h
      · subst h
        rw [(i3 l hnd.1).1]; simp
      · exact i2 l h
    · intro l hl
      rw [List.mem_cons, not_or] at hl
      obtain ⟨j1, j2⟩ := i3 l hl.2
      rw [j1, j2]
      simp [Function.update_of_ne hl.1]

/-- C56 fails for `rpp2`: whenever there are at least two components and the term of one of them is
positive (none negative: they are squares), there is a complete schedule for which
the accumulated value is smaller than the sum. -/
theorem omp_rpp2_lost_update (term : Fin n → ℝ) (reg : Fin n → ℝ) (i j : Fin n) (hij : i ≠ j)
    (hpos : ∀ i, 0 ≤ term i) (hi : 0 < term i) :
    ∃ sched, AccDone (accExec term 0 reg sched) ∧
      (accExec term 0 reg sched).ret < ∑ l, term l := by
  let ls := (List.finRange n).filter (· ≠ j)
  refine ⟨j :: ((ls.flatMap fun l => [l, l]) ++ [j]), ?_⟩
  unfold accExec
  rw [List.foldl_cons, List.foldl_append]
  have hj : j ∉ ls := by simp [ls]
  have e : accAccess term ⟨0, fun _ => 0, reg⟩ j =
      ⟨0, Function.update (fun _ => 0) j 1, Function.update reg j 0⟩ := by simp [accAccess]
  rw [e]
  obtain ⟨-, h2, h3⟩ := acc_pairs term ls ⟨0, Function.update (fun _ => 0) j 1,
    Function.update reg j 0⟩ ((List.nodup_finRange n).filter _) (by
      intro l hl
      have : l ≠ j := fun h => hj (h ▸ hl)
      simp [Function.update_of_ne this])
  obtain ⟨j1, j2⟩ := h3 j hj
  simp only [Function.update_self] at j1 j2
  generalize (ls.flatMap fun l => [l, l]).foldl (accAccess term) _ = s at *
  have ef : [j].foldl (accAccess term) s =
      { s with pc := Function.update s.pc j 2, ret := s.reg j + term j } := by
    simp [accAccess, j1]
  rw [ef]
  refine ⟨?_, ?_⟩
  · intro l
    by_cases h : l = j
    · subst h; simp
    · simp only [Function.update_of_ne h]
      exact h2 l (by simp [ls, h])
  · simp only [j2, zero_add]
    have h4 : ∑ l ∈ {i, j}, term l ≤ ∑ l, term l :=
      Finset.sum_le_sum_of_subset_of_nonneg (Finset.subset_univ _) (fun l _ _ => hpos l)
    rw [Finset.sum_pair hij] at h4
    linarith

/-- the lost update can turn a rejected step into an accepted one: two components with terms 1
and 1 give `err = sqrt(2/2) = 1` (rejected) sequentially and `sqrt(1/2) < 1` (accepted) for some
schedule. -/
theorem omp_changes_acceptance : ∃ (term : Fin 2 → ℝ) (sched : List (Fin 2)),
    AccDone (accExec term 0 (fun _ => 0) sched) ∧
    ¬ Real.sqrt ((∑ l, term l) / 2) < 1 ∧
    Real.sqrt ((accExec term 0 (fun _ => 0) sched).ret / 2) < 1 := by
  obtain ⟨sched, h1, h2⟩ := omp_rpp2_lost_update (fun _ : Fin 2 => 1) (fun _ => 0) 0 1
    (by decide) (fun _ => zero_le_one) one_pos
  refine ⟨fun _ => 1, sched, h1, ?_, ?_⟩
  · rw [Fin.sum_univ_two]; norm_num
  · rw [Real.sqrt_lt' one_pos]
    rw [Fin.sum_univ_two] at h2
    linarith

/-- C56 for `rpp2`, what holds: when no two iterations overlap (one thread, or a lucky run), the
value is the sum whatever the order of the iterations.  Missing: overlapping iterations, for which
the claim is false (`omp_rpp2_lost_update`). -/
theorem omp_rpp2_partial (term : Fin n → ℝ) (reg : Fin n → ℝ) (ls : List (Fin n))
    (hp : ls.Perm (List.finRange n)) :
    AccDone (accExec term 0 reg (ls.flatMap fun l => [l, l])) ∧
    (accExec term 0 reg (ls.flatMap fun l => [l, l])).ret = ∑ l, term l := by
  obtain ⟨h1, h2, -⟩ := acc_pairs term ls ⟨0, fun _ => 0, reg⟩
    ((List.Perm.nodup_iff hp).2 (List.nodup_finRange n)) (by simp)
  refine ⟨fun l => h2 l ((List.Perm.mem_iff hp).2 (List.mem_finRange l)), ?_⟩
  unfold accExec
  rw [h1, zero_add, (hp.map term).sum_eq, ← List.ofFn_eq_map, List.sum_ofFn]

/-- C56 for `rpp2`, one-sided bound under every schedule: the accumulated value is never negative
and never larger than the sum, i.e. the error is never over-estimated. -/
theorem omp_rpp2_le_partial (term : Fin n → ℝ) (reg : Fin n → ℝ) (hpos : ∀ i, 0 ≤ term i)
    (sched : List (Fin n)) :
    0 ≤ (accExec term 0 reg sched).ret ∧ (accExec term 0 reg sched).ret ≤ ∑ l, term l := by
  have key : ∀ s, s = accExec term 0 reg sched →
      0 ≤ s.ret ∧ s.ret ≤ ∑ l ∈ Finset.univ.filter (fun l => s.pc l = 2), term l ∧
      ∀ l, s.pc l = 1 → 0 ≤ s.reg l ∧
        s.reg l ≤ ∑ l ∈ Finset.univ.filter (fun l => s.pc l = 2), term l := by
    unfold accExec
    induction sched using List.reverseRecOn with
    | nil => rintro s rfl; simp
    | append_singleton ls a ih =>
      intro s' hs'
      rw [List.foldl_append] at hs'
      simp only [List.foldl_cons, List.foldl_nil] at hs'
      obtain ⟨i1, i2, i3⟩ := ih _ rfl
      generalize List.foldl (accAccess term) ⟨0, fun _ => 0, reg⟩ ls = s at *
      unfold accAccess at hs'
      split_ifs at hs' with h0 h1
      · subst hs'
        have hset : (Finset.univ.filter (fun l => Function.update s.pc a 1 l = 2)) =
            Finset.univ.filter (fun l => s.pc l = 2) := by
          ext l
          by_cases h : l = a
          · subst h; simp [h0]
          · simp [Function.update_of_ne h]
        simp only [hset]
        refine ⟨i1, i2, ?_⟩
        intro l hl
        by_cases h : l = a
        · subst h; simp only [Function.update_self]; exact ⟨i1, i2⟩
        · simp only [Function.update_of_ne h] at hl ⊢; exact i3 l hl
      · subst hs'
        have hset : (Finset.univ.filter (fun l => Function.update s.pc a 2 l = 2)) =
            insert a (Finset.univ.filter (fun l => s.pc l = 2)) := by
          ext l
          by_cases h : l = a
          · subst h; simp
          · simp [h]
        have hna : a ∉ Finset.univ.filter (fun l => s.pc l = 2) := by simp [h1]
        simp only [hset, Finset.sum_insert hna]
        obtain ⟨j1, j2⟩ := i3 a h1
        have := hpos a
        refine ⟨by linarith, by linarith, ?_⟩
        intro l hl
        by_cases h : l = a
        · subst h; simp at hl
        · simp only [Function.update_of_ne h] at hl ⊢
          obtain ⟨k1, k2⟩ := i3 l hl
          exact ⟨k1, by linarith⟩
      · subst hs'; exact ⟨i1, i2, i3⟩
  obtain ⟨h1, h2, -⟩ := key _ rfl
  exact ⟨h1, h2.trans (Finset.sum_le_sum_of_subset_of_nonneg (Finset.subset_univ _)
    (fun l _ _ => hpos l))⟩

end Odes.Omp
