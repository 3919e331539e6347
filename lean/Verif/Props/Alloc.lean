import Verif.Model.Alloc
import Verif.Lemmas.Rock4L
import Verif.Props.Rock4

/-!
# C115: work memory is released by the function which allocated it, and is aligned where the code
says so
-/

namespace Odes.Alloc

/-! ### the work array of the Hessenberg reduction -/

/-- in an object whose array comes from `kd`, everything outside is as in `m0`. -/
structure Inv (m0 : Store) (kd : Kind) (s : Work × Store) : Prop where
  own : s.2.blk s.1.work = some (kd, s.1.lwork)
  fresh : m0.next ≤ s.1.work ∧ s.1.work < s.2.next
  other : ∀ p, p ≠ s.1.work → s.2.blk p = m0.blk p

theorem inv_release {m0 : Store} (hm : ∀ p, m0.next ≤ p → m0.blk p = none) {kd : Kind} {s : Work × Store}
    (h : Inv m0 kd s) : ∃ m, release kd s.1.work s.2 = some m ∧ m.blk = m0.blk ∧ m.next = s.2.next := by
  refine ⟨{ s.2 with blk := Function.update s.2.blk s.1.work none }, ?_, ?_, rfl⟩
  · unfold release
    rw [h.own]
    exact if_pos rfl
  · funext p
    dsimp only
    by_cases hp : p = s.1.work
    · subst hp
      rw [Function.update_self, hm _ h.fresh.1]
    · rw [Function.update_of_ne hp, h.other p hp]

theorem inv_ctor {m0 : Store} (aligned : Bool) (n : ℕ) : Inv m0 (dflt aligned) (ctor aligned n m0) where
  own := Function.update_self ..
  fresh := ⟨le_rfl, Nat.lt_succ_self _⟩
  other p hp := Function.update_of_ne hp ..

/-- a reduction with a sufficient array. -/
theorem reduce_small {m0 : Store} {kd : Kind} {s : Work × Store} (h : Inv m0 kd s) {k : ℕ} (hk : k ≤ s.1.lwork)
    (h1 : 1 ≤ s.1.lwork) : reduce k s = some s := by
  have a : ∀ c, c ≤ s.1.lwork → access s.1.work c s.2 = some () := by
    intro c hc
    unfold access
    rw [h.own]
    exact if_pos hc
  unfold reduce
  rw [a 1 h1, Option.bind_some, if_neg (by omega), Option.bind_some, a k hk, Option.bind_some]

/-- a reduction with a new array: possible for an array of `new` only. -/
theorem reduce_large {m0 : Store} (hm : ∀ p, m0.next ≤ p → m0.blk p = none) {s : Work × Store} (h : Inv m0 .arr s) {k : ℕ}
    (hk : s.1.lwork < k) (h1 : 1 ≤ s.1.lwork) :
    ∃ s', reduce k s = some s' ∧ Inv m0 .arr s' ∧ s'.1.lwork = k := by
  obtain ⟨m, e1, e2, e3⟩ := inv_release hm h
  refine ⟨(⟨(alloc .arr k m).1, k⟩, (alloc .arr k m).2), ?_, ⟨Function.update_self .., ?_, ?_⟩, rfl⟩
  · unfold reduce
    have a1 : access s.1.work 1 s.2 = some () := by unfold access; simp [h.own, h1]
    rw [a1, Option.bind_some, if_pos hk, e1, Option.bind_some, Option.bind_some]
    have a2 : access (alloc .arr k m).1 k (alloc .arr k m).2 = some () := by
      unfold access alloc
      simp
    simp only [a2, Option.bind_some]
  · exact ⟨by show m0.next ≤ m.next; rw [e3]; have := h.fresh; omega, Nat.lt_succ_self _⟩
  · intro p hp
    show Function.update m.blk m.next _ p = _
    have hp' : p ≠ m.next := hp
    rw [Function.update_of_ne hp', e2]

theorem reduce_mm {m0 : Store} {s : Work × Store} (h : Inv m0 .mm s) {k : ℕ} (hk : s.1.lwork < k)
    (h1 : 1 ≤ s.1.lwork) : reduce k s = none := by
  unfold reduce access release
  simp [h.own, h1, hk]

theorem reduces_arr {m0 : Store} (hm : ∀ p, m0.next ≤ p → m0.blk p = none) :
    ∀ (ks : List ℕ) (s : Work × Store), Inv m0 .arr s → 1 ≤ s.1.lwork →
      ∃ s', reduces ks s = some s' ∧ Inv m0 .arr s'
  | [], s, h, _ => ⟨s, rfl, h⟩
  | k :: ks, s, h, h1 => by
    rcases Nat.lt_or_ge s.1.lwork k with hk | hk
    · obtain ⟨s', e, h', e'⟩ := reduce_large hm h hk h1
      obtain ⟨s'', e2, h2⟩ := reduces_arr hm ks s' h' (by omega)
      exact ⟨s'', by unfold reduces; rw [e]; exact e2, h2⟩
    · obtain ⟨s'', e2, h2⟩ := reduces_arr hm ks s h h1
      exact ⟨s'', by unfold reduces; rw [reduce_small h hk h1]; exact e2, h2⟩

/-- **C115**, partial: without `ALIGN_BLOCKED`, whatever the sizes LAPACK asks for, an object with
Hessenberg reduction never accesses its work array beyond its end, releases it by the matching
function, and leaves no block behind. -/
theorem hessenberg_work_partial (n : ℕ) (hn : 1 ≤ n) (ks : List ℕ) (m : Store) (hm : ∀ p, m.next ≤ p → m.blk p = none) :
    ∃ m', life false n ks m = some m' ∧ m'.blk = m.blk := by
  obtain ⟨s, e, h⟩ := reduces_arr hm ks _ (inv_ctor false n) hn
  obtain ⟨m', e1, e2, -⟩ := inv_release hm h
  exact ⟨m', by unfold life; rw [e]; exact e1, e2⟩

/-- **C115** is violated with `ALIGN_BLOCKED`: the life of the object is free of undefined behaviour
exactly if LAPACK never asks for more than `n` cells (its blocked reduction asks for more than
`32*n`). -/
theorem hessenberg_work_mismatch (n : ℕ) (hn : 1 ≤ n) (ks : List ℕ) (m : Store) (hm : ∀ p, m.next ≤ p → m.blk p = none) :
    (∃ m', life true n ks m = some m') ↔ ∀ k ∈ ks, k ≤ n := by
  have key : ∀ (ks : List ℕ) (s : Work × Store), Inv m .mm s → s.1.lwork = n →
      ((∃ s', reduces ks s = some s') ↔ ∀ k ∈ ks, k ≤ n) ∧ ∀ s', reduces ks s = some s' → s' = s := by
    intro ks
    induction ks with
    | nil => intro s _ _; exact ⟨by simp [reduces], fun s' h => (Option.some.inj h).symm⟩
    | cons k ks ih =>
      intro s hs hl
      rcases Nat.lt_or_ge s.1.lwork k with hk | hk
      · have e : reduces (k :: ks) s = none := by unfold reduces; rw [reduce_mm hs hk (by omega)]; rfl
        rw [e]
        refine ⟨⟨fun ⟨_, h⟩ => by simp at h, fun h => ?_⟩, fun s' h => by simp at h⟩
        have := h k List.mem_cons_self
        omega
      · have e : reduces (k :: ks) s = reduces ks s := by
          unfold reduces; rw [reduce_small hs hk (by omega)]; cases ks <;> rfl
        rw [e]
        obtain ⟨i1, i2⟩ := ih s hs hl
        refine ⟨?_, i2⟩
        rw [i1, List.forall_mem_cons]
        exact ⟨fun h => ⟨by omega, h⟩, fun h => h.2⟩
  obtain ⟨k1, k2⟩ := key ks _ (inv_ctor true n) rfl
  rw [← k1]
  constructor
  · rintro ⟨m', h⟩
    unfold life at h
    obtain ⟨s, e, -⟩ := Option.bind_eq_some_iff.1 h
    exact ⟨s, e⟩
  · rintro ⟨s, e⟩
    have es := k2 s e
    subst es
    obtain ⟨m', e1, -, -⟩ := inv_release hm (inv_ctor (m0 := m) true n)
    exact ⟨m', by unfold life; rw [e]; exact e1⟩

/-- the empty store meets the hypotheses; three unknowns and the size of the reduction with blocks of 32 columns. -/
example : (∃ m', life false 3 [4256] ⟨0, fun _ => none⟩ = some m' ∧ m'.blk = fun _ => none) ∧
    ¬ ∃ m', life true 3 [4256] ⟨0, fun _ => none⟩ = some m' :=
  ⟨hessenberg_work_partial 3 (by decide) _ _ fun _ _ => rfl,
    fun h => absurd ((hessenberg_work_mismatch 3 (by decide) _ _ fun _ _ => rfl).1 h 4256 (by simp)) (by decide)⟩

/-! ### Rock4: arrays are exchanged with the caller -/

theorem releases_all (k : Kind) : ∀ (ps : List ℕ) (m : Store), ps.Nodup → (∀ p ∈ ps, ∃ c, m.blk p = some (k, c)) →
    ∃ m', releases k ps m = some m' ∧ ∀ p, m'.blk p = if p ∈ ps then none else m.blk p
  | [], m, _, _ => ⟨m, rfl, fun p => by simp⟩
  | q :: ps, m, hd, hk => by
    rw [List.nodup_cons] at hd
    obtain ⟨c, hc⟩ := hk q List.mem_cons_self
    have e : release k q m = some { m with blk := Function.update m.blk q none } := by
      unfold release; rw [hc]; exact if_pos rfl
    obtain ⟨m', e1, e2⟩ := releases_all k ps { m with blk := Function.update m.blk q none } hd.2 (by
      intro p hp
      obtain ⟨c', hc'⟩ := hk p (List.mem_cons_of_mem _ hp)
      refine ⟨c', ?_⟩
      dsimp only
      have hpq : p ≠ q := by rintro rfl; exact hd.1 hp
      rw [Function.update_of_ne hpq, hc'])
    refine ⟨m', by unfold releases; rw [e]; exact e1, fun p => ?_⟩
    rw [e2 p]
    by_cases hp : p = q
    · subst hp; simp
    · simp [List.mem_cons, hp]

variable {n : ℕ}

/-- **C115** for Rock4, partial: if the object's arrays and all arrays the caller passes come from `allocDoubleArray`,
then after any session the destructor and the caller's `destroyDoubleArray` release every array exactly once by the
matching function, and every array in use is aligned when the initial ones were. -/
theorem rock4_release_partial (aligned : Bool) (P : Rock4.Problem n) (T : Rock4.Tables) (o0 : Rock4.St n) (us0 : List ℕ)
    (hu : o0.uround = 1.0e-16) (hd : (us0 ++ Rock4.own o0).Nodup) (o : Rock4.St n) (us : List ℕ)
    (h : Rock4.Session P T o0 us0 o us) (m : Store)
    (hm : ∀ p ∈ us0 ++ Rock4.own o0, ∃ c, m.blk p = some (dflt aligned, c)) (adr : ℕ → ℕ)
    (ha : ∀ p ∈ us0 ++ Rock4.own o0, Aligned (adr p)) :
    (∃ m1 m2, releases (dflt aligned) (Rock4.own o) m = some m1 ∧ releases (dflt aligned) us m1 = some m2 ∧
      ∀ p, m2.blk p = if p ∈ us0 ++ Rock4.own o0 then none else m.blk p) ∧
    ∀ p ∈ us ++ Rock4.own o, Aligned (adr p) := by
  obtain ⟨nd, pm⟩ := Rock4.rock4_buffers_disjoint P T o0 us0 hu hd o us h
  rw [List.nodup_append] at nd
  obtain ⟨n1, n2, n3⟩ := nd
  have hm' : ∀ p ∈ us ++ Rock4.own o, ∃ c, m.blk p = some (dflt aligned, c) := fun p hp => hm p (pm.subset hp)
  obtain ⟨m1, e1, f1⟩ := releases_all (dflt aligned) (Rock4.own o) m n2
    fun p hp => hm' p (List.mem_append.2 (.inr hp))
  obtain ⟨m2, e2, f2⟩ := releases_all (dflt aligned) us m1 n1 (by
    intro p hp
    obtain ⟨c, hc⟩ := hm' p (List.mem_append.2 (.inl hp))
    refine ⟨c, ?_⟩
    rw [f1, if_neg (fun hq => n3 p hp p hq rfl), hc])
  refine ⟨⟨m1, m2, e1, e2, fun p => ?_⟩, fun p hp => ha p (pm.subset hp)⟩
  rw [f2, f1]
  have : p ∈ us0 ++ Rock4.own o0 ↔ p ∈ us ∨ p ∈ Rock4.own o := by rw [← pm.mem_iff, List.mem_append]
  by_cases a : p ∈ us <;> by_cases b : p ∈ Rock4.own o <;> simp only [this, a, b, if_true, if_false, or_self, or_true, true_or]

/-! ### Rock4L: parts of one array are declared aligned -/

variable {α : Type} [CommRing α]

theorem recLoop_perm3 (op : Rock4L.Three α n) (T : Rock4L.Tab α) (mr : ℤ) (dt : α) (y : ℕ) :
    ∀ (k : ℕ) (i : ℤ) (r r' : Rock4L.RL α n), Rock4L.Perm3 r → Rock4L.recLoop op T mr dt y k i r = some r' → Rock4L.Perm3 r'
  | 0, _, r, r', h, e => by
    cases Option.some.inj e
    exact h
  | k + 1, i, r, r', h, e => by
    obtain ⟨p1, p2, p3, p4, p5, p6, p7, p8, p9⟩ := h
    unfold Rock4L.recLoop at e
    split_ifs at e
    all_goals
      obtain ⟨c1, -, e⟩ := Option.bind_eq_some_iff.1 e
      obtain ⟨c2, -, e⟩ := Option.bind_eq_some_iff.1 e
      exact recLoop_perm3 op T mr dt y k (i + 1) _ r' ⟨p3, p1.symm, p2.symm, p6, p7, p8, p9, p4, p5⟩ e

/-- **C115** is violated by Rock4L with `ALIGN_BLOCKED`: at the end of the recurrence of `kernel2` the pointers `g0` and
`g1` (Rock4L.hpp 233; parts `r.g1` and `r.g0` of the array allocated at the aligned address `A`) are aligned as declared
exactly if the number of unknowns is a multiple of 8. -/
theorem rock4l_assumed_alignment (size A : ℕ) (hA : Aligned A) (op : Rock4L.Three α n) (T : Rock4L.Tab α) (mr : ℤ) (dt : α)
    (y k : ℕ) (i : ℤ) (heap : ℕ → Fin n → α) (calls : ℕ) (r : Rock4L.RL α n)
    (h : Rock4L.recLoop op T mr dt y k i { Rock4L.split heap with calls := calls } = some r) :
    (Aligned (cell A (r.g1 * size)) ∧ Aligned (cell A (r.g0 * size))) ↔ 8 ∣ size := by
  obtain ⟨p1, p2, p3, p4, p5, p6, p7, p8, p9⟩ := recLoop_perm3 op T mr dt y k i _ r
    (by simp [Rock4L.Perm3, Rock4L.split]) h
  have key : ∀ q, Aligned (cell A (q * size)) ↔ 8 ∣ q * size := by
    intro q
    unfold Aligned cell
    rw [Nat.dvd_add_right hA]
    constructor
    · intro h
      exact Nat.dvd_of_mul_dvd_mul_left (by norm_num : 0 < 8) (by simpa using h)
    · intro h
      exact Nat.mul_dvd_mul_left 8 h
  rw [key, key]
  constructor
  · rintro ⟨a, b⟩
    have e : r.g0 = 1 ∨ r.g0 = 3 ∨ r.g1 = 1 ∨ r.g1 = 3 := by omega
    rcases e with e | e | e | e
    · rw [e] at b; omega
    · rw [e] at b; omega
    · rw [e] at a; omega
    · rw [e] at a; omega
  · exact fun h => ⟨Dvd.dvd.mul_left h _, Dvd.dvd.mul_left h _⟩

/-- The size computed for aligned parts is 64 for every number of unknowns (a condition is read where a sum was meant):
it is unused, and too small to be used beyond 64 unknowns. -/
theorem sizesplit_const (size : ℕ) (h : 1 ≤ size) : sizesplit size = 64 := by
  unfold sizesplit
  rw [if_neg (by omega)]

/-- an aligned address and the run of a loop. -/
example : Aligned 128 ∧ ∃ r, Rock4L.recLoop (α := ℤ) (n := 1) (fun _ v _ _ _ _ => v)
    ⟨fun _ => 1, fun _ _ => 1, fun _ _ => 1⟩ 1 1 4 1 2 { Rock4L.split (fun _ _ => 0) with calls := 1 } = some r := by
  refine ⟨by unfold Aligned; norm_num, ?_⟩
  have e : ∀ i : ℤ, 1 ≤ i → i ≤ 4382 →
      Rock4L.recfAt (⟨fun _ => 1, fun _ _ => 1, fun _ _ => 1⟩ : Rock4L.Tab ℤ) i = some 1 := by
    intro i h1 h2
    unfold Rock4L.recfAt
    rw [if_pos ⟨by omega, by omega⟩]
  unfold Rock4L.recLoop
  rw [if_pos rfl, e _ (by norm_num) (by norm_num), Option.bind_some, e _ (by norm_num) (by norm_num), Option.bind_some]
  exact ⟨_, rfl⟩

end Odes.Alloc
