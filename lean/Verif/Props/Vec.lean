import Verif.Model.Vec
import Verif.Spec.Vec
import Verif.Lemmas.Mem
import Mathlib.Data.Fintype.EquivFin

/-!
# C04, C05, C06: work vectors
-/

namespace Odes.Vec

open Odes.Mem

variable {α : Type}

theorem rd_live {h : Heap α} {p : ℕ} {b : Buf α} (hb : h.blk p = some b) {i : ℤ}
    (hi : 0 ≤ i ∧ i < b.size) : h.rd p i = some (b.cell i) := by
  unfold Heap.rd; rw [hb, Option.bind_some, Buf.rd_in hi]

theorem wr_live {h : Heap α} {p : ℕ} {b : Buf α} (hb : h.blk p = some b) {i : ℤ} (v : α)
    (hi : 0 ≤ i ∧ i < b.size) : h.wr p i v =
      some ⟨Function.update h.blk p (some ⟨b.size, Function.update b.cell i v⟩), h.next⟩ := by
  unfold Heap.wr; rw [hb, Option.bind_some, Buf.wr_in _ hi, Option.map_some]

/-- copying between two different live blocks. -/
theorem copyLoop_spec {n : ℤ} (hn : 0 ≤ n) {dst src : ℕ} (hne : dst ≠ src) {h : Heap α}
    {d s : Buf α} (hd : h.blk dst = some d) (hs : h.blk src = some s) (hdn : n ≤ d.size)
    (hsn : n ≤ s.size) :
    ∃ d', copyLoop n dst src h = some ⟨Function.update h.blk dst (some d'), h.next⟩ ∧
      d'.size = d.size ∧ (∀ i, 0 ≤ i → i < n → d'.cell i = s.cell i) ∧
      ∀ i, ¬ (0 ≤ i ∧ i < n) → d'.cell i = d.cell i := by
  obtain ⟨h', h1, d', h2, h3, h4, h5⟩ := forUp_inv
    (P := fun j (g : Heap α) => ∃ d' : Buf α,
      g = ⟨Function.update h.blk dst (some d'), h.next⟩ ∧ d'.size = d.size ∧
      (∀ i, 0 ≤ i → i < j → d'.cell i = s.cell i) ∧
      ∀ i, ¬ (0 ≤ i ∧ i < j) → d'.cell i = d.cell i)
    (body := fun i h => (h.rd src i).bind fun v => h.wr dst i v) (lo := 0) (hi := n - 1) (s := h)
    (by omega) ⟨d, by rw [← hd, Function.update_eq_self], rfl, fun i a b => by omega,
      fun _ _ => rfl⟩ (by
      rintro j g hj hj' ⟨d', rfl, i2, i3, i4⟩
      refine ⟨⟨Function.update h.blk dst (some ⟨d.size, Function.update d'.cell j (s.cell j)⟩),
        h.next⟩, ?_, _, rfl, rfl, ?_, ?_⟩
      · rw [rd_live (b := s) (by dsimp only; rw [Function.update_of_ne hne.symm, hs])
          ⟨hj, by omega⟩, Option.bind_some,
          wr_live (b := d') (by dsimp only; rw [Function.update_self]) _ ⟨hj, by omega⟩, i2]
        simp
      · intro i a1 a2
        dsimp only
        by_cases e : i = j
        · subst e; simp
        · rw [Function.update_of_ne e]; exact i3 i a1 (by omega)
      · intro i a
        dsimp only
        rw [Function.update_of_ne (by omega)]
        exact i4 i (by omega))
  subst h2
  exact ⟨d', h1, h3, fun i a b => h4 i a (by omega), fun i a => h5 i (by omega)⟩

/-- copying a live block to itself changes nothing. -/
theorem copyLoop_self {n : ℤ} (hn : 0 ≤ n) {p : ℕ} {h : Heap α} {d : Buf α}
    (hd : h.blk p = some d) (hdn : n ≤ d.size) : copyLoop n p p h = some h := by
  obtain ⟨h', h1, h2⟩ := forUp_inv
    (P := fun _ (g : Heap α) => g = h)
    (body := fun i h => (h.rd p i).bind fun v => h.wr p i v) (lo := 0) (hi := n - 1) (s := h)
    (by omega) rfl (by
      rintro j g hj hj' rfl
      refine ⟨g, ?_, rfl⟩
      rw [rd_live hd ⟨hj, by omega⟩, Option.bind_some, wr_live hd _ ⟨hj, by omega⟩,
        Function.update_eq_self, ← hd, Function.update_eq_self])
  rw [← h2]; exact h2 ▸ h1

/-! ### C04 -/

/-- C04, full claim: after `v.put(a)` the array `a` holds the components of `v`, `v` unchanged. -/
def PutCopies (α : Type) (n : ℤ) : Prop :=
  ∀ (v : FVF) (a : ℕ) (h : Heap α) (c b : ℤ → α), v.x = v.y → a ≠ v.y →
    h.blk v.y = some ⟨n, c⟩ → h.blk a = some ⟨n, b⟩ →
    ∃ h', v.put n a h = some h' ∧ h'.blk v.y = some ⟨n, c⟩ ∧
      ∃ b' : Buf α, h'.blk a = some b' ∧ ∀ i, 0 ≤ i → i < n → b'.cell i = c i

/-- C04 is false for every size: `put` writes nothing. -/
theorem put_copies_nothing [Nontrivial α] (n : ℤ) (hn : 1 ≤ n) : ¬ PutCopies α n := by
  intro H
  obtain ⟨p, q, hpq⟩ := exists_pair_ne α
  let h : Heap α := ⟨fun k => if k = 0 then some ⟨n, fun _ => p⟩ else
    if k = 1 then some ⟨n, fun _ => q⟩ else none, 2⟩
  obtain ⟨h', h1, -, b', h2, h3⟩ := H ⟨0, 0⟩ 1 h (fun _ => p) (fun _ => q) rfl (by decide) rfl rfl
  have : FVF.put n ⟨0, 0⟩ 1 h = some h := copyLoop_self (by omega) (d := ⟨n, fun _ => p⟩) rfl le_rfl
  rw [this] at h1
  injection h1 with h1
  subst h1
  have h4 : b' = ⟨n, fun _ => q⟩ := by
    have : h.blk 1 = some ⟨n, fun _ => q⟩ := rfl
    rw [this] at h2; injection h2 with h2; exact h2.symm
  have := h3 0 le_rfl (by omega)
  rw [h4] at this
  exact hpq this.symm

/-- C04, what holds: `put` stays inside the vector and changes no memory at all (so the vector is
unchanged, and so is the caller's array). -/
theorem put_noop_partial {n : ℤ} (hn : 1 ≤ n) (v : FVF) (a : ℕ) (h : Heap α) (c : ℤ → α)
    (hxy : v.x = v.y) (hv : h.blk v.y = some ⟨n, c⟩) : v.put n a h = some h := by
  unfold FVF.put
  rw [hxy]
  exact copyLoop_self (by omega) hv le_rfl

example : ∃ (v : FVF) (h : Heap ℤ), v.x = v.y ∧ h.blk v.y = some ⟨3, fun i => i⟩ :=
  ⟨⟨0, 0⟩, ⟨fun _ => some ⟨3, fun i => i⟩, 1⟩, rfl, rfl⟩

/-- the assignment from an array (`Y=y`, the counterpart of `put`) does copy. -/
theorem assignTab_copies {n : ℤ} (hn : 1 ≤ n) (v : FVF) (a : ℕ) (h : Heap α) (c b : ℤ → α)
    (hxy : v.x = v.y) (hne : v.y ≠ a) (hv : h.blk v.y = some ⟨n, c⟩) (ha : h.blk a = some ⟨n, b⟩) :
    ∃ h' d, v.assignTab n a h = some h' ∧ h'.blk v.y = some d ∧ d.size = n ∧
      (∀ i, 0 ≤ i → i < n → d.cell i = b i) ∧ ∀ p, p ≠ v.y → h'.blk p = h.blk p := by
  obtain ⟨d, h1, h2, h3, h4⟩ := copyLoop_spec (show 0 ≤ n by omega) hne hv ha le_rfl le_rfl
  refine ⟨⟨Function.update h.blk v.y (some d), h.next⟩, d, ?_, Function.update_self .., h2, h3,
    fun p hp => Function.update_of_ne hp ..⟩
  unfold FVF.assignTab
  rw [hxy]; exact h1

/-- C75, partial: assignment (not copy construction) gives an independent copy of the contents: for two
vectors with their own storage, `v=w` writes the contents of `w` to the storage of `v` and nothing else. -/
theorem assignF_copies_partial {n : ℤ} (hn : 1 ≤ n) (v w : FVF) (h : Heap α) (c b : ℤ → α) (hv' : v.x = v.y)
    (hne : v.y ≠ w.y) (hv : h.blk v.y = some ⟨n, c⟩) (hw : h.blk w.y = some ⟨n, b⟩) :
    ∃ h' d, v.assign n w h = some h' ∧ h'.blk v.y = some d ∧ d.size = n ∧
      (∀ i, 0 ≤ i → i < n → d.cell i = b i) ∧ ∀ p, p ≠ v.y → h'.blk p = h.blk p := by
  obtain ⟨d, h1, h2, h3, h4⟩ := copyLoop_spec (show 0 ≤ n by omega) hne hv hw le_rfl le_rfl
  refine ⟨⟨Function.update h.blk v.y (some d), h.next⟩, d, ?_, Function.update_self .., h2, h3,
    fun p hp => Function.update_of_ne hp ..⟩
  unfold FVF.assign
  rw [hv']
  exact h1

example : ∃ (v w : FVF) (h : Heap ℤ), v.x = v.y ∧ v.y ≠ w.y ∧ h.blk v.y = some ⟨3, fun i => i⟩ ∧
    h.blk w.y = some ⟨3, fun i => 2 * i⟩ :=
  ⟨⟨0, 0⟩, ⟨1, 1⟩, ⟨fun k => if k = 0 then some ⟨3, fun i => i⟩ else some ⟨3, fun i => 2 * i⟩, 2⟩, rfl, by decide,
    rfl, rfl⟩

/-! ### C05 -/

theorem switchAll_eq {m : ℕ} (vs : Fin m → FVF) (i j l : Fin m) :
    switchAll vs i j l = if l = i then vs j else if l = j then vs i else vs l := by
  unfold switchAll
  by_cases h1 : l = i
  · subst h1; simp [FVF.switchadr]
  · rw [Function.update_of_ne h1, if_neg h1]
    by_cases h2 : l = j
    · subst h2; simp [FVF.switchadr]
    · rw [Function.update_of_ne h2, if_neg h2]

/-- C05, one operation refines the abstract one. -/
theorem opStep_refines {m : ℕ} {n : ℤ} (o : Op m α) (vs : Fin m → FVF) (h : Heap α)
    (c : Fin m → ℤ → α) (ho : Owns n vs h c) :
    (opStep o (vs, h) = none ∧ absStep n o c = none) ∨
    ∃ vs' h' c', opStep o (vs, h) = some (vs', h') ∧ absStep n o c = some c' ∧ Owns n vs' h' c' ∧
      (∀ p, (∀ i, p ≠ (vs i).y) → h'.blk p = h.blk p) ∧
      (∀ i, ∃ j, (vs' i).y = (vs j).y) := by
  obtain ⟨o1, o2, o3⟩ := ho
  cases o with
  | switch i j =>
    right
    refine ⟨_, h, _, rfl, rfl, ⟨?_, ?_, ?_⟩, fun _ _ => rfl, ?_⟩
    · intro l; simp only [switchAll_eq]; split_ifs <;> apply o1
    · intro a b e
      simp only [switchAll_eq] at e
      split_ifs at e <;> have := o2 _ _ e <;> simp_all
    · intro l
      simp only [switchAll_eq]
      split_ifs <;> apply o3
    · intro l; simp only [switchAll_eq]; split_ifs <;> exact ⟨_, rfl⟩
  | write viaX i k v =>
    have hp : (if viaX then (vs i).x else (vs i).y) = (vs i).y := by
      split_ifs
      · exact o1 i
      · rfl
    by_cases hk : 0 ≤ k ∧ k < n
    · right
      refine ⟨vs, ⟨Function.update h.blk (vs i).y (some ⟨n, Function.update (c i) k v⟩), h.next⟩, _,
        ?_, by rw [absStep, if_pos hk], ⟨o1, o2, ?_⟩, ?_, fun i => ⟨i, rfl⟩⟩
      · simp only [opStep, hp]
        rw [wr_live (o3 i) v hk, Option.map_some]
      · intro l
        dsimp only
        by_cases e : l = i
        · subst e; rw [Function.update_self, if_pos rfl]
        · rw [Function.update_of_ne (fun h => e (o2 _ _ h)), if_neg e]; exact o3 l
      · intro p q
        exact Function.update_of_ne (q i) ..
    · left
      refine ⟨?_, by rw [absStep, if_neg hk]⟩
      simp only [opStep, hp, Heap.wr, o3 i, Option.bind_some, Buf.wr, if_neg hk, Option.map_none]

/-- C05: any sequence of switches (and writes to components) refines the abstract one: values are
exchanged exactly, every vector still owns exactly one buffer of `n` doubles, no two share one, no
other memory is touched; the sequence is undefined exactly when some write is out of range. -/
theorem switch_refines {m : ℕ} {n : ℤ} (ops : List (Op m α)) (vs : Fin m → FVF) (h : Heap α)
    (c : Fin m → ℤ → α) (ho : Owns n vs h c) :
    (opRun ops (vs, h) = none ∧ absRun n ops c = none) ∨
    ∃ vs' h' c', opRun ops (vs, h) = some (vs', h') ∧ absRun n ops c = some c' ∧
      Owns n vs' h' c' ∧ (∀ p, (∀ i, p ≠ (vs i).y) → h'.blk p = h.blk p) ∧
      (∀ i, ∃ j, (vs' i).y = (vs j).y) := by
  induction ops generalizing vs h c with
  | nil => exact .inr ⟨vs, h, c, rfl, rfl, ho, fun _ _ => rfl, fun i => ⟨i, rfl⟩⟩
  | cons o l ih =>
    rcases opStep_refines o vs h c ho with ⟨e1, e2⟩ | ⟨vs1, h1, c1, e1, e2, e3, e4, e5⟩
    · left; exact ⟨by rw [opRun, e1, Option.bind_none], by rw [absRun, e2, Option.bind_none]⟩
    · rcases ih vs1 h1 c1 e3 with ⟨g1, g2⟩ | ⟨vs2, h2, c2, g1, g2, g3, g4, g5⟩
      · left
        exact ⟨by rw [opRun, e1, Option.bind_some, g1], by rw [absRun, e2, Option.bind_some, g2]⟩
      · right
        refine ⟨vs2, h2, c2, by rw [opRun, e1, Option.bind_some, g1],
          by rw [absRun, e2, Option.bind_some, g2], g3, ?_, ?_⟩
        · intro p hp
          rw [g4 p, e4 p hp]
          intro i
          obtain ⟨j, hj⟩ := e5 i
          rw [hj]; exact hp j
        · intro i
          obtain ⟨j, hj⟩ := g5 i
          obtain ⟨k, hk⟩ := e5 j
          exact ⟨k, by rw [hj, hk]⟩

/-- sequences of switches alone never fail. -/
theorem switches_succeed {m : ℕ} {n : ℤ} (sw : List (Fin m × Fin m)) (c : Fin m → ℤ → α) :
    ∃ c', absRun n (sw.map fun p => Op.switch p.1 p.2) c = some c' := by
  induction sw generalizing c with
  | nil => exact ⟨c, rfl⟩
  | cons p l ih => exact ih _

/-- C05, destruction: destroying the listed vectors (each once, any order) succeeds, frees exactly
their buffers. -/
theorem destroyAll_spec {m : ℕ} {n : ℤ} (vs : Fin m → FVF) (l : List (Fin m)) (hl : l.Nodup)
    (h : Heap α) (hx : ∀ i j, (vs i).y = (vs j).y → i = j)
    (hlive : ∀ i ∈ l, ∃ c, h.blk (vs i).y = some ⟨n, c⟩) :
    ∃ h', destroyAll vs l h = some h' ∧ (∀ i ∈ l, h'.blk (vs i).y = none) ∧
      ∀ p, (∀ i ∈ l, p ≠ (vs i).y) → h'.blk p = h.blk p := by
  induction l generalizing h with
  | nil => exact ⟨h, rfl, by simp, fun _ _ => rfl⟩
  | cons i l ih =>
    rw [List.nodup_cons] at hl
    obtain ⟨c, hc⟩ := hlive i (by simp)
    obtain ⟨h', h1, h2, h3⟩ := ih hl.2 ⟨Function.update h.blk (vs i).y none, h.next⟩ (by
      intro j hj
      obtain ⟨c', hc'⟩ := hlive j (by simp [hj])
      refine ⟨c', ?_⟩
      dsimp only
      rw [Function.update_of_ne, hc']
      intro e
      have := hx _ _ e
      subst this
      exact hl.1 hj)
    refine ⟨h', ?_, ?_, ?_⟩
    · rw [destroyAll, FVF.destroy, Heap.free, hc, Option.map_some, Option.bind_some, h1]
    · intro j hj
      rcases List.mem_cons.1 hj with rfl | hj
      · rw [h3]
        · exact Function.update_self ..
        intro k hk e
        have := hx _ _ e
        subst this
        exact hl.1 hk
      · exact h2 j hj
    · intro p hp
      rw [h3 p (fun j hj => hp j (by simp [hj]))]
      exact Function.update_of_ne (hp i (by simp)) ..

theorem newAll_spec (n : ℤ) (junk : ℕ → ℤ → α) (k : ℕ) (h : Heap α) (hok : h.Ok) :
    (newAll n junk k h).2.next = h.next + k ∧ (newAll n junk k h).2.Ok ∧
    (∀ i, i < k → (newAll n junk k h).1 i = ⟨h.next + i, h.next + i⟩) ∧
    (∀ i, i < k → (newAll n junk k h).2.blk (h.next + i) = some ⟨n, junk i⟩) ∧
    ∀ p, p < h.next → (newAll n junk k h).2.blk p = h.blk p := by
  induction k with
  | zero => exact ⟨rfl, hok, by simp, by simp, fun _ _ => rfl⟩
  | succ k ih =>
    obtain ⟨i1, i2, i3, i4, i5⟩ := ih
    refine ⟨?_, ?_, ?_, ?_, ?_⟩
    · simp only [newAll, FVF.new, Heap.alloc, i1]; omega
    · intro p hp
      simp only [newAll, FVF.new, Heap.alloc] at hp ⊢
      rw [Function.update_of_ne (by omega)]
      exact i2 p (by omega)
    · intro i hi
      simp only [newAll, FVF.new, Heap.alloc]
      by_cases e : i = k
      · subst e; rw [Function.update_self, i1]
      · rw [Function.update_of_ne e]; exact i3 i (by omega)
    · intro i hi
      simp only [newAll, FVF.new, Heap.alloc]
      by_cases e : i = k
      · subst e; rw [i1, Function.update_self]
      · rw [Function.update_of_ne (by omega)]; exact i4 i (by omega)
    · intro p hp
      simp only [newAll, FVF.new, Heap.alloc]
      rw [Function.update_of_ne (by omega)]
      exact i5 p hp

/-- C05, whole life of `m` work vectors: construct, any sequence of switches and in-range writes,
destroy in any order: never a double free, afterwards the heap is what it was before construction. -/
theorem vectors_life {m : ℕ} {n : ℤ} (junk : ℕ → ℤ → α) (h : Heap α) (hok : h.Ok)
    (ops : List (Op m α)) (c' : Fin m → ℤ → α)
    (hops : absRun n ops (fun i => junk i) = some c') (l : List (Fin m)) (hl : l.Nodup)
    (hall : ∀ i, i ∈ l) :
    ∃ vs' h' h'', opRun ops (fun i : Fin m => (newAll n junk m h).1 i, (newAll n junk m h).2)
        = some (vs', h') ∧ Owns n vs' h' c' ∧
      destroyAll vs' l h' = some h'' ∧ h''.blk = h.blk := by
  obtain ⟨n1, n2, n3, n4, n5⟩ := newAll_spec n junk m h hok
  have ho : Owns n (fun i : Fin m => (newAll n junk m h).1 i) (newAll n junk m h).2
      (fun i => junk i) := by
    refine ⟨?_, ?_, ?_⟩
    · intro i; dsimp only; rw [n3 i i.2]
    · intro i j e
      dsimp only at e
      rw [n3 i i.2, n3 j j.2] at e
      simp only at e
      exact Fin.ext (by omega)
    · intro i
      dsimp only
      rw [n3 i i.2]
      exact n4 i i.2
  rcases switch_refines ops _ _ _ ho with ⟨-, e⟩ | ⟨vs', h', c'', e1, e2, e3, e4, e5⟩
  · rw [hops] at e; cases e
  rw [hops] at e2
  injection e2 with e2
  subst e2
  obtain ⟨h'', d1, d2, d3⟩ := destroyAll_spec (n := n) vs' l hl h' e3.2.1
    (fun i _ => ⟨_, e3.2.2 i⟩)
  refine ⟨vs', h', h'', e1, e3, d1, ?_⟩
  -- every name below `next + m`
  have inj : Function.Injective fun i => (vs' i).y := fun i j e => e3.2.1 i j e
  have range : ∀ p, (∃ i : Fin m, p = h.next + i) → ∃ i, p = (vs' i).y := by
    -- an injective map of `Fin m` into an `m`-element set is onto
    choose f hf using e5
    have finj : Function.Injective f := by
      intro i j e
      apply inj
      dsimp only
      rw [hf i, hf j, e]
    have fsurj := Finite.surjective_of_injective finj
    rintro p ⟨i, rfl⟩
    obtain ⟨j, hj⟩ := fsurj i
    refine ⟨j, ?_⟩
    rw [hf j, hj, n3 i i.2]
  funext p
  by_cases hp : ∃ i : Fin m, p = h.next + i
  · obtain ⟨i, hi⟩ := range p hp
    rw [hi, d2 i (hall i), ← hi]
    obtain ⟨j, rfl⟩ := hp
    exact (hok _ (by omega)).symm
  · have hne : ∀ i, p ≠ (vs' i).y := by
      intro i e
      choose f hf using e5
      apply hp
      refine ⟨f i, ?_⟩
      rw [e, hf i, n3 _ (f i).2]
    rw [d3 p (fun i _ => hne i), e4 p]
    · by_cases hlt : p < h.next
      · exact n5 p hlt
      · rw [hok p (by omega), n2 p]
        rw [n1]
        by_contra hc
        exact hp ⟨⟨p - h.next, by omega⟩, by simp; omega⟩
    · intro i e
      apply hp
      refine ⟨i, ?_⟩
      rw [e, n3 i i.2]

/-- the hypotheses are met by the six vectors of the Newton iteration and its three switches. -/
example : ∃ c', absRun (α := ℤ) (m := 6) 4
    [.write true 0 3 7, .switch 0 3, .switch 1 4, .switch 2 5, .write false 3 0 1]
    (fun i _ => i) = some c' ∧ c' 3 3 = 7 ∧ c' 3 0 = 1 ∧ c' 0 2 = 3 := by
  refine ⟨_, rfl, ?_⟩
  decide

/-! ### C06 -/

/-- C06, full claim: construct two vectors of size `k`, assign, destroy both. -/
def AssignSafe (α : Type) (k : ℤ) : Prop :=
  ∀ (h : Heap α) (ja jb : ℤ → α), h.Ok →
    let ra := FV.new k ja h
    let rb := FV.new k jb ra.1
    ∃ h', (((ra.2.assign rb.2 rb.1).bind fun h => rb.2.destroy h).bind
      fun h => ra.2.destroy h) = some h'

/-- C06 is false for every size: the by-value parameter frees `b`'s buffer; destroying `b` is a
double free. -/
theorem assign_double_free [Inhabited α] (k : ℤ) (hk : 0 ≤ k) : ¬ AssignSafe α k := by
  intro H
  obtain ⟨h', hh⟩ := H ⟨fun _ => none, 0⟩ default default (fun _ _ => rfl)
  simp only [FV.new, Heap.alloc, FV.assign] at hh
  obtain ⟨d', h1, -⟩ := copyLoop_spec (α := α) hk (dst := 0) (src := 1) (by decide)
    (h := ⟨Function.update (Function.update (fun _ => none) 0 (some ⟨k, default⟩)) (0 + 1)
      (some ⟨k, default⟩), 0 + 1 + 1⟩) (d := ⟨k, default⟩) (s := ⟨k, default⟩)
      (by rfl) (by rfl) le_rfl le_rfl
  rw [h1] at hh
  simp [FV.destroy, Heap.free] at hh

/-- C06: after `a=b` the vector `b` may not even be read. -/
theorem assign_invalidates {k : ℤ} (hk : 0 ≤ k) (a b : FV) (h : Heap α) (ca cb : ℤ → α)
    (hne : a.x ≠ b.x) (hs : a.size = k) (hd : b.deletable = true) (ha : h.blk a.x = some ⟨k, ca⟩)
    (hb : h.blk b.x = some ⟨k, cb⟩) :
    ∃ h', a.assign b h = some h' ∧ (∀ i, h'.rd b.x i = none) ∧ b.destroy h' = none := by
  obtain ⟨d', h1, h2, h3, h4⟩ := copyLoop_spec hk hne ha hb le_rfl le_rfl
  refine ⟨⟨Function.update (Function.update h.blk a.x (some d')) b.x none, h.next⟩, ?_, ?_, ?_⟩
  · simp only [FV.assign, hs]
    rw [h1, Option.bind_some, FV.destroy, hd, if_pos rfl, Heap.free]
    dsimp only
    rw [Function.update_of_ne hne.symm, hb, Option.map_some]
  · intro i; simp [Heap.rd]
  · simp [FV.destroy, hd, Heap.free]

/-- C06, what holds: for a right hand side that does not own its buffer (an adopted array or the
base part of a `fortranVectorF`) `a=b` copies the contents and both stay valid. -/
theorem assign_adopted_partial {k : ℤ} (hk : 0 ≤ k) (a b : FV) (h : Heap α) (ca cb : ℤ → α)
    (hne : a.x ≠ b.x) (hs : a.size = k) (hd : b.deletable = false) (ha : h.blk a.x = some ⟨k, ca⟩)
    (hb : h.blk b.x = some ⟨k, cb⟩) :
    ∃ h' d, a.assign b h = some h' ∧ h'.blk a.x = some d ∧ d.size = k ∧
      (∀ i, 0 ≤ i → i < k → d.cell i = cb i) ∧ h'.blk b.x = some ⟨k, cb⟩ ∧
      ∀ p, p ≠ a.x → h'.blk p = h.blk p := by
  obtain ⟨d', h1, h2, h3, h4⟩ := copyLoop_spec hk hne ha hb le_rfl le_rfl
  refine ⟨⟨Function.update h.blk a.x (some d'), h.next⟩, d', ?_, Function.update_self .., h2, h3, ?_,
    fun p hp => Function.update_of_ne hp ..⟩
  · simp only [FV.assign, hs]
    rw [h1, Option.bind_some, FV.destroy, hd]
    rfl
  · dsimp only; rw [Function.update_of_ne hne.symm, hb]

example : ∃ (a b : FV) (h : Heap ℤ), a.x ≠ b.x ∧ b.deletable = false ∧
    h.blk a.x = some ⟨2, fun _ => 0⟩ ∧ h.blk b.x = some ⟨2, fun i => i⟩ :=
  ⟨⟨0, 2, true⟩, ⟨1, 2, false⟩, ⟨fun k => if k = 0 then some ⟨2, fun _ => 0⟩ else
    some ⟨2, fun i => i⟩, 2⟩, by decide, rfl, rfl, rfl⟩

/-! ### C75 -/

/-- C75 fails: destroying a vector and its copy is a double free, for every live vector. -/
theorem copy_double_free (v : FVF) (h : Heap α) {b : Buf α} (hv : h.blk v.y = some b) :
    ∃ h', v.copy.destroy h = some h' ∧ v.destroy h' = none := by
  refine ⟨⟨Function.update h.blk v.y none, h.next⟩, ?_, ?_⟩
  · simp only [FVF.destroy, FVF.copy, Heap.free, hv, Option.map_some]
  · simp [FVF.destroy, Heap.free]

/-- C75 fails: a copy is not independent, writing to it writes to the original. -/
theorem copy_aliases (v : FVF) (h : Heap α) {b : Buf α} (hv : h.blk v.y = some b)
    {k : ℤ} (hk : 0 ≤ k ∧ k < b.size) (w : α) :
    ∃ h', h.wr v.copy.y k w = some h' ∧ h'.rd v.y k = some w := by
  refine ⟨_, wr_live (p := v.copy.y) hv w hk, ?_⟩
  rw [rd_live (b := ⟨b.size, Function.update b.cell k w⟩) _ hk]
  · simp
  · exact Function.update_self ..

/-- C75 fails: copying a full matrix writes through a pointer that was never given a value; unless
that garbage happens to be a live block the copy is undefined. -/
theorem matrix_copy_ub {n2 : ℤ} (hn : 1 ≤ n2) (x0 src : ℕ) (h : Heap α) (h0 : h.blk x0 = none) :
    faCopyCtor n2 x0 src h = none := by
  unfold faCopyCtor copyLoop forUp
  obtain ⟨k, hk⟩ : ∃ k, (n2 - 1 + 1 - 0).toNat = k + 1 := ⟨(n2 - 1).toNat, by omega⟩
  rw [hk, loopUp]
  have : ∀ v, h.wr x0 0 v = none := by intro v; simp [Heap.wr, h0]
  simp [this]

example : ∃ (v : FVF) (h : Heap ℤ) (b : Buf ℤ), h.blk v.y = some b ∧ 0 < b.size ∧ h.blk 5 = none :=
  ⟨⟨0, 0⟩, ⟨fun k => if k = 0 then some ⟨2, fun i => i⟩ else none, 1⟩, _, rfl, by decide, rfl⟩

end Odes.Vec
