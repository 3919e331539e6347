import Verif.Model.Sdirkl
import Verif.Spec.RK
import Mathlib.Algebra.BigOperators.Intervals
import Mathlib.Tactic.FieldSimp
import Mathlib.Tactic.Ring

/-!
# Lemmas on SDIRKL
-/

namespace Odes.Sdirkl

open Matrix Finset

variable {α : Type} [Field α] [DecidableEq α] {n : ℕ}

theorem upd_self {β : Type} (f : ℕ → β) (i : ℕ) (x : β) : upd f i x i = x := by simp [upd]
theorem upd_ne {β : Type} (f : ℕ → β) {i j : ℕ} (x : β) (h : j ≠ i) : upd f i x j = f j := by
  simp [upd, h]

theorem foldl_range_add (f : ℕ → α) (a : α) (k : ℕ) :
    (List.range k).foldl (fun out j => out + f j) a = a + ∑ j ∈ range k, f j := by
  induction k with
  | zero => simp
  | succ k ih => rw [List.range_succ, List.foldl_append, ih, Finset.sum_range_succ]; simp [add_assoc]

theorem foldl_range'_add (f : ℕ → α) (a : α) (k : ℕ) :
    (List.range' 1 k).foldl (fun out j => out + f j) a = a + ∑ j ∈ range k, f (j + 1) := by
  induction k with
  | zero => simp
  | succ k ih =>
    rw [List.range'_concat, List.foldl_append, ih, Finset.sum_range_succ]
    simp [add_assoc, add_comm 1]

theorem cl_eq (nv : ℕ) (h : 1 ≤ nv) (c : ℕ → α) (v : ℕ → Fin n → α) :
    cl nv c v = ∑ j ∈ range nv, c j • v j := by
  obtain ⟨m, rfl⟩ := Nat.exists_eq_add_of_le h
  funext i
  rw [cl, foldl_range'_add, Finset.sum_apply, Nat.add_comm 1 m, Finset.sum_range_succ']
  simp [add_comm, mul_comm]

theorem pluscl_eq (nv : ℕ) (c : ℕ → α) (v : ℕ → Fin n → α) (out : Fin n → α) :
    pluscl nv c v out = out + ∑ j ∈ range nv, c j • v j := by
  funext i
  rw [pluscl, foldl_range_add]
  simp [Finset.sum_apply]

/-- only the terms with a nonzero weight are kept: the sum is the same. -/
theorem doNew_sum (o : Obj α n) (f : ℕ → Fin n → α) :
    let d := doNew o
    ∑ j ∈ range d.2.2, d.1 j • f (d.2.1 j) = ∑ i ∈ range o.rk.nstage, o.rk.D i • f i := by
  show _
  unfold doNew
  induction o.rk.nstage with
  | zero => simp
  | succ k ih =>
    rw [List.range_succ, List.foldl_append, Finset.sum_range_succ, ← ih]
    generalize (List.range k).foldl _ _ = s
    simp only [List.foldl_cons, List.foldl_nil]
    by_cases h : o.rk.D k = 0
    · rw [if_neg (by simpa using h), h, zero_smul, add_zero]
    · rw [if_pos h]
      simp only
      rw [Finset.sum_range_succ, upd_self, upd_self]
      congr 1
      refine Finset.sum_congr rfl fun j hj => ?_
      have : j ≠ s.2.2 := by
        have := Finset.mem_range.1 hj; omega
      rw [upd_ne _ _ this, upd_ne _ _ this]

/-- at most `nstage` terms are kept. -/
theorem doNew_count (o : Obj α n) : (doNew o).2.2 ≤ o.rk.nstage ∧
    ∀ j < (doNew o).2.2, (doNew o).2.1 j < o.rk.nstage := by
  unfold doNew
  induction o.rk.nstage with
  | zero => simp
  | succ k ih =>
    rw [List.range_succ, List.foldl_append]
    generalize (List.range k).foldl _ _ = s at *
    simp only [List.foldl_cons, List.foldl_nil]
    obtain ⟨i1, i2⟩ := ih
    split_ifs
    · refine ⟨by simp only; omega, fun j hj => ?_⟩
      simp only at hj ⊢
      by_cases h : j = s.2.2
      · rw [h, upd_self]; omega
      · rw [upd_ne _ _ h]
        have := i2 j (by omega)
        omega
    · exact ⟨by omega, fun j hj => by have := i2 j hj; omega⟩

theorem coefs_spec (o : Obj α n) (s : St α n) (k : ℕ) :
    (coefs o s k).hp = s.hp ∧ (coefs o s k).zcomb 0 = s.zcomb 0 ∧
    (coefs o s k).aloc 0 = o.rk.S k / o.diag ∧
    ∀ j < k, (coefs o s k).zcomb (j + 1) = j ∧ (coefs o s k).aloc (j + 1) = o.AD k j := by
  unfold coefs
  have : ∀ m s', s' = ((List.range m).foldl (fun (s : St α n) j =>
        { s with aloc := upd s.aloc (j + 1) (o.AD k j), zcomb := upd s.zcomb (j + 1) j })
        { s with aloc := upd s.aloc 0 (o.rk.S k / o.diag) }) →
      s'.hp = s.hp ∧ s'.zcomb 0 = s.zcomb 0 ∧ s'.aloc 0 = o.rk.S k / o.diag ∧
      ∀ j < m, s'.zcomb (j + 1) = j ∧ s'.aloc (j + 1) = o.AD k j := by
    intro m
    induction m with
    | zero => rintro s' rfl; simp [upd_self]
    | succ m ih =>
      rintro s' rfl
      obtain ⟨h1, h2, h3, h4⟩ := ih _ rfl
      simp only [List.range_succ, List.foldl_append, List.foldl_cons, List.foldl_nil]
      refine ⟨h1, by rw [upd_ne _ _ (by omega)]; exact h2, by rw [upd_ne _ _ (by omega)]; exact h3,
        fun j hj => ?_⟩
      by_cases h : j = m
      · subst h; rw [upd_self, upd_self]; exact ⟨rfl, rfl⟩
      · rw [upd_ne _ _ (by omega), upd_ne _ _ (by omega)]
        exact h4 j (by omega)
  exact this k _ rfl

/-- the combination computed at a stage. -/
theorem coefs_cl (o : Obj α n) (s : St α n) (k : ℕ) :
    cl (k + 1) (coefs o s k).aloc (fun j => (coefs o s k).hp ((coefs o s k).zcomb j))
      = (o.rk.S k / o.diag) • s.hp (s.zcomb 0) + ∑ j ∈ range k, (o.rk.A k j / o.diag) • s.hp j := by
  obtain ⟨h1, h2, h3, h4⟩ := coefs_spec o s k
  rw [cl_eq _ (by omega), Finset.sum_range_succ', add_comm, h1, h2, h3]
  congr 1
  refine Finset.sum_congr rfl fun j hj => ?_
  obtain ⟨a, b⟩ := h4 j (Finset.mem_range.1 hj)
  rw [a, b]; rfl

/-- the user's operator: `apply` solves `(1 - dt A_00 L) X = RHS` (Sdirkl.hpp 127). -/
def Solves (o : Obj α n) (L : Matrix (Fin n) (Fin n) α) : Prop :=
  ∀ w, (1 - (o.dt * o.diag) • L) *ᵥ o.apply w = w

/-- state after `k` stages. -/
structure Inv (o : Obj α n) (hp0 : Heap α n) (x : ℕ) (L : Matrix (Fin n) (Fin n) α)
    (g : Fin n → α) (k : ℕ) (s : St α n) : Prop where
  z0 : s.zcomb 0 = x
  frame : ∀ p, o.rk.nstage + 2 ≤ p → s.hp p = hp0 p
  stages : ∀ i < k, s.hp i = o.dt • (L *ᵥ (o.rk.S i • hp0 x + (∑ j ∈ range i, o.rk.A i j • s.hp j)
    + o.diag • s.hp i)) + (o.dt * o.rk.S i) • g

theorem solve_stage {o : Obj α n} {L : Matrix (Fin n) (Fin n) α} (hd : o.diag ≠ 0)
    (hL : Solves o L) (g u lo : Fin n → α) (Si : α) (W Z : Fin n → α)
    (hW : W = (Si / o.diag) • u + o.diag⁻¹ • lo)
    (hZ : Z = o.apply ((Si * o.dt) • g + W) - W) :
    Z = o.dt • (L *ᵥ (Si • u + lo + o.diag • Z)) + (o.dt * Si) • g := by
  have h := hL ((Si * o.dt) • g + W)
  have hV : o.apply ((Si * o.dt) • g + W) = Z + W := by rw [hZ]; abel
  rw [hV, Matrix.sub_mulVec, Matrix.one_mulVec, Matrix.smul_mulVec] at h
  have e : Si • u + lo + o.diag • Z = o.diag • (Z + W) := by
    rw [hW]
    have : Si • u = o.diag • ((Si / o.diag) • u) := by
      rw [smul_smul, mul_div_cancel₀ _ hd]
    have h2 : lo = o.diag • (o.diag⁻¹ • lo) := by
      rw [smul_smul, mul_inv_cancel₀ hd, one_smul]
    conv_lhs => rw [this, h2]
    module
  rw [e, Matrix.mulVec_smul, smul_smul]
  linear_combination (norm := module) h

theorem lo_eq (o : Obj α n) (k : ℕ) (f : ℕ → Fin n → α) :
    ∑ j ∈ range k, (o.rk.A k j / o.diag) • f j = o.diag⁻¹ • ∑ j ∈ range k, o.rk.A k j • f j := by
  rw [Finset.smul_sum]
  refine Finset.sum_congr rfl fun j _ => ?_
  rw [smul_smul, div_eq_inv_mul]

theorem stage1_inv {o : Obj α n} {hp0 : Heap α n} {x : ℕ} {L : Matrix (Fin n) (Fin n) α}
    (hd : o.diag ≠ 0) (hL : Solves o L) (hx : o.rk.nstage + 2 ≤ x) {k : ℕ}
    (hk : k < o.rk.nstage) {s : St α n} (I : Inv o hp0 x L 0 k s) :
    Inv o hp0 x L 0 (k + 1) (stage1 o s k) := by
  obtain ⟨h1, h2, -, -⟩ := coefs_spec o s k
  have hc := coefs_cl o s k
  have hpk : ∀ p, p ≠ k → p ≠ o.rk.nstage → (stage1 o s k).hp p = s.hp p := by
    intro p p1 p2
    simp only [stage1, Obj.work]
    rw [upd_ne _ _ p1, upd_ne _ _ p1, upd_ne _ _ p2, h1]
  have hzk : (stage1 o s k).hp k = o.apply (cl (k + 1) (coefs o s k).aloc
      (fun j => (coefs o s k).hp ((coefs o s k).zcomb j)))
      - (cl (k + 1) (coefs o s k).aloc (fun j => (coefs o s k).hp ((coefs o s k).zcomb j))) := by
    simp only [stage1, Obj.work]
    rw [upd_self, upd_self, upd_self, upd_ne _ _ (by omega : o.rk.nstage ≠ k), upd_self]
    rfl
  rw [hc, I.z0, I.frame x hx, lo_eq] at hzk
  refine ⟨h2.trans I.z0, fun p hp => ?_, fun i hi => ?_⟩
  · rw [hpk p (by omega) (by omega)]; exact I.frame p hp
  · have hs : ∀ j, j ≤ i → j ≠ k → (stage1 o s k).hp j = s.hp j := fun j j1 j2 =>
      hpk j j2 (by omega)
    rw [Finset.sum_congr rfl fun j hj => by
      rw [hs j (by have := Finset.mem_range.1 hj; omega)
        (by have := Finset.mem_range.1 hj; omega)]]
    by_cases h : i = k
    · subst h
      refine solve_stage hd hL 0 _ _ _ _ _ rfl ?_
      rw [smul_zero, zero_add]
      exact hzk
    · rw [hs i le_rfl h]
      exact I.stages i (by omega)

theorem stage2_inv {o : Obj α n} {hp0 : Heap α n} {x phi : ℕ} {L : Matrix (Fin n) (Fin n) α}
    (hd : o.diag ≠ 0) (hL : Solves o L) (hx : o.rk.nstage + 2 ≤ x) (hphi : o.rk.nstage + 2 ≤ phi)
    {k : ℕ} (hk : k < o.rk.nstage) {s : St α n} (I : Inv o hp0 x L (hp0 phi) k s) :
    Inv o hp0 x L (hp0 phi) (k + 1) (stage2 o phi s k) := by
  obtain ⟨h1, h2, -, -⟩ := coefs_spec o s k
  have hc := coefs_cl o s k
  have hpk : ∀ p, p ≠ k → p ≠ o.rk.nstage → p ≠ o.rk.nstage + 1 →
      (stage2 o phi s k).hp p = s.hp p := by
    intro p p1 p2 p3
    simp only [stage2, Obj.work, Obj.work1]
    rw [upd_ne _ _ p1, upd_ne _ _ p1, upd_ne _ _ p2, upd_ne _ _ p3, h1]
  have hzk : (stage2 o phi s k).hp k = o.apply ((o.rk.S k * o.dt) • hp0 phi +
      cl (k + 1) (coefs o s k).aloc (fun j => (coefs o s k).hp ((coefs o s k).zcomb j)))
      - (cl (k + 1) (coefs o s k).aloc (fun j => (coefs o s k).hp ((coefs o s k).zcomb j))) := by
    simp only [stage2, Obj.work, Obj.work1]
    rw [upd_self, upd_self, upd_self, upd_ne _ _ (by omega : o.rk.nstage + 1 ≠ k),
      upd_ne _ _ (by omega : o.rk.nstage + 1 ≠ o.rk.nstage), upd_self,
      upd_ne _ _ (by omega : phi ≠ o.rk.nstage + 1), h1, I.frame phi hphi]
    rfl
  rw [hc, I.z0, I.frame x hx, lo_eq] at hzk
  refine ⟨h2.trans I.z0, fun p hp => ?_, fun i hi => ?_⟩
  · rw [hpk p (by omega) (by omega) (by omega)]; exact I.frame p hp
  · have hs : ∀ j, j ≤ i → j ≠ k → (stage2 o phi s k).hp j = s.hp j := fun j j1 j2 =>
      hpk j j2 (by omega) (by omega)
    rw [Finset.sum_congr rfl fun j hj => by
      rw [hs j (by have := Finset.mem_range.1 hj; omega)
        (by have := Finset.mem_range.1 hj; omega)]]
    by_cases h : i = k
    · subst h
      exact solve_stage hd hL _ _ _ _ _ _ rfl hzk
    · rw [hs i le_rfl h]
      exact I.stages i (by omega)

theorem loop_inv {o : Obj α n} {f : St α n → ℕ → St α n} {I : ℕ → St α n → Prop}
    (hstep : ∀ k < o.rk.nstage, ∀ s, I k s → I (k + 1) (f s k)) {s : St α n} (h0 : I 0 s) :
    ∀ k ≤ o.rk.nstage, I k ((List.range k).foldl f s) := by
  intro k
  induction k with
  | zero => intro _; exact h0
  | succ k ih =>
    intro hk
    rw [List.range_succ, List.foldl_append]
    exact hstep k (by omega) _ (ih (by omega))

/-- the coefficients as a full matrix: zero above the diagonal, `A[0][0]` on it. -/
def full (o : Obj α n) (i j : Fin o.rk.nstage) : α :=
  if j < i then o.rk.A i j else if j = i then o.diag else 0

theorem full_sum (o : Obj α n) (i : Fin o.rk.nstage) (f : ℕ → Fin n → α) :
    ∑ j, full o i j • f j = (∑ j ∈ range i, o.rk.A i j • f j) + o.diag • f i := by
  have e : ∀ j : Fin o.rk.nstage, full o i j • f j
      = (fun j : ℕ => (if j < i then o.rk.A i j else if j = i then o.diag else 0) • f j) j := by
    intro j
    simp only [full, Fin.lt_def, Fin.ext_iff]
  rw [Finset.sum_congr rfl fun j _ => e j, ← Finset.sum_range
    (fun j : ℕ => (if j < i then o.rk.A i j else if j = i then o.diag else 0) • f j)]
  have hi := i.2
  rw [← Finset.sum_subset (Finset.range_mono (show i.1 + 1 ≤ o.rk.nstage from hi)),
    Finset.sum_range_succ]
  · congr 1
    · refine Finset.sum_congr rfl fun j hj => ?_
      rw [if_pos (Finset.mem_range.1 hj)]
    · simp
  · intro j _ hj
    have : ¬ j < i.1 + 1 := fun h => hj (Finset.mem_range.2 h)
    rw [if_neg (by omega), if_neg (by omega), zero_smul]

theorem Inv.zstep {o : Obj α n} {hp0 : Heap α n} {x : ℕ} {L : Matrix (Fin n) (Fin n) α}
    {g : Fin n → α} {s : St α n} (hx : o.rk.nstage + 2 ≤ x)
    (I : Inv o hp0 x L g o.rk.nstage s) :
    Spec.IsZStep (full o) (fun i => o.rk.S i) (fun i => o.rk.D i) o.dt L g (hp0 x)
      (final o s.hp x x) := by
  refine ⟨fun i => s.hp i, fun i => ?_, ?_⟩
  · rw [full_sum o i s.hp, ← add_assoc]
    exact I.stages i i.2
  · unfold final
    rw [upd_self, pluscl_eq, doNew_sum o s.hp, I.frame x hx, Finset.sum_fin_eq_sum_range]
    congr 1
    exact Finset.sum_congr rfl fun j hj => by rw [dif_pos (Finset.mem_range.1 hj)]

end Odes.Sdirkl
