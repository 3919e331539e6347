import Verif.Model.SympFlat
import Verif.Props.SympPlanetsFl

/-!
# C126: the planetary problems with the usual memory layout
-/

namespace Odes.Symp

open Odes.Mem

section

variable {α : Type} [Add α] [Sub α] [Mul α] [Zero α] [One α] [LE α] {n : ℕ}

theorem loopUp_com {σ : Type} {body : ℤ → σ → Option σ} {g : σ → σ} (hb : ∀ i s, (body i s).map g = body i (g s)) (k : ℕ) :
    ∀ (i : ℤ) (s : σ), (loopUp body k i s).map g = loopUp body k i (g s) := by
  induction k with
  | zero => intro i s; rfl
  | succ k ih =>
    intro i s
    show ((body i s).bind (loopUp body k (i + 1))).map g = (body i (g s)).bind (loopUp body k (i + 1))
    rw [← hb]
    cases body i s with
    | none => rfl
    | some s => exact ih _ _

theorem forUp_com {σ : Type} {body : ℤ → σ → Option σ} {g : σ → σ} (hb : ∀ i s, (body i s).map g = body i (g s)) (lo hi : ℤ) (s : σ) :
    (forUp lo hi body s).map g = forUp lo hi body (g s) := loopUp_com hb _ _ _

/-- three members set -/
def put (d e a : Fin n → α) (st : St α n) : St α n := { st with delta := d, e := e, a := a }

variable (d e a : Fin n → α)

theorem evals_put (c : Cfg α n) (st : St α n) : (evals c st).map (put d e a) = evals c (put d e a st) := by
  refine forUp_com (fun i st => ?_) _ _ _
  show _ = (rdN (n := n) st.Y (i * n)).bind _
  cases rdN (n := n) st.Y (i * n) with
  | none => rfl
  | some v =>
    show _ = (wrN st.Y1 (i * n) (c.f v)).map _
    simp only [Option.bind_some]
    cases wrN st.Y1 (i * n) (c.f v) <;> rfl

theorem combine_put (c : Cfg α n) (i : ℤ) (st : St α n) : (combine c i st).map (put d e a) = combine c i (put d e a st) := by
  refine forUp_com (fun j st => ?_) _ _ _
  show _ = (st.ga.rd (i * c.s + j)).bind _
  cases st.ga.rd (i * c.s + j) with
  | none => rfl
  | some x =>
    show _ = (rdN (n := n) st.Y1 (j * n)).map _
    simp only [Option.bind_some]
    cases rdN (n := n) st.Y1 (j * n) <;> rfl

theorem update_put (c : Cfg α n) (u : Fin n → α) (st : St α n) : (update c u st).map (put d e a) = update c u (put d e a st) := by
  refine forUp_com (g := put d e a) (fun i st => ?_) _ _ _
  have h := combine_put d e a c i { st with v := u }
  have e1 : put d e a { st with v := u } = { put d e a st with v := u } := rfl
  rw [e1] at h
  dsimp only
  rw [← h]
  cases combine c i { st with v := u } with
  | none => rfl
  | some st =>
    show _ = (rdN (n := n) st.Y (i * n)).bind _
    simp only [Option.bind_some]
    cases rdN (n := n) st.Y (i * n) with
    | none => rfl
    | some y =>
      simp only [Option.bind_some]
      show _ = Option.map _ (wrN st.Y (i * n) st.v)
      cases wrN st.Y (i * n) st.v <;> rfl

theorem startAt_put (c : Cfg α n) (u : Fin n → α) (st : St α n) : (startAt c u st).map (put d e a) = startAt c u (put d e a st) := by
  refine forUp_com (fun i st => ?_) _ _ _
  show _ = (wrN st.Y (i * n) u).map _
  cases wrN st.Y (i * n) u <;> rfl

omit [Add α] [Sub α] [One α] [LE α] in
theorem gChange_put (c : Cfg α n) (h : α) (st : St α n) : (gChange c h st).map (put d e a) = gChange c h (put d e a st) := by
  unfold gChange
  show _ = (copyL c.la st.ga).bind fun ga => (copyL c.lb st.gb).bind fun gb => _
  cases copyL c.la st.ga with
  | none => rfl
  | some ga =>
    cases copyL c.lb st.gb with
    | none => rfl
    | some gb =>
      simp only [Option.bind_some]
      cases scale (c.s * c.s) (c.narrow h) ga with
      | none => rfl
      | some ga =>
        simp only [Option.bind_some]
        cases scale c.s (c.narrow h) gb <;> rfl

omit [Add α] [Sub α] [One α] [LE α] in
theorem eChange_put (c : Cfg α n) (h : α) (st : St α n) : (eChange c h st).map (put d e a) = eChange c h (put d e a st) := by
  unfold eChange
  show _ = (copyL c.lc st.q).bind fun q => _
  cases copyL c.lc st.q with
  | none => rfl
  | some q =>
    simp only [Option.bind_some]
    cases scale (c.s * c.s) (c.narrow h) q <;> rfl

omit [Add α] [Sub α] [Mul α] [Zero α] [One α] [LE α] in
/-- a loop which does not look at the three members leaves them alone -/
theorem put_e {f : St α n → Option (St α n)} (hf : ∀ (d e a : Fin n → α) st, (f st).map (put d e a) = f (put d e a st)) {st st' : St α n}
    (h : f st = some st') : st'.e = st.e := by
  have h1 := hf st.delta st.e st.a st
  have h2 : put st.delta st.e st.a st = st := rfl
  rw [h2, h, Option.map_some, Option.some.injEq] at h1
  rw [← h1]; rfl

theorem iterLoopZ_put (c : Cfg α n) (z : St α n → Fin n → α) (u : Fin n → α) (k : ℕ) : ∀ {st st' : St α n},
    iterLoopZ c z u k st = some (true, st') → iterLoop c u k (put d e a st) = some (true, put d e a st') ∧ st'.e = fun _ => 0 := by
  induction k with
  | zero => intro st st' h; cases h
  | succ k ih =>
    intro st st' h
    unfold iterLoopZ evalsZ at h
    unfold iterLoop
    rw [← evals_put]
    cases h1 : evals c st with
    | none => rw [h1] at h; cases h
    | some s1 =>
      rw [h1, Option.map_some, Option.bind_some] at h
      rw [Option.map_some, Option.bind_some]
      obtain ⟨z1, ez⟩ : ∃ z1, z1 = { s1 with delta := fun _ => 0, e := fun _ => 0, a := z s1 } := ⟨_, rfl⟩
      rw [← ez] at h
      have e1 : put d e a s1 = put d e a z1 := by rw [ez]; rfl
      rw [e1, ← update_put]
      cases h2 : update c u z1 with
      | none => rw [h2] at h; cases h
      | some s2 =>
        rw [h2, Option.bind_some] at h
        rw [Option.map_some, Option.bind_some]
        have hs : success c (put d e a s2) ↔ success c s2 := Iff.rfl
        by_cases hsu : success c s2
        · rw [if_pos hsu] at h
          rw [if_pos (hs.2 hsu)]
          have e2 : s2 = st' := by injection h with h; exact (Prod.mk.inj h).2
          refine ⟨by rw [e2], ?_⟩
          rw [← e2, put_e (f := update c u) (fun d e a st => update_put d e a c u st) h2, ez]
        · rw [if_neg hsu] at h
          rw [if_neg (fun h => hsu (hs.1 h))]
          exact ih h

theorem iterLoopZ_of (c : Cfg α n) (z : St α n → Fin n → α) (u : Fin n → α) (k : ℕ) : ∀ {st s' : St α n},
    iterLoop c u k (put d e a st) = some (true, s') → ∃ st', iterLoopZ c z u k st = some (true, st') := by
  induction k with
  | zero => intro st s' h; cases h
  | succ k ih =>
    intro st s' h
    unfold iterLoop at h
    unfold iterLoopZ evalsZ
    rw [← evals_put] at h
    cases h1 : evals c st with
    | none => rw [h1] at h; cases h
    | some s1 =>
      rw [h1, Option.map_some, Option.bind_some] at h
      rw [Option.map_some, Option.bind_some]
      obtain ⟨z1, ez⟩ : ∃ z1, z1 = { s1 with delta := fun _ => 0, e := fun _ => 0, a := z s1 } := ⟨_, rfl⟩
      rw [← ez]
      have e1 : put d e a s1 = put d e a z1 := by rw [ez]; rfl
      rw [e1, ← update_put] at h
      cases h2 : update c u z1 with
      | none => rw [h2] at h; cases h
      | some s2 =>
        rw [h2, Option.map_some, Option.bind_some] at h
        rw [Option.bind_some]
        have hs : success c (put d e a s2) ↔ success c s2 := Iff.rfl
        by_cases hsu : success c s2
        · rw [if_pos hsu]; exact ⟨s2, rfl⟩
        · rw [if_neg (fun h => hsu (hs.1 h))] at h
          rw [if_neg hsu]
          exact ih h

theorem increment_put (c : Cfg α n) (st : St α n) : increment c (put d e a st) = (increment c (put st.delta e st.a st)).map
    fun s => { s with a := a } := by
  unfold increment
  rw [forUp_com (g := fun s : St α n => { s with a := a })]
  · rfl
  · intro i st
    show _ = (st.gb.rd i).bind _
    cases st.gb.rd i with
    | none => rfl
    | some b =>
      simp only [Option.bind_some]
      show _ = Option.map _ (rdN (n := n) st.Y1 (i * n))
      cases rdN (n := n) st.Y1 (i * n) <;> rfl

open Classical in
/-- **a successful step is a step without compensation from before** -/
theorem stepZ_step {c : Cfg α n} {z : St α n → Fin n → α} {h : α} {u u' : Fin n → α} {st st' : St α n}
    (hs : stepZ c z h u true st = some (true, u', st')) : step c h u true { st with e := fun _ => 0 } = some (true, u', st') := by
  have hd : ¬ (true = false ∧ c.eq st.oldH h) := by simp
  unfold stepZ at hs
  unfold step
  dsimp only at hs ⊢

  simp only [if_neg hd] at hs ⊢
  have e0 : { st with e := fun _ => 0 } = put st.delta (fun _ => 0) st.a st := rfl
  obtain ⟨d, hd'⟩ : ∃ d, d = st.delta := ⟨_, rfl⟩
  obtain ⟨a, ha'⟩ : ∃ a, a = st.a := ⟨_, rfl⟩
  have prep : (if ¬ c.eq st.oldH h then (gChange c h { ({ st with e := fun _ => 0 } : St α n) with oldH := h }).bind (eChange c h)
      else some { st with e := fun _ => 0 }) = ((if ¬ c.eq st.oldH h then (gChange c h { st with oldH := h }).bind (eChange c h)
      else some st)).map (put d (fun _ => 0) a) := by
    split
    · have e1 : { ({ st with e := fun _ => 0 } : St α n) with oldH := h } = put d (fun _ => 0) a { st with oldH := h } := by
        rw [hd', ha']; rfl
      rw [e1, ← gChange_put]
      cases gChange c h { st with oldH := h } with
      | none => rfl
      | some s => exact (eChange_put _ _ _ c h s).symm
    · rw [hd', ha']; rfl
  rw [prep]
  cases h1 : (if ¬ c.eq st.oldH h then (gChange c h { st with oldH := h }).bind (eChange c h) else some st) with
  | none => rw [h1] at hs; cases hs
  | some s1 =>
    rw [h1, Option.bind_some] at hs
    rw [Option.map_some, Option.bind_some, ← startAt_put]
    cases h2 : startAt c u s1 with
    | none => rw [h2] at hs; cases hs
    | some s2 =>
      rw [h2, Option.bind_some] at hs
      rw [Option.map_some, Option.bind_some]
      cases h3 : iterLoopZ c z u c.itermax.toNat { s2 with iter := 0 } with
      | none => rw [h3] at hs; cases hs
      | some r =>
        obtain ⟨b, s3⟩ := r
        rw [h3, Option.bind_some] at hs
        cases b with
        | false => simp at hs
        | true =>
          obtain ⟨p1, p2⟩ := iterLoopZ_put d (fun _ => 0) a c z u _ h3
          have e2 : { put d (fun _ => 0) a s2 with iter := 0 } = put d (fun _ => 0) a { s2 with iter := 0 } := rfl
          rw [e2, p1, Option.bind_some]
          simp only [if_true] at hs ⊢
          rw [increment_put]
          have e3 : put s3.delta (fun _ => 0) s3.a s3 = s3 := by rw [← p2]; rfl
          rw [e3, Option.map_map, ← hs]
          rfl

open Classical in
/-- and conversely: the successful steps are exactly those of the program whose compensation is set to zero. -/
theorem stepZ_iff {c : Cfg α n} {z : St α n → Fin n → α} {h : α} {u u' : Fin n → α} {st st' : St α n} :
    stepZ c z h u true st = some (true, u', st') ↔ step c h u true { st with e := fun _ => 0 } = some (true, u', st') := by
  refine ⟨stepZ_step, fun hs => ?_⟩
  suffices ∃ v s, stepZ c z h u true st = some (true, v, s) by
    obtain ⟨v, s, hv⟩ := this
    have := stepZ_step hv
    rw [hs] at this
    rw [hv, ← this]
  have hd : ¬ (true = false ∧ c.eq st.oldH h) := by simp
  unfold step at hs
  unfold stepZ
  dsimp only at hs ⊢

  simp only [if_neg hd] at hs ⊢
  have e0 : { st with e := fun _ => 0 } = put st.delta (fun _ => 0) st.a st := rfl
  obtain ⟨d, hd'⟩ : ∃ d, d = st.delta := ⟨_, rfl⟩
  obtain ⟨a, ha'⟩ : ∃ a, a = st.a := ⟨_, rfl⟩
  have prep : (if ¬ c.eq st.oldH h then (gChange c h { ({ st with e := fun _ => 0 } : St α n) with oldH := h }).bind (eChange c h)
      else some { st with e := fun _ => 0 }) = ((if ¬ c.eq st.oldH h then (gChange c h { st with oldH := h }).bind (eChange c h)
      else some st)).map (put d (fun _ => 0) a) := by
    split
    · have e1 : { ({ st with e := fun _ => 0 } : St α n) with oldH := h } = put d (fun _ => 0) a { st with oldH := h } := by
        rw [hd', ha']; rfl
      rw [e1, ← gChange_put]
      cases gChange c h { st with oldH := h } with
      | none => rfl
      | some s => exact (eChange_put _ _ _ c h s).symm
    · rw [hd', ha']; rfl
  rw [prep] at hs
  cases h1 : (if ¬ c.eq st.oldH h then (gChange c h { st with oldH := h }).bind (eChange c h) else some st) with
  | none => rw [h1] at hs; cases hs
  | some s1 =>
    rw [h1, Option.map_some, Option.bind_some, ← startAt_put] at hs
    rw [Option.bind_some]
    cases h2 : startAt c u s1 with
    | none => rw [h2] at hs; cases hs
    | some s2 =>
      rw [h2, Option.map_some, Option.bind_some] at hs
      rw [Option.bind_some]
      have e2 : { put d (fun _ => 0) a s2 with iter := 0 } = put d (fun _ => 0) a { s2 with iter := 0 } := rfl
      rw [e2] at hs
      cases h3 : iterLoop c u c.itermax.toNat (put d (fun _ => 0) a { s2 with iter := 0 }) with
      | none => rw [h3] at hs; cases hs
      | some r =>
        obtain ⟨b, s3⟩ := r
        rw [h3, Option.bind_some] at hs
        cases b with
        | false => simp at hs
        | true =>
          obtain ⟨s4, h4⟩ := iterLoopZ_of d (fun _ => 0) a c z u _ h3
          obtain ⟨p1, p2⟩ := iterLoopZ_put d (fun _ => 0) a c z u _ h4
          rw [p1] at h3
          have e4 : s3 = put d (fun _ => 0) a s4 := by injection h3 with h3; exact (Prod.mk.inj h3).2.symm
          have e3 : put s4.delta (fun _ => 0) s4.a s4 = s4 := by rw [← p2]; rfl
          rw [h4, Option.bind_some]
          simp only [if_true] at hs ⊢
          rw [e4, increment_put, e3] at hs
          cases h5 : increment c s4 with
          | none => rw [h5] at hs; cases hs
          | some s5 => exact ⟨_, _, rfl⟩

end

open Odes.Mem Odes.Colloc Spec Finset

variable {F : FP} {n : ℕ}

/-- `N` successful calls, as `RunF` (SymplecticRK/test/main.cc 33-48). -/
inductive RunZ (c : Cfg F.T n) (z : St F.T n → Fin n → F.T) (h : F.T) : ℕ → (Fin n → F.T) → St F.T n → (Fin n → F.T) → St F.T n → Prop
  | zero (u st) : RunZ c z h 0 u st u st
  | succ {N u0 st0 u st u' st'} (ih : RunZ c z h N u0 st0 u st)
      (hs : stepZ c z h u true st = some (true, u', st')) : RunZ c z h (N + 1) u0 st0 u' st'

/-- C126: order `2s` without the memory of the compensated summation: one rounding of the solution per step is added. -/
theorem symp_zeroed_order {t : GTab} (ht : t ∈ gaussD) {f : (Fin n → ℝ) → Fin n → ℝ} {y : ℝ → Fin n → ℝ} {T ρ L M0 M1 : ℝ}
    (hT0 : 0 ≤ T) (hL0 : 0 ≤ L) (hf : Smoothly f y 0 T ρ (2 * t.s) L M0 M1) :
    ∃ h0 C : ℝ, 0 < h0 ∧ 0 ≤ C ∧ ∀ (F : FP) (_ : 10 ≤ F.p) (itermax : ℤ) (fF : (Fin n → F.T) → Fin n → F.T) (η : ℝ) (_ : 0 ≤ η)
      (_ : ∀ x, ∀ t ∈ Set.Icc 0 T, ‖val x - y t‖ ≤ ρ → ‖val (fF x) - f (val x)‖ ≤ η)
      (h : F.T) (_ : 0 < h.1) (_ : h.1 ≤ h0) (_ : h.1 * L ≤ 1 / 3)
      (junk st0 : St F.T n) (_ : construct (cfgFt F t itermax fF) junk = some (.ok st0))
      (u0 : Fin n → F.T) (e0 : ℝ) (_ : ‖val u0 - y 0‖ ≤ e0) (G κ r : ℝ) (_ : G = (ocst F 12 t.s η L ρ h.1 M0 M1 C).G)
      (_ : κ = (ocst F 12 t.s η L ρ h.1 M0 M1 C).κ) (_ : r = (ocst F 12 t.s η L ρ h.1 M0 M1 C).r)
      (_ : Real.exp (2 * (1 + 1 / 10 ^ 11) * L * T) * (e0 + T * (G + κ / h.1)) + κ + h.1 * (1 + 1 / 10 ^ 10) * (M1 + η) + r ≤ ρ)
      (z : St F.T n → Fin n → F.T) (N : ℕ) (u : Fin n → F.T) (st : St F.T n) (_ : RunZ (cfgFt F t itermax fF) z h N u0 st0 u st)
      (_ : N * h.1 ≤ T),
      ‖val u - y (N * h.1)‖ ≤ Real.exp (2 * (1 + 1 / 10 ^ 11) * L * (N * h.1)) * (e0 + N * h.1 * (G + κ / h.1)) := by
  have htt : t ∈ gaussD ++ gaussL := List.mem_append_left _ ht
  obtain ⟨c1, A1, b1, hG, hA, hb⟩ := symp_table_gauss.1 t ht
  have hs2 := (mem_s htt).1
  obtain ⟨h0, C, h0p, c0, hloc⟩ := colloc_local (gauss_data hG) hf.sol hf.pos (fun x ⟨τ, hτ, hx⟩ => hf.smooth τ hτ x hx)
    (by omega) (gauss_A hG) (gauss_b hG)
  refine ⟨h0, C, h0p, c0, ?_⟩
  intro F hp itermax fF η hη0 hη h hh hh0 hhL junk st0 hst u0 e0 he0 G κ r eG eκ er hρ z N u st hrun hN
  have hm0 : 0 ≤ M0 := (norm_nonneg _).trans (hf.bound0 0 ⟨le_rfl, hT0⟩)
  have hm1 : 0 ≤ M1 := (norm_nonneg _).trans (hf.bound1 0 ⟨le_rfl, hT0⟩ (y 0) (by rw [sub_self, norm_zero]; exact hf.pos.le))
  have hok := ocst_ok (d := 12) (s := t.s) hp hη0 hL0 hf.pos hh hm0 hm1 c0 hhL
  have htab := ocst_tabs (F := F) htt (le_refl 12) hA hb itermax (small := fun v => v.1 ≤ 5 / 10 ^ 308) (fun _ hx => hx) fF η L ρ h.1 M0 M1 C
  have hT := cfgFt_tab (F := F) htt itermax fF
  have hS := cfgFt_scal (F := F) t itermax fF
  have hG0 : 0 ≤ G := by rw [eG]; exact hok.G0
  have hκ0 : 0 ≤ κ := by rw [eκ]; exact hok.κ0
  have hG' : 0 ≤ G + κ / h.1 := add_nonneg hG0 (div_nonneg hκ0 hh.le)
  have e00 : 0 ≤ e0 := (norm_nonneg _).trans he0
  have hinv0 : Inv (cfgFt F t itermax fF) st0 := (construct_inv hT hS hst).1
  clear hst
  suffices Inv (cfgFt F t itermax fF) st ∧ ‖val u - y (N * h.1)‖ ≤
      Real.exp (2 * (1 + 1 / 10 ^ 11) * L * (N * h.1)) * (e0 + N * h.1 * (G + κ / h.1)) from this.2
  induction hrun with
  | zero => exact ⟨hinv0, by simpa using he0⟩
  | @succ N u0 st0 u st u' st' hrun hs ih =>
    have hN' : N * h.1 ≤ T := by push_cast at hN; linarith
    obtain ⟨i1, i3⟩ := ih he0 hN' hinv0
    have hNh : N * h.1 + h.1 ≤ T := by push_cast at hN; linarith
    have hN0 : 0 ≤ N * h.1 := by positivity
    have hbig : Real.exp (2 * (1 + 1 / 10 ^ 11) * L * (N * h.1)) * (e0 + N * h.1 * (G + κ / h.1)) ≤
        Real.exp (2 * (1 + 1 / 10 ^ 11) * L * T) * (e0 + T * (G + κ / h.1)) := by
      refine mul_le_mul (Real.exp_le_exp.2 ?_) ?_ (by positivity) (Real.exp_pos _).le
      · exact mul_le_mul_of_nonneg_left hN' (by positivity)
      · linarith [mul_le_mul_of_nonneg_right hN' hG']
    have hmem : N * h.1 ∈ Set.Icc 0 T := ⟨hN0, hN'⟩
    obtain ⟨k1, q1, q2, q3⟩ := hloc (N * h.1) h.1 hmem.1 hh.le hh0 (by linarith)
    obtain ⟨i1a, i1b⟩ := i1
    have inv' : Inv (cfgFt F t itermax fF) { st with e := fun _ => 0 } :=
      ⟨⟨i1a.1, i1a.2, i1a.3, i1a.4, i1a.5⟩, ⟨i1b.1, i1b.2, i1b.3⟩⟩
    have hz : val (fun _ => 0 : Fin n → F.T) = 0 := rfl
    have hs' := stepZ_step hs
    obtain ⟨s1, s2⟩ := step_order hT hS (fun _ => rfl) hok htab (f := f) (v := y (N * h.1))
      (v' := y (N * h.1 + h.1)) (hf.bound0 _ hmem) (hf.bound1 _ hmem) (hf.lip _ hmem)
      (fun x hx => hη x _ hmem hx) q1 q2 q3 inv' rfl hs'
      (e := Real.exp (2 * (1 + 1 / 10 ^ 11) * L * (N * h.1)) * (e0 + N * h.1 * (G + κ / h.1))) (by rw [hz, add_zero]; exact i3) (by rw [hz, norm_zero, ← eκ]; exact hκ0) (by
        show _ + (ocst F 12 t.s η L ρ h.1 M0 M1 C).κ + h.1 * (1 + 1 / 10 ^ 10) * (M1 + η) + (ocst F 12 t.s η L ρ h.1 M0 M1 C).r ≤ ρ
        rw [← eκ, ← er]
        linarith)
    obtain ⟨w1, w2, w3, -⟩ := step_cases hT hS inv' hs'
    refine ⟨⟨w1, w3.symm ▸ w2⟩, ?_⟩
    have e1 : N * h.1 + h.1 = ((N + 1 : ℕ) : ℝ) * h.1 := by push_cast; ring
    rw [e1, ← eG] at s1
    rw [← eκ] at s2
    have s3 : ‖val u' - y (((N + 1 : ℕ) : ℝ) * h.1)‖ ≤ (1 + 2 * (h.1 * (1 + 1 / 10 ^ 11) * L)) *
        (Real.exp (2 * (1 + 1 / 10 ^ 11) * L * (N * h.1)) * (e0 + N * h.1 * (G + κ / h.1))) + h.1 * (G + κ / h.1) := by
      have e : val u' - y (((N + 1 : ℕ) : ℝ) * h.1) = (val u' + val st'.e - y (((N + 1 : ℕ) : ℝ) * h.1)) - val st'.e := by abel
      rw [e]
      refine (norm_sub_le _ _).trans ((add_le_add s1 s2).trans_eq ?_)
      show (1 + 2 * (h.1 * (1 + 1 / 10 ^ 11) * L)) * _ + h.1 * G + κ = _
      rw [mul_add h.1 G, mul_div_cancel₀ _ hh.ne', add_assoc]
    have g := gronwall_step (N := N) (x := 2 * (h.1 * (1 + 1 / 10 ^ 11) * L)) (e0 := e0)
      (e := Real.exp (2 * (1 + 1 / 10 ^ 11) * L * (N * h.1)) * (e0 + N * h.1 * (G + κ / h.1))) (g := h.1 * (G + κ / h.1)) (by positivity)
      e00 (by positivity) (le_of_eq (by
        congr 1
        · congr 1; ring
        · ring)) s3
    refine g.trans_eq ?_
    congr 1
    · congr 1; ring
    · ring

end Odes.Symp

namespace Odes.Symp.Test

open Odes.Symp Spec.NBody

variable {P : Planets}

/-- C126: **order `2s` of the shipped program with the usual memory layout** on the problem of `N` bodies, as long as the solution
has no collision: every operation of Outer.hpp rounded, `delta`, `e` and a part of `a` overwritten in every iteration. -/
theorem planets_flat_partial {t : GTab} (ht : t ∈ gaussD) {y : ℝ → Fin (6 * P.nb) → ℝ} {T a M μ K ρ L V : ℝ} (hS : Sizes P μ K)
    (hT : 0 ≤ T) (hy : SolOn (field P) y 0 T) (ha : 0 < a) (hr : ∀ t ∈ Set.Icc 0 T, Far P a (y t)) (hM : ∀ t ∈ Set.Icc 0 T, ‖y t‖ ≤ M)
    (eρ : ρ = a / 8) (eL : L = 1 / μ + 112 * K / a ^ 3) (eV : V = (M + a / 8) / μ + 4 * K / a ^ 2) :
    ∃ h0 C : ℝ, 0 < h0 ∧ 0 ≤ C ∧
      ∀ (F : FP) (_ : 10 ≤ F.p) (_ : (35 + P.nb : ℕ) * F.eps ≤ 1 / 2) (itermax : ℤ) (c : PlanetsFl F P.nb) (_ : Computes c) (η : ℝ)
        (_ : η = F.eps * ((M + ρ) / μ + 8 * (35 + P.nb) * K / a ^ 2))
        (h : F.T) (_ : 0 < h.1) (_ : h.1 ≤ h0) (_ : h.1 * L ≤ 1 / 3)
        (junk st0 : St F.T (6 * P.nb)) (_ : construct (cfgFt F t itermax (planetsFl c)) junk = some (.ok st0))
        (u0 : Fin (6 * P.nb) → F.T) (e0 : ℝ) (_ : ‖val u0 - y 0‖ ≤ e0) (G κ r : ℝ) (_ : G = (ocst F 12 t.s η L ρ h.1 M V C).G)
        (_ : κ = (ocst F 12 t.s η L ρ h.1 M V C).κ) (_ : r = (ocst F 12 t.s η L ρ h.1 M V C).r)
        (_ : Real.exp (2 * (1 + 1 / 10 ^ 11) * L * T) * (e0 + T * (G + κ / h.1)) + κ + h.1 * (1 + 1 / 10 ^ 10) * (V + η) + r ≤ ρ)
        (z : St F.T (6 * P.nb) → Fin (6 * P.nb) → F.T) (N : ℕ) (u : Fin (6 * P.nb) → F.T) (st : St F.T (6 * P.nb))
        (_ : RunZ (cfgFt F t itermax (planetsFl c)) z h N u0 st0 u st) (_ : N * h.1 ≤ T),
        ‖val u - y (N * h.1)‖ ≤ Real.exp (2 * (1 + 1 / 10 ^ 11) * L * (N * h.1)) * (e0 + N * h.1 * (G + κ / h.1)) := by
  have hSm := planets_smoothly hS hy ha hr hM (2 * t.s)
  rw [← eρ, ← eL, show (M + ρ) / μ + 4 * K / a ^ 2 = V by rw [eV, eρ]] at hSm
  have hL0 : 0 ≤ L := by
    have := hS.pos
    have := hS.one
    rw [eL]; positivity
  obtain ⟨h0, C, p1, p2, p3⟩ := symp_zeroed_order ht hT hL0 hSm
  refine ⟨h0, C, p1, p2, ?_⟩
  intro F hp hN itermax c hc η eη h hh hh0 hhL junk st0 hst u0 e0 he0 G κ r eG eκ er hρ z N u st hrun hNT
  have hM0 : 0 ≤ M := (norm_nonneg _).trans (hM 0 ⟨le_rfl, hT⟩)
  have hρ0 : 0 < ρ := by rw [eρ]; positivity
  have hη : 0 ≤ η := by
    have := F.eps_pos
    have := hS.pos
    have := hS.one
    rw [eη]; positivity
  refine p3 F hp itermax (planetsFl c) η hη (fun x t ht hx => ?_) h hh hh0 hhL junk st0 hst u0 e0 he0 G κ r eG eκ er hρ z N u st hrun hNT
  rw [eη]
  refine planets_rounding hp hc hN hS ha ((hr t ht).near (by rw [← eρ]; exact hx)) ?_
  calc ‖val x‖ = ‖y t + (val x - y t)‖ := by congr 1; abel
    _ ≤ ‖y t‖ + ‖val x - y t‖ := norm_add_le _ _
    _ ≤ M + ρ := add_le_add (hM t ht) hx

end Odes.Symp.Test
