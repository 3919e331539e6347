import Verif.Props.RadauLin
import Verif.Props.RodasLin

/-!
# Radau5 on top of the matrix classes

The contract `LinSpec` of the theorems about Radau5 on linear systems is met by the models of
`Matrices<...>` with full and banded storage, LAPACK being the only remaining parameter.
(With Hessenberg reduction it is not: see Props/RadauHess.)
-/

namespace Odes.Radau

open Classical Odes.Mem Odes.Lapack Odes.Storage Odes.Spec
open Odes.Rodas (filled filled_cell SolvesR shift_sum)

variable {n : ℕ}

/-- a vector as a `fortranVector`. -/
noncomputable def bufOf (v : Fin n → ℝ) : Buf ℝ :=
  ⟨n, fun k => if h : 0 ≤ k ∧ k < n then v ⟨k.toNat, by omega⟩ else 0⟩

theorem bufOf_cell (v : Fin n → ℝ) (i : Fin n) : (bufOf v).cell i = v i := by
  show (if h : _ then _ else _) = _
  rw [dif_pos ⟨by omega, by omega⟩]
  congr

/-- state of the matrix object: `Jac` and the factors held by `E1`/`ipr` and `E2R`/`ipc`, as the
solvers they define. -/
structure Fac (n : ℕ) where
  jac : Buf ℝ
  fr : (Fin n → ℝ) → (Fin n → ℝ)
  fc : Buf ℝ → Buf ℝ

/-- `solvecomplex` (Matrices.hpp 94-113, 185-205) on vectors; failures of `zgetrs` do not occur for
valid factors. -/
noncomputable def solvec (n : ℕ) (junk : ℤ → ℝ) (fc : Buf ℝ → Buf ℝ) (r2 r3 : Fin n → ℝ) :
    (Fin n → ℝ) × (Fin n → ℝ) :=
  match solveComplex (n : ℤ) (fun z => some (fc z)) ⟨2 * n, junk⟩ (bufOf r2) (bufOf r3) with
  | some (.ok (a, b)) => (fun i => a.cell i, fun i => b.cell i)
  | _ => (r2, r3)

/-- full storage: assembly and LAPACK. -/
noncomputable def fullLin (n : ℕ) (junk : ℤ → ℝ) (lap : Buf ℝ → Option ((Fin n → ℝ) → Fin n → ℝ))
    (lapc : Buf ℝ → Option (Buf ℝ → Buf ℝ)) : Lin ℝ n where
  σ := Fac n
  load J s := { s with
    jac := filled (n * n) (faIdx n) (fun i j => 1 ≤ i ∧ i ≤ n ∧ 1 ≤ j ∧ j ≤ n) junk J }
  decomr fac s := (asmRealFull n fac ⟨n * n, junk⟩ s.jac).bind fun E =>
    (lap E).map fun f => { s with fr := f }
  decomc a b s := (asmComplexFull n a b ⟨2 * n * n, junk⟩ s.jac).bind fun E =>
    (lapc E).map fun f => { s with fc := f }
  solvereal s b := s.fr b
  solvecomplex s r2 r3 := solvec n junk s.fc r2 r3

/-- the solvers solve the system with matrix `(a+ib) I - J`. -/
def CSolves (n : ℕ) (a b : ℝ) (J : Matrix (Fin n) (Fin n) ℝ) (fc : Buf ℝ → Buf ℝ) : Prop :=
  ∀ z : Buf ℝ, z.size = 2 * n → (fc z).size = 2 * n ∧ ∀ i : Fin n,
    ∑ j : Fin n, ((if i = j then (⟨a, b⟩ : ℂ) else 0) - ((J i j : ℝ) : ℂ)) * vecC (fc z) (j + 1)
      = vecC z (i + 1)

theorem solvec_solves (hn : 0 < n) (junk : ℤ → ℝ) {a b : ℝ} {J : Matrix (Fin n) (Fin n) ℝ}
    {fc : Buf ℝ → Buf ℝ} (h : CSolves n a b J fc) (r2 r3 : Fin n → ℝ) :
    (a • (1 : Matrix (Fin n) (Fin n) ℝ) - J).mulVec (solvec n junk fc r2 r3).1
      - b • (solvec n junk fc r2 r3).2 = r2 ∧
    (a • (1 : Matrix (Fin n) (Fin n) ℝ) - J).mulVec (solvec n junk fc r2 r3).2
      + b • (solvec n junk fc r2 r3).1 = r3 := by
  obtain ⟨z, h1, h2, h3⟩ := interleave_spec (n := (n : ℤ)) (by omega) (bufOf r2) (bufOf r3)
    ⟨2 * n, junk⟩ rfl rfl rfl
  obtain ⟨s1, s2⟩ := h z h2
  obtain ⟨p, q, d1, d2, d3, d4⟩ := deinterleave_spec (n := (n : ℤ)) (by omega) (fc z) (bufOf r2)
    (bufOf r3) rfl rfl s1
  have e : solvec n junk fc r2 r3 = (fun i : Fin n => p.cell i, fun i : Fin n => q.cell i) := by
    unfold solvec solveComplex
    rw [h1, Option.bind_some]
    simp [d1]
  rw [e]
  have key : ∀ i : Fin n, ∑ j : Fin n, ((if i = j then (⟨a, b⟩ : ℂ) else 0) - ((J i j : ℝ) : ℂ))
      * (⟨p.cell j, q.cell j⟩ : ℂ) = ⟨r2 i, r3 i⟩ := by
    intro i
    have k1 := s2 i
    have k2 := h3 (i + 1) (by omega) (by omega)
    have k3 : vecC z (i + 1) = ⟨r2 i, r3 i⟩ := by
      unfold vecC
      rw [k2.1, k2.2]
      rw [show ((i : ℕ) : ℤ) + 1 - 1 = ((i : ℕ) : ℤ) by omega, bufOf_cell, bufOf_cell]
    rw [← k3, ← k1]
    refine Finset.sum_congr rfl fun j _ => ?_
    have k4 := d4 (j + 1) (by omega) (by omega)
    rw [show ((j : ℕ) : ℤ) + 1 - 1 = ((j : ℕ) : ℤ) by omega] at k4
    unfold vecC
    rw [k4.1, k4.2, show ((j : ℕ) : ℤ) + 1 - 1 = ((j : ℕ) : ℤ) by omega]
  constructor
  · funext i
    have := congrArg Complex.re (key i)
    rw [Complex.re_sum] at this
    dsimp only at this
    rw [← this]
    have e1 : ∀ j : Fin n, (((if i = j then (⟨a, b⟩ : ℂ) else 0) - ((J i j : ℝ) : ℂ))
        * (⟨p.cell j, q.cell j⟩ : ℂ)).re = (a • (1 : Matrix (Fin n) (Fin n) ℝ) - J) i j * p.cell j
          - (if i = j then b * q.cell j else 0) := by
      intro j
      by_cases hij : i = j
      · subst hij; simp
      · simp [hij]
    rw [Finset.sum_congr rfl fun j _ => e1 j, Finset.sum_sub_distrib, Finset.sum_ite_eq]
    simp [Matrix.mulVec, dotProduct]
  · funext i
    have := congrArg Complex.im (key i)
    rw [Complex.im_sum] at this
    dsimp only at this
    rw [← this]
    have e1 : ∀ j : Fin n, (((if i = j then (⟨a, b⟩ : ℂ) else 0) - ((J i j : ℝ) : ℂ))
        * (⟨p.cell j, q.cell j⟩ : ℂ)).im = (a • (1 : Matrix (Fin n) (Fin n) ℝ) - J) i j * q.cell j
          + (if i = j then b * p.cell j else 0) := by
      intro j
      by_cases hij : i = j
      · subst hij; simp
      · simp [hij]
    rw [Finset.sum_congr rfl fun j _ => e1 j, Finset.sum_add_distrib, Finset.sum_ite_eq]
    simp [Matrix.mulVec, dotProduct]

theorem sum_icc (f : ℤ → ℂ) : ∑ j ∈ Finset.Icc (1 : ℤ) n, f j = ∑ j : Fin n, f (j + 1) := by
  symm
  refine Finset.sum_bij (fun (j : Fin n) _ => ((j : ℕ) : ℤ) + 1) ?_ ?_ ?_ ?_
  · intro j _; rw [Finset.mem_Icc]; omega
  · intro i _ j _ h; apply Fin.ext; omega
  · intro b hb
    rw [Finset.mem_Icc] at hb
    exact ⟨⟨(b - 1).toNat, by omega⟩, Finset.mem_univ _, by simp; omega⟩
  · intro j _; rfl

/-- the contract is met by the full storage class, for every size and every Jacobian. -/
noncomputable def full_spec (hn : 0 < n) (junk : ℤ → ℝ) {lap lapc}
    (hl : SolvesR n (fun E i j => E.cell (ge n i j)) lap)
    (hc : SolvesC n (geC n) (fun E z => (lapc E).map (· z))) :
    LinSpec (fullLin n junk lap lapc) (fun _ => True) where
  R J s := s.jac.size = n * n ∧ ∀ i j : Fin n, s.jac.cell (faIdx n (i + 1) (j + 1)) = J i j
  real fac J s := ∀ b, (fac • (1 : Matrix (Fin n) (Fin n) ℝ) - J).mulVec (s.fr b) = b
  cplx a b J s := CSolves n a b J s.fc
  load J s _ := ⟨rfl, fun i j => filled_cell (idx := faIdx n)
    (ok := fun i j => 1 ≤ i ∧ i ≤ n ∧ 1 ≤ j ∧ j ≤ n) junk J (fun i j i' j' h h' e =>
    fa_inj h.1 h.2.1 h'.1 h'.2.1 e) i j ⟨by omega, by omega, by omega, by omega⟩⟩
  decomr J s fac s' hR h := by
    obtain ⟨E, e1, e2, e3⟩ := asmRealFull_spec (n := (n : ℤ)) (by omega) fac ⟨n * n, junk⟩ s.jac rfl
      hR.1
    change (asmRealFull n fac ⟨n * n, junk⟩ s.jac).bind _ = _ at h
    rw [e1, Option.bind_some] at h
    cases hf : lap E with
    | none => rw [hf] at h; simp at h
    | some f =>
      rw [hf] at h
      rw [Option.map_some] at h
      injection h with h
      subst h
      refine ⟨hR, fun b => shift_sum fac J (fun i j => E.cell (ge n i j)) (fun i j => ?_) (f b) b
        (fun i => hl E f hf b i)⟩
      obtain ⟨v, v1, v2⟩ := e3 (i + 1) (j + 1) (by omega) (by omega) (by omega) (by omega)
      unfold faGet at v1
      rw [Buf.rd] at v1
      split_ifs at v1
      injection v1 with v1
      rw [hR.2] at v1
      rw [v2, ← v1]
      congr 1
      by_cases hij : i = j
      · rw [if_pos (by rw [hij]), if_pos hij]
      · rw [if_neg (fun h => hij (Fin.ext (by omega))), if_neg hij]
  decomc J s a b s' fac hR hr h := by
    obtain ⟨E, e1, e2, e3⟩ := asmComplexFull_spec (n := (n : ℤ)) (by omega) a b ⟨2 * n * n, junk⟩ s.jac
      rfl hR.1
    change (asmComplexFull n a b ⟨2 * n * n, junk⟩ s.jac).bind _ = _ at h
    rw [e1, Option.bind_some] at h
    cases hf : lapc E with
    | none => rw [hf] at h; simp at h
    | some f =>
      rw [hf] at h
      rw [Option.map_some] at h
      injection h with h
      subst h
      refine ⟨hR, hr, fun z hz => ?_⟩
      obtain ⟨k1, k2⟩ := hc E z (f z) (by dsimp only; rw [hf]; rfl) hz
      refine ⟨k1, fun i => ?_⟩
      rw [← k2 (i + 1) (by omega) (by omega), sum_icc]
      refine Finset.sum_congr rfl fun j _ => ?_
      congr 1
      obtain ⟨v, v1, v2, v3⟩ := e3 (i + 1) (j + 1) (by omega) (by omega) (by omega) (by omega)
      unfold faGet at v1
      rw [Buf.rd] at v1
      split_ifs at v1
      injection v1 with v1
      rw [hR.2] at v1
      unfold geC
      rw [v2, v3, ← v1]
      by_cases hij : i = j
      · subst hij; apply Complex.ext <;> simp
      · have hij' : ¬ ((i : ℕ) : ℤ) + 1 = ((j : ℕ) : ℤ) + 1 := fun h => hij (Fin.ext (by omega))
        rw [if_neg hij, if_neg hij', if_neg hij']
        apply Complex.ext <;> simp
  solvereal J fac s r h := h r
  solvecomplex J a b s r2 r3 h := solvec_solves hn junk h r2 r3

/-- banded storage: assembly and LAPACK. -/
noncomputable def bandLin (n : ℕ) (kl ku : ℤ) (junk : ℤ → ℝ)
    (lap : Buf ℝ → Option ((Fin n → ℝ) → Fin n → ℝ))
    (lapc : Buf ℝ → Option (Buf ℝ → Buf ℝ)) : Lin ℝ n where
  σ := Fac n
  load J s := { s with jac := filled (ldab kl ku * n) (frIdx kl ku) (InBand n kl ku) junk J }
  decomr fac s := (asmRealBand n kl ku fac ⟨ldab kl ku * n, junk⟩ s.jac).bind fun E =>
    (lap E).map fun f => { s with fr := f }
  decomc a b s := (asmComplexBand n kl ku a b ⟨2 * ldab kl ku * n, junk⟩ s.jac).bind fun E =>
    (lapc E).map fun f => { s with fc := f }
  solvereal s b := s.fr b
  solvecomplex s r2 r3 := solvec n junk s.fc r2 r3

/-- the contract is met by the banded storage class for matrices which are zero outside of the
band. -/
noncomputable def band_spec (hn : 0 < n) {kl ku : ℤ} (hkl : 0 ≤ kl) (hku : 0 ≤ ku) (junk : ℤ → ℝ)
    {lap lapc}
    (hl : SolvesR n (fun E i j => if InBand n kl ku i j then E.cell (gb kl ku i j) else 0) lap)
    (hc : SolvesC n (gbC n kl ku) (fun E z => (lapc E).map (· z))) :
    LinSpec (bandLin n kl ku junk lap lapc)
      (fun J => ∀ i j : Fin n, ¬ InBand n kl ku (i + 1) (j + 1) → J i j = 0) where
  R J s := s.jac.size = ldab kl ku * n ∧ ∀ i j : Fin n,
    (InBand n kl ku (i + 1) (j + 1) → s.jac.cell (frIdx kl ku (i + 1) (j + 1)) = J i j) ∧
    (¬ InBand n kl ku (i + 1) (j + 1) → J i j = 0)
  real fac J s := ∀ b, (fac • (1 : Matrix (Fin n) (Fin n) ℝ) - J).mulVec (s.fr b) = b
  cplx a b J s := CSolves n a b J s.fc
  load J s hJ := ⟨rfl, fun i j => ⟨fun h => filled_cell junk J (fun i j i' j' h h' e =>
    (band_injective hkl hku h h').1 e) i j h, hJ i j⟩⟩
  decomr J s fac s' hR h := by
    obtain ⟨E, e1, e2, e3⟩ := asmRealBand_spec (n := (n : ℤ)) (by omega) hkl hku fac
      ⟨ldab kl ku * n, junk⟩ s.jac rfl hR.1
    change (asmRealBand n kl ku fac ⟨ldab kl ku * n, junk⟩ s.jac).bind _ = _ at h
    rw [e1, Option.bind_some] at h
    cases hf : lap E with
    | none => rw [hf] at h; simp at h
    | some f =>
      rw [hf] at h
      rw [Option.map_some] at h
      injection h with h
      subst h
      refine ⟨hR, fun b => shift_sum fac J
        (fun i j => if InBand n kl ku i j then E.cell (gb kl ku i j) else 0) (fun i j => ?_) (f b) b
        (fun i => hl E f hf b i)⟩
      by_cases hb : InBand n kl ku (i + 1) (j + 1)
      · rw [if_pos hb]
        obtain ⟨v, v1, v2⟩ := e3 _ _ hb
        unfold frGet at v1
        rw [Buf.rd] at v1
        split_ifs at v1
        injection v1 with v1
        rw [(hR.2 i j).1 hb] at v1
        rw [v2, ← v1]
        congr 1
        by_cases hij : i = j
        · rw [if_pos (by rw [hij]), if_pos hij]
        · rw [if_neg (fun h => hij (Fin.ext (by omega))), if_neg hij]
      · rw [if_neg hb, (hR.2 i j).2 hb, if_neg, sub_zero]
        rintro rfl
        exact hb ⟨by omega, by omega, by omega, by omega, by omega, by omega⟩
  decomc J s a b s' fac hR hr h := by
    obtain ⟨E, e1, e2, e3⟩ := asmComplexBand_spec (n := (n : ℤ)) (by omega) hkl hku a b
      ⟨2 * ldab kl ku * n, junk⟩ s.jac rfl hR.1
    change (asmComplexBand n kl ku a b ⟨2 * ldab kl ku * n, junk⟩ s.jac).bind _ = _ at h
    rw [e1, Option.bind_some] at h
    cases hf : lapc E with
    | none => rw [hf] at h; simp at h
    | some f =>
      rw [hf] at h
      rw [Option.map_some] at h
      injection h with h
      subst h
      refine ⟨hR, hr, fun z hz => ?_⟩
      obtain ⟨k1, k2⟩ := hc E z (f z) (by dsimp only; rw [hf]; rfl) hz
      refine ⟨k1, fun i => ?_⟩
      rw [← k2 (i + 1) (by omega) (by omega), sum_icc]
      refine Finset.sum_congr rfl fun j _ => ?_
      congr 1
      unfold gbC
      by_cases hb : InBand n kl ku (i + 1) (j + 1)
      · rw [if_pos hb]
        obtain ⟨v, v1, v2, v3⟩ := e3 _ _ hb
        unfold frGet at v1
        rw [Buf.rd] at v1
        split_ifs at v1
        injection v1 with v1
        rw [(hR.2 i j).1 hb] at v1
        rw [v2, v3, ← v1]
        by_cases hij : i = j
        · subst hij; apply Complex.ext <;> simp
        · have hij' : ¬ ((i : ℕ) : ℤ) + 1 = ((j : ℕ) : ℤ) + 1 := fun h => hij (Fin.ext (by omega))
          rw [if_neg hij, if_neg hij', if_neg hij']
          apply Complex.ext <;> simp
      · rw [if_neg hb, (hR.2 i j).2 hb, if_neg]
        · simp
        · rintro rfl
          exact hb ⟨by omega, by omega, by omega, by omega, by omega, by omega⟩
  solvereal J fac s r h := h r
  solvecomplex J a b s r2 r3 h := solvec_solves hn junk h r2 r3

/-- C34 with the matrix classes in place of the abstract contract, full storage: for every size,
Jacobian, step size, previous contents of the work arrays and starting values. -/
theorem radau_full_newton (hn : 0 < n) (junk : ℤ → ℝ) {lap lapc}
    (hl : SolvesR n (fun E i j => E.cell (ge n i j)) lap)
    (hc : SolvesC n (geC n) (fun E z => (lapc E).map (· z))) {P : Prob ℝ n} {c : Consts ℝ}
    {A : Matrix (Fin 3) (Fin 3) ℝ} (hA : Exact c A) {x h : ℝ} (hh : h ≠ 0) {Y : Fin n → ℝ}
    {s0 s' : Fac n} {J : Matrix (Fin n) (Fin n) ℝ} {g : ℝ → Fin n → ℝ}
    (hF : ∀ x y, P.F x y = J.mulVec y + g x)
    (hd : newtonMatrices (fullLin n junk lap lapc) c h ((fullLin n junk lap lapc).load J s0) = some s')
    (Z : Tri ℝ n) :
    RKStages A ![c.C1, c.C2, 1] P.F x h Y
      (newtonOnce (fullLin n junk lap lapc) P c x (x + h) h Y s' Z (forth c Z)).mat :=
  radau_newton_linear (full_spec hn junk hl hc) hA hh hF ((full_spec hn junk hl hc).load J s0 trivial)
    hd Z

/-- banded storage. -/
theorem radau_band_newton (hn : 0 < n) {kl ku : ℤ} (hkl : 0 ≤ kl) (hku : 0 ≤ ku) (junk : ℤ → ℝ)
    {lap lapc}
    (hl : SolvesR n (fun E i j => if InBand n kl ku i j then E.cell (gb kl ku i j) else 0) lap)
    (hc : SolvesC n (gbC n kl ku) (fun E z => (lapc E).map (· z))) {P : Prob ℝ n} {c : Consts ℝ}
    {A : Matrix (Fin 3) (Fin 3) ℝ} (hA : Exact c A) {x h : ℝ} (hh : h ≠ 0) {Y : Fin n → ℝ}
    {s0 s' : Fac n} {J : Matrix (Fin n) (Fin n) ℝ}
    (hJ : ∀ i j : Fin n, ¬ InBand n kl ku (i + 1) (j + 1) → J i j = 0) {g : ℝ → Fin n → ℝ}
    (hF : ∀ x y, P.F x y = J.mulVec y + g x)
    (hd : newtonMatrices (bandLin n kl ku junk lap lapc) c h
      ((bandLin n kl ku junk lap lapc).load J s0) = some s') (Z : Tri ℝ n) :
    RKStages A ![c.C1, c.C2, 1] P.F x h Y
      (newtonOnce (bandLin n kl ku junk lap lapc) P c x (x + h) h Y s' Z (forth c Z)).mat :=
  radau_newton_linear (band_spec hn hkl hku junk hl hc) hA hh hF
    ((band_spec hn hkl hku junk hl hc).load J s0 hJ) hd Z

/-- the contract of `zgetrf`/`zgetrs` can be met, for every size and with a solver which succeeds on
every regular matrix. -/
theorem zgetrf_exists (n : ℕ) (ent : Buf ℝ → ℤ → ℤ → ℂ) : ∃ lapc : Buf ℝ → Option (Buf ℝ → Buf ℝ),
    SolvesC n ent (fun E z => (lapc E).map (· z)) ∧
    ∀ E, (Matrix.of fun i j : Fin n => ent E (i + 1) (j + 1)).det ≠ 0 → (lapc E).isSome := by
  let M : Buf ℝ → Matrix (Fin n) (Fin n) ℂ := fun E => Matrix.of fun i j => ent E (i + 1) (j + 1)
  let out : (Fin n → ℂ) → Buf ℝ := fun w => ⟨2 * n, fun k =>
    if h : 0 ≤ k ∧ k < 2 * n then
      (if k % 2 = 0 then (w ⟨(k / 2).toNat, by omega⟩).re else (w ⟨(k / 2).toNat, by omega⟩).im)
    else 0⟩
  refine ⟨fun E => if (M E).det ≠ 0 then
    some (fun z => out ((M E)⁻¹.mulVec fun i => vecC z (i + 1))) else none, ?_, ?_⟩
  · intro E z z' h hz
    dsimp only at h
    split_ifs at h with hd
    · rw [Option.map_some] at h
      injection h with h
      subst h
      refine ⟨rfl, fun i h1 h2 => ?_⟩
      rw [sum_icc]
      have hv : ∀ (w : Fin n → ℂ) (j : Fin n), vecC (out w) (j + 1) = w j := by
        intro w j
        have q : ((j : ℕ) : ℤ) + 1 - 1 = j := by omega
        have c1 : (out w).cell (2 * (j : ℕ)) = (w j).re := by
          show (if h : _ then _ else _) = _
          rw [dif_pos ⟨by omega, by omega⟩, if_pos (by omega)]
          congr 2
          apply Fin.ext
          show ((2 * ((j : ℕ) : ℤ)) / 2).toNat = j
          omega
        have c2 : (out w).cell (2 * (j : ℕ) + 1) = (w j).im := by
          show (if h : _ then _ else _) = _
          rw [dif_pos ⟨by omega, by omega⟩, if_neg (by omega)]
          congr 2
          apply Fin.ext
          show ((2 * ((j : ℕ) : ℤ) + 1) / 2).toNat = j
          omega
        unfold vecC re im
        rw [q, c1, c2]
      have hi : ((⟨(i - 1).toNat, by omega⟩ : Fin n) : ℕ) = (i - 1).toNat := rfl
      have e := congrFun (show (M E).mulVec ((M E)⁻¹.mulVec fun i => vecC z (i + 1))
          = fun i : Fin n => vecC z (i + 1) by
        rw [Matrix.mulVec_mulVec, Matrix.mul_nonsing_inv _ (isUnit_iff_ne_zero.2 hd),
          Matrix.one_mulVec]) ⟨(i - 1).toNat, by omega⟩
      have hi2 : (((i - 1).toNat : ℕ) : ℤ) + 1 = i := by omega
      dsimp only at e
      rw [hi2] at e
      rw [← e]
      refine Finset.sum_congr rfl fun j _ => ?_
      dsimp only
      rw [hv]
      show _ = ent E ((((i - 1).toNat : ℕ) : ℤ) + 1) (j + 1) * _
      rw [hi2]
    · simp at h
  · intro E h
    have : (M E).det ≠ 0 := h
    simp [this]

/-- the hypotheses of `radau_full_newton` are met, for example by `y' = -y`, any `n`, `h = 1`. -/
example (hn : 0 < n) (junk : ℤ → ℝ) (s0 : Fac n) : ∃ lap lapc c s',
    SolvesR n (fun E i j => E.cell (ge n i j)) lap ∧
    SolvesC n (geC n) (fun E z => (lapc E).map (· z)) ∧ Exact c radauA ∧
    newtonMatrices (fullLin n junk lap lapc) c 1
      ((fullLin n junk lap lapc).load (-1 : Matrix (Fin n) (Fin n) ℝ) s0) = some s' := by
  obtain ⟨c, hc, h1, h2, h3, h4, h5⟩ := radau_exact_constants radauA_collocation
  obtain ⟨lapc, hs, hd⟩ := zgetrf_exists n (geC n)
  let M : Buf ℝ → Matrix (Fin n) (Fin n) ℝ := fun E => Matrix.of fun i j => E.cell (ge n (i + 1) (j + 1))
  let lap : Buf ℝ → Option ((Fin n → ℝ) → Fin n → ℝ) := fun E =>
    if (M E).det ≠ 0 then some (Matrix.mulVec (M E)⁻¹) else none
  have hl : SolvesR n (fun E i j => E.cell (ge n i j)) lap := by
    intro E f h b i
    simp only [lap] at h
    split_ifs at h with hd
    injection h with h
    subst h
    have e : (M E).mulVec ((M E)⁻¹.mulVec b) = b := by
      rw [Matrix.mulVec_mulVec, Matrix.mul_nonsing_inv _ (isUnit_iff_ne_zero.2 hd), Matrix.one_mulVec]
    exact congrFun e i
  have hR := (full_spec hn junk hl hs).load (-1) s0 trivial
  obtain ⟨E, e1, e2, e3⟩ := asmRealFull_spec (n := (n : ℤ)) (by omega) (c.U1 / 1) ⟨n * n, junk⟩
    ((fullLin n junk lap lapc).load (-1 : Matrix (Fin n) (Fin n) ℝ) s0).jac rfl hR.1
  obtain ⟨E', e1', e2', e3'⟩ := asmComplexFull_spec (n := (n : ℤ)) (by omega) (c.ALPH / 1) (c.BETA / 1)
    ⟨2 * n * n, junk⟩ ((fullLin n junk lap lapc).load (-1 : Matrix (Fin n) (Fin n) ℝ) s0).jac rfl hR.1
  have hU := U1_enc.1
  have hB := BETA_ne
  have cell : ∀ (i j : Fin n) v, faGet n ((fullLin n junk lap lapc).load
      (-1 : Matrix (Fin n) (Fin n) ℝ) s0).jac (i + 1) (j + 1) = some v →
      v = (-1 : Matrix (Fin n) (Fin n) ℝ) i j := by
    intro i j v v1
    unfold faGet at v1
    rw [Buf.rd] at v1
    split_ifs at v1
    injection v1 with v1
    rw [← v1]
    exact hR.2 i j
  have hdet : (M E).det ≠ 0 := by
    have : M E = (c.U1 + 1) • (1 : Matrix (Fin n) (Fin n) ℝ) := by
      ext i j
      obtain ⟨v, v1, v2⟩ := e3 (i + 1) (j + 1) (by omega) (by omega) (by omega) (by omega)
      rw [cell i j v v1] at v2
      refine v2.trans ?_
      by_cases hij : i = j
      · subst hij; simp
      · have hij' : ¬ ((i : ℕ) : ℤ) + 1 = ((j : ℕ) : ℤ) + 1 := fun h => hij (Fin.ext (by omega))
        simp [hij, hij']
    rw [this, Matrix.det_smul, Matrix.det_one, mul_one]
    apply pow_ne_zero
    rw [h3]
    linarith
  have hdet' : (Matrix.of fun i j : Fin n => geC n E' (i + 1) (j + 1)).det ≠ 0 := by
    have : (Matrix.of fun i j : Fin n => geC n E' (i + 1) (j + 1))
        = (⟨c.ALPH + 1, c.BETA⟩ : ℂ) • (1 : Matrix (Fin n) (Fin n) ℂ) := by
      ext i j
      obtain ⟨v, v1, v2, v3⟩ := e3' (i + 1) (j + 1) (by omega) (by omega) (by omega) (by omega)
      rw [cell i j v v1] at v2
      rw [Matrix.of_apply]
      unfold geC
      rw [v2, v3]
      by_cases hij : i = j
      · subst hij; apply Complex.ext <;> simp
      · have hij' : ¬ ((i : ℕ) : ℤ) + 1 = ((j : ℕ) : ℤ) + 1 := fun h => hij (Fin.ext (by omega))
        apply Complex.ext <;> simp [hij, hij']
    rw [this, Matrix.det_smul, Matrix.det_one, mul_one]
    apply pow_ne_zero
    intro h0
    have := congrArg Complex.im h0
    simp at this
    exact hB (h5 ▸ this)
  obtain ⟨f, hf⟩ := Option.isSome_iff_exists.1 (hd E' hdet')
  refine ⟨lap, lapc, c, { (fullLin n junk lap lapc).load (-1 : Matrix (Fin n) (Fin n) ℝ) s0 with
    fr := Matrix.mulVec (M E)⁻¹, fc := f }, hl, hs, hc, ?_⟩
  have r1 : (fullLin n junk lap lapc).decomr (c.U1 / 1)
      ((fullLin n junk lap lapc).load (-1 : Matrix (Fin n) (Fin n) ℝ) s0)
      = some { (fullLin n junk lap lapc).load (-1 : Matrix (Fin n) (Fin n) ℝ) s0 with
        fr := Matrix.mulVec (M E)⁻¹ } := by
    show (asmRealFull n _ _ _).bind _ = _
    rw [e1, Option.bind_some]
    have : lap E = some (Matrix.mulVec (M E)⁻¹) := if_pos hdet
    rw [this]; rfl
  refine (congrArg (fun o => Option.bind o fun s =>
    (fullLin n junk lap lapc).decomc (c.ALPH / 1) (c.BETA / 1) s) r1).trans ?_
  show (asmComplexFull n _ _ _ _).bind _ = _
  rw [e1', Option.bind_some, hf]
  rfl

end Odes.Radau
