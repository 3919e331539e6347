import Verif.Props.Rodas
import Verif.Props.Storage
import Verif.Props.Hessenberg

/-!
# Rodas on top of the matrix classes

The contract `LinSpec` assumed for the linear algebra in the theorems about Rodas is met by the
models of `Matrices<...>` with full storage, banded storage and Hessenberg reduction, LAPACK being
the only remaining parameter.
-/

namespace Odes.Rodas

open Classical Odes.Mem Odes.Lapack Odes.Storage

variable {K : Type} [Field K] {n : ℕ}

/-- a buffer whose cell `idx i j` holds `J i j` for the pairs in `ok`; arbitrary elsewhere. -/
noncomputable def filled (size : ℤ) (idx : ℤ → ℤ → ℤ) (ok : ℤ → ℤ → Prop) (junk : ℤ → K)
    (J : Fin n → Fin n → K) : Buf K :=
  ⟨size, fun k => if h : ∃ p : Fin n × Fin n, ok (p.1 + 1) (p.2 + 1) ∧ idx (p.1 + 1) (p.2 + 1) = k then
    J h.choose.1 h.choose.2 else junk k⟩

omit [Field K] in
theorem filled_cell {size : ℤ} {idx : ℤ → ℤ → ℤ} {ok : ℤ → ℤ → Prop} (junk : ℤ → K)
    (J : Fin n → Fin n → K)
    (hinj : ∀ i j i' j', ok i j → ok i' j' → idx i j = idx i' j' → i = i' ∧ j = j') (i j : Fin n)
    (h : ok (i + 1) (j + 1)) : (filled size idx ok junk J).cell (idx (i + 1) (j + 1)) = J i j := by
  have hex : ∃ p : Fin n × Fin n, ok (p.1 + 1) (p.2 + 1) ∧
      idx (p.1 + 1) (p.2 + 1) = idx (i + 1) (j + 1) := ⟨(i, j), h, rfl⟩
  show (if h : _ then _ else _) = _
  rw [dif_pos hex]
  obtain ⟨h1, h2⟩ := hinj _ _ _ _ hex.choose_spec.1 h hex.choose_spec.2
  have e1 : hex.choose.1 = i := by apply Fin.ext; omega
  have e2 : hex.choose.2 = j := by apply Fin.ext; omega
  rw [e1, e2]

/-- contract of LAPACK's factorise + solve pairs (`dgetrf`/`dgetrs`, `dgbtrf`/`dgbtrs`): when the
factorisation of the array `E` succeeds, the solver solves the system with the entries `ent E`. -/
def SolvesR (n : ℕ) (ent : Buf K → ℤ → ℤ → K)
    (lap : Buf K → Option ((Fin n → K) → Fin n → K)) : Prop :=
  ∀ E f, lap E = some f → ∀ (b : Fin n → K) (i : Fin n), ∑ j : Fin n, ent E (i + 1) (j + 1) * f b j = b i

/-- full storage: `decomr` = assembly (Matrices.hpp 49-50) followed by LAPACK; `E1` starts with
arbitrary contents. -/
noncomputable def fullLin (n : ℕ) (junk : ℤ → K)
    (lap : Buf K → Option ((Fin n → K) → Fin n → K)) : Lin K n where
  σ := Buf K × ((Fin n → K) → Fin n → K)
  load J := (filled (n * n) (faIdx n) (fun i j => 1 ≤ i ∧ i ≤ n ∧ 1 ≤ j ∧ j ≤ n) junk J, id)
  decomr fac s := (asmRealFull n fac ⟨n * n, junk⟩ s.1).bind fun E => (lap E).map fun f => (s.1, f)
  solvereal s b := s.2 b

omit [Field K] in
theorem shift_sum [Field K] (fac : K) (J : Fin n → Fin n → K) (M : ℤ → ℤ → K)
    (hM : ∀ i j : Fin n, M (i + 1) (j + 1) = (if i = j then fac else 0) - J i j) (z b : Fin n → K)
    (h : ∀ i : Fin n, ∑ j : Fin n, M (i + 1) (j + 1) * z j = b i) :
    (fac • (1 : Matrix (Fin n) (Fin n) K) - Matrix.of J).mulVec z = b := by
  funext i
  rw [← h i]
  show ∑ j : Fin n, _ * _ = _
  refine Finset.sum_congr rfl fun j _ => ?_
  rw [hM]
  congr 1
  simp only [Matrix.sub_apply, Matrix.smul_apply, Matrix.one_apply, Matrix.of_apply, smul_eq_mul,
    mul_ite, mul_one, mul_zero]

/-- the contract is met by the full storage class, for every size and every Jacobian. -/
noncomputable def full_spec (hn : 0 < n) (junk : ℤ → K) {lap}
    (hl : SolvesR n (fun E i j => E.cell (ge n i j)) lap) :
    LinSpec (fullLin n junk lap) (fun _ => True) where
  R J s := s.1.size = n * n ∧ ∀ i j : Fin n, s.1.cell (faIdx n (i + 1) (j + 1)) = J i j
  load J _ := ⟨rfl, fun i j => filled_cell (idx := faIdx n)
    (ok := fun i j => 1 ≤ i ∧ i ≤ n ∧ 1 ≤ j ∧ j ≤ n) junk J (fun i j i' j' h h' e =>
    fa_inj h.1 h.2.1 h'.1 h'.2.1 e) i j ⟨by omega, by omega, by omega, by omega⟩⟩
  decomr J s fac s' hR h := by
    obtain ⟨E, e1, e2, e3⟩ := asmRealFull_spec (n := (n : ℤ)) (by omega) fac ⟨n * n, junk⟩ s.1 rfl hR.1
    change (asmRealFull n fac ⟨n * n, junk⟩ s.1).bind _ = _ at h
    rw [e1, Option.bind_some] at h
    cases hf : lap E with
    | none => rw [hf] at h; simp at h
    | some f =>
      rw [hf] at h
      rw [Option.map_some] at h
      injection h with h
      subst h
      refine ⟨hR, fun b => shift_sum fac J (fun i j => E.cell (ge n i j)) (fun i j => ?_) (f b) b
        (fun i => hl E f hf b i)⟩
      obtain ⟨v, v1, v2⟩ := e3 (i + 1) (j + 1) (by omega) (by omega) (by omega) (by omega)
      unfold faGet at v1
      rw [Buf.rd] at v1
      split_ifs at v1
      injection v1 with v1
      rw [hR.2] at v1
      rw [v2, ← v1]
      congr 1
      by_cases hij : i = j
      · rw [if_pos (by rw [hij]), if_pos hij]
      · rw [if_neg (fun h => hij (Fin.ext (by omega))), if_neg hij]

/-- banded storage, Matrices.hpp 149-150 and LAPACK. -/
noncomputable def bandLin (n : ℕ) (kl ku : ℤ) (junk : ℤ → K)
    (lap : Buf K → Option ((Fin n → K) → Fin n → K)) : Lin K n where
  σ := Buf K × ((Fin n → K) → Fin n → K)
  load J := (filled (ldab kl ku * n) (frIdx kl ku) (InBand n kl ku) junk J, id)
  decomr fac s := (asmRealBand n kl ku fac ⟨ldab kl ku * n, junk⟩ s.1).bind fun E =>
    (lap E).map fun f => (s.1, f)
  solvereal s b := s.2 b

/-- the contract is met by the banded storage class for matrices which are zero outside of the
band. -/
noncomputable def band_spec (hn : 0 < n) {kl ku : ℤ} (hkl : 0 ≤ kl) (hku : 0 ≤ ku) (junk : ℤ → K) {lap}
    (hl : SolvesR n (fun E i j => if InBand n kl ku i j then E.cell (gb kl ku i j) else 0) lap) :
    LinSpec (bandLin n kl ku junk lap)
      (fun J => ∀ i j : Fin n, ¬ InBand n kl ku (i + 1) (j + 1) → J i j = 0) where
  R J s := s.1.size = ldab kl ku * n ∧ ∀ i j : Fin n,
    (InBand n kl ku (i + 1) (j + 1) → s.1.cell (frIdx kl ku (i + 1) (j + 1)) = J i j) ∧
    (¬ InBand n kl ku (i + 1) (j + 1) → J i j = 0)
  load J hJ := ⟨rfl, fun i j => ⟨fun h => filled_cell junk J (fun i j i' j' h h' e =>
    (band_injective hkl hku h h').1 e) i j h, hJ i j⟩⟩
  decomr J s fac s' hR h := by
    obtain ⟨E, e1, e2, e3⟩ := asmRealBand_spec (n := (n : ℤ)) (by omega) hkl hku fac
      ⟨ldab kl ku * n, junk⟩ s.1 rfl hR.1
    change (asmRealBand n kl ku fac ⟨ldab kl ku * n, junk⟩ s.1).bind _ = _ at h
    rw [e1, Option.bind_some] at h
    cases hf : lap E with
    | none => rw [hf] at h; simp at h
    | some f =>
      rw [hf] at h
      rw [Option.map_some] at h
      injection h with h
      subst h
      refine ⟨hR, fun b => shift_sum fac J
        (fun i j => if InBand n kl ku i j then E.cell (gb kl ku i j) else 0) (fun i j => ?_) (f b) b
        (fun i => hl E f hf b i)⟩
      by_cases hb : InBand n kl ku (i + 1) (j + 1)
      · rw [if_pos hb]
        obtain ⟨v, v1, v2⟩ := e3 _ _ hb
        unfold frGet at v1
        rw [Buf.rd] at v1
        split_ifs at v1
        injection v1 with v1
        rw [(hR.2 i j).1 hb] at v1
        rw [v2, ← v1]
        congr 1
        by_cases hij : i = j
        · rw [if_pos (by rw [hij]), if_pos hij]
        · rw [if_neg (fun h => hij (Fin.ext (by omega))), if_neg hij]
      · rw [if_neg hb, (hR.2 i j).2 hb, if_neg, sub_zero]
        rintro rfl
        exact hb ⟨by omega, by omega, by omega, by omega, by omega, by omega⟩

/-! ### Hessenberg reduction -/

section hess

variable [LinearOrder K] [IsStrictOrderedRing K]

/-- one-based array of a matrix. -/
def arr (J : Fin n → Fin n → K) : ℤ → ℤ → K := fun i j =>
  if h : 1 ≤ i ∧ i ≤ n ∧ 1 ≤ j ∧ j ≤ n then J ⟨(i - 1).toNat, by omega⟩ ⟨(j - 1).toNat, by omega⟩ else 0

/-- one-based array of a vector. -/
def arr1 (b : Fin n → K) : ℤ → K := fun i =>
  if h : 1 ≤ i ∧ i ≤ n then b ⟨(i - 1).toNat, by omega⟩ else 0

omit [LinearOrder K] [IsStrictOrderedRing K] in
theorem mat_arr (J : Fin n → Fin n → K) : Hess.Spec.mat n (arr J) = Matrix.of J := by
  funext i j
  show arr J _ _ = _
  unfold arr
  rw [dif_pos ⟨by omega, by omega, by omega, by omega⟩]
  simp

omit [LinearOrder K] [IsStrictOrderedRing K] in
theorem vec_arr1 (b : Fin n → K) : Hess.Spec.vec n (arr1 b) = b := by
  funext i
  show arr1 b _ = _
  unfold arr1
  rw [dif_pos ⟨by omega, by omega⟩]
  simp

/-- `Matrices<true,true,...>` with LAPACK's `dgehrd` as parameter; `tau`, `E1`, `ipr` start with
arbitrary contents. Undefined behaviour is merged with failure here; it is excluded for `n >= 2` by
`decomr_cases`. -/
noncomputable def hessLin (n : ℕ) (tau0 : ℤ → K) (E0 : ℤ → ℤ → K) (ip0 : ℤ → ℤ)
    (gehrd : (ℤ → ℤ → K) → Option ((ℤ → ℤ → K) × (ℤ → K))) : Lin K n where
  σ := Hess.MR K
  load J := ⟨true, arr J, tau0, E0, ip0⟩
  decomr fac s := match Hess.decomr n gehrd fac s with
    | some (.ok s') => some s'
    | _ => none
  solvereal s b := if h : ∃ z, Hess.Solvereal n s (arr1 b) z then Hess.Spec.vec n h.choose else b

/-- the contract is met with Hessenberg reduction for every `n >= 2` and every Jacobian, although
`decomr` overwrites the Jacobian at the first call. -/
noncomputable def hess_spec (hn : 2 ≤ n) (tau0 : ℤ → K) (E0 : ℤ → ℤ → K) (ip0 : ℤ → ℤ)
    {gehrd : (ℤ → ℤ → K) → Option ((ℤ → ℤ → K) × (ℤ → K))}
    (hg : ∀ M, ∃ r, gehrd M = some r ∧ Hess.Spec.IsGehrd n M r.1 r.2) :
    LinSpec (hessLin n tau0 E0 ip0 gehrd) (fun _ => True) where
  R J s := if s.calhes then arr J = s.Jac else Hess.Spec.IsGehrd n (arr J) s.Jac s.tau
  load J _ := rfl
  decomr J s fac s' hR h := by
    rcases Hess.decomr_cases hn hg fac s hR with ⟨-, h1⟩ | ⟨-, s1, h1, h2, h3, -⟩
    · simp only [hessLin] at h; rw [h1] at h; simp at h
    · have hs : s1 = s' := by
        simp only [hessLin] at h; rw [h1] at h
        injection h
      subst hs
      refine ⟨by rw [h2]; exact h3, fun b => ?_⟩
      obtain ⟨k1, k2⟩ := Hess.solvereal_solves hn hg fac s hR h1 (arr1 b)
      have e : (hessLin n tau0 E0 ip0 gehrd).solvereal s1 b = Hess.Spec.vec n k1.choose := dif_pos k1
      rw [e, ← mat_arr, k2 _ k1.choose_spec, vec_arr1]

end hess

/-- C40 with the matrix classes in place of the abstract contract: one pass through the stages on
top of full storage, banded storage or Hessenberg reduction is a Rosenbrock step, for every size,
previous contents of the work arrays, right hand side and step size. -/
theorem rodas_full_stages (hn : 0 < n) (junk : ℤ → K) {lap}
    (hl : SolvesR n (fun E i j => E.cell (ge n i j)) lap) {P : Prob K n} {c : Coef K} {x h : K}
    {Y FX : Fin n → K} (J : Fin n → Fin n → K) {j : (fullLin n junk lap).σ} {k : Stages K n}
    (ha : attempt (fullLin n junk lap) P c x h Y (P.F x Y) FX ((fullLin n junk lap).load J) = some (j, k)) :
    (method c).Step P.F (Matrix.of J) (if P.autonms then 0 else FX) x h Y
      ![k.AK1, k.AK2, k.AK3, k.AK4, k.AK5, k.AK6] k.YNEW :=
  (rodas_stages (full_spec hn junk hl) P c x h Y FX ((full_spec hn junk hl).load J trivial) ha).2

theorem rodas_band_stages (hn : 0 < n) {kl ku : ℤ} (hkl : 0 ≤ kl) (hku : 0 ≤ ku) (junk : ℤ → K) {lap}
    (hl : SolvesR n (fun E i j => if InBand n kl ku i j then E.cell (gb kl ku i j) else 0) lap)
    {P : Prob K n} {c : Coef K} {x h : K} {Y FX : Fin n → K} (J : Fin n → Fin n → K)
    (hJ : ∀ i j : Fin n, ¬ InBand n kl ku (i + 1) (j + 1) → J i j = 0)
    {j : (bandLin n kl ku junk lap).σ} {k : Stages K n}
    (ha : attempt (bandLin n kl ku junk lap) P c x h Y (P.F x Y) FX
      ((bandLin n kl ku junk lap).load J) = some (j, k)) :
    (method c).Step P.F (Matrix.of J) (if P.autonms then 0 else FX) x h Y
      ![k.AK1, k.AK2, k.AK3, k.AK4, k.AK5, k.AK6] k.YNEW :=
  (rodas_stages (band_spec hn hkl hku junk hl) P c x h Y FX ((band_spec hn hkl hku junk hl).load J hJ) ha).2

theorem rodas_hess_stages [LinearOrder K] [IsStrictOrderedRing K] (hn : 2 ≤ n) (tau0 : ℤ → K)
    (E0 : ℤ → ℤ → K) (ip0 : ℤ → ℤ) {gehrd : (ℤ → ℤ → K) → Option ((ℤ → ℤ → K) × (ℤ → K))}
    (hg : ∀ M, ∃ r, gehrd M = some r ∧ Hess.Spec.IsGehrd n M r.1 r.2) {P : Prob K n} {c : Coef K}
    {x h : K} {Y FX : Fin n → K} (J : Fin n → Fin n → K) {j : (hessLin n tau0 E0 ip0 gehrd).σ}
    {k : Stages K n} (ha : attempt (hessLin n tau0 E0 ip0 gehrd) P c x h Y (P.F x Y) FX
      ((hessLin n tau0 E0 ip0 gehrd).load J) = some (j, k)) :
    (method c).Step P.F (Matrix.of J) (if P.autonms then 0 else FX) x h Y
      ![k.AK1, k.AK2, k.AK3, k.AK4, k.AK5, k.AK6] k.YNEW :=
  (rodas_stages (hess_spec hn tau0 E0 ip0 hg) P c x h Y FX ((hess_spec hn tau0 E0 ip0 hg).load J trivial) ha).2

/-- the contract of LAPACK can be met: the inverse matrix. -/
example (n : ℕ) : ∃ lap : Buf ℚ → Option ((Fin n → ℚ) → Fin n → ℚ),
    SolvesR n (fun E i j => E.cell (ge n i j)) lap ∧
    ∀ E, (Matrix.of fun i j : Fin n => E.cell (ge n (i + 1) (j + 1))).det ≠ 0 → (lap E).isSome := by
  refine ⟨fun E => if (Matrix.of fun i j : Fin n => E.cell (ge n (i + 1) (j + 1))).det ≠ 0 then
    some (Matrix.mulVec (Matrix.of fun i j : Fin n => E.cell (ge n (i + 1) (j + 1)))⁻¹) else none,
    ?_, fun E h => by simp [h]⟩
  intro E f h b i
  dsimp only at h
  split_ifs at h with hd
  injection h with h
  subst h
  have e : (Matrix.of fun i j : Fin n => E.cell (ge n (i + 1) (j + 1))).mulVec
      ((Matrix.of fun i j : Fin n => E.cell (ge n (i + 1) (j + 1)))⁻¹.mulVec b) = b := by
    rw [Matrix.mulVec_mulVec, Matrix.mul_nonsing_inv _ (isUnit_iff_ne_zero.2 hd), Matrix.one_mulVec]
  exact congrFun e i

end Odes.Rodas
