import Verif.Lemmas.StiffTest
import Mathlib.Analysis.Calculus.Deriv.Pow
import Mathlib.Tactic.FinCases

/-!
# Stiff test problems: right hand sides and Jacobians

C92 (right hand sides), C93 (Jacobians).
-/

namespace Odes.Stiff

open Odes.Mem Odes.Storage Spec.Heat

/-- the function computed by a right hand side: component `i` of the result for the array `y`. -/
noncomputable def field (n : ℤ) (rhs : Buf ℝ → Buf ℝ → Option (Buf ℝ)) (y : ℤ → ℝ) (i : ℤ) : ℝ :=
  ((rhs ⟨n, y⟩ ⟨n, fun _ => 0⟩).map fun r => r.cell i).getD 0

/-! ### KPP and FRadau5 -/

/-- C92: the tridiagonal right hand sides stay in the arrays for every number of points `n ≥ 2`, fill the
whole result and compute the second difference with mirrored (Neumann) ends plus the reaction. -/
theorem heat_rhs {n : ℤ} (hn : 2 ≤ n) (eh2 : ℝ) {f : ℤ → ℝ → Option ℝ} {g : ℤ → ℝ → ℝ}
    (hf : ∀ i u, 0 ≤ i → i < n → f i u = some (g i u)) {y res : Buf ℝ} (hy : y.size = n)
    (hr : res.size = n) :
    ∃ res', heatRhs n eh2 f y res = some res' ∧ res'.size = n ∧
      ∀ i, 0 ≤ i → i < n → res'.cell i = diffuse (mirror n) eh2 g y.cell i :=
  heatRhs_of hn eh2 hf hy hr

/-- C92: with a single point `y[1]` is out of bounds. -/
theorem heat_rhs_ub (eh2 : ℝ) (f : ℤ → ℝ → Option ℝ) {y res : Buf ℝ} (hy : y.size = 1) :
    heatRhs 1 eh2 f y res = none := by
  unfold heatRhs Buf.rd
  rw [if_neg (by omega)]
  rfl

theorem field_heat {n : ℤ} (hn : 2 ≤ n) (eh2 : ℝ) {f : ℤ → ℝ → Option ℝ} {g : ℤ → ℝ → ℝ}
    (hf : ∀ i u, 0 ≤ i → i < n → f i u = some (g i u)) (y : ℤ → ℝ) {i : ℤ} (h0 : 0 ≤ i) (h1 : i < n) :
    field n (heatRhs n eh2 f) y i = diffuse (mirror n) eh2 g y i := by
  obtain ⟨r, e1, -, e2⟩ := heatRhs_of hn eh2 hf (y := ⟨n, y⟩) (res := ⟨n, fun _ => 0⟩) rfl rfl
  unfold field
  rw [e1, Option.map_some, Option.getD_some, e2 i h0 h1]

/-- the three shipped right hand sides -/
theorem kpp_radau_rhs {y res : Buf ℝ} (hy : y.size = 1000) (hr : res.size = 1000) :
    ∃ res', kppRadauRhs y res = some res' ∧ res'.size = 1000 ∧ ∀ i, 0 ≤ i → i < 1000 →
      res'.cell i = diffuse (mirror 1000) (eh2 1000 100 0.001) (fun _ u => u ^ 2 * (1 - u)) y.cell i :=
  heat_rhs (g := fun _ u => u ^ 2 * (1 - u)) (by norm_num) _ (fun i u _ _ => congrArg some (by
    unfold kppF; ring)) hy hr

theorem kpp_rodas_rhs {y res : Buf ℝ} (hy : y.size = 100000) (hr : res.size = 100000) :
    ∃ res', kppRodasRhs y res = some res' ∧ res'.size = 100000 ∧ ∀ i, 0 ≤ i → i < 100000 →
      res'.cell i = diffuse (mirror 100000) (eh2 100000 100 0.001) (fun _ u => u ^ 2 * (1 - u)) y.cell i :=
  heat_rhs (g := fun _ u => u ^ 2 * (1 - u)) (by norm_num) _ (fun i u _ _ => congrArg some (by
    unfold kppF; ring)) hy hr

theorem fradau_rhs {b y res : Buf ℝ} (hb : b.size = 100) (hy : y.size = 100) (hr : res.size = 100) :
    ∃ res', fradauRhs b y res = some res' ∧ res'.size = 100 ∧ ∀ i, 0 ≤ i → i < 100 →
      res'.cell i = diffuse (mirror 100) (eh2 100 1 1) (fun i _ => b.cell i) y.cell i :=
  heat_rhs (by norm_num) _ (fun i u h0 h1 => Buf.rd_in (by omega)) hy hr

/-- the derivatives of the right hand side, entry by entry (one-based indices of the matrix) -/
theorem heat_partial {n : ℤ} (hn : 3 ≤ n) (eh2 : ℝ) {f : ℤ → ℝ → Option ℝ} {g : ℤ → ℝ → ℝ}
    {g' : ℝ → ℝ} (hf : ∀ i u, 0 ≤ i → i < n → f i u = some (g i u))
    (hg : ∀ i u, HasDerivAt (g i) (g' u) u) (y : ℤ → ℝ) {i j : ℤ} (hi : 1 ≤ i) (hi' : i ≤ n)
    (hj : 1 ≤ j) (hj' : j ≤ n) :
    IsPartial (field n (heatRhs n eh2 f)) y (i - 1) (j - 1)
      (if i = j then -2 * eh2 + g' (y (i - 1))
       else if i = j + 1 ∨ j = i + 1 then (if i = 1 ∨ i = n then 2 * eh2 else eh2) else 0) := by
  have h := diffuse_partial (m := mirror n) (D := eh2) (f := g) (f' := fun _ => g') (y := y) (i - 1)
    (j - 1) (hg _ _)
  unfold IsPartial at h ⊢
  have e : (fun s => field n (heatRhs n eh2 f) (Function.update y (j - 1) s) (i - 1)) =
      fun s => diffuse (mirror n) eh2 g (Function.update y (j - 1) s) (i - 1) := by
    funext s
    exact field_heat (by omega) eh2 hf _ (by omega) (by omega)
  rw [e]
  refine h.congr_deriv ?_
  by_cases hij : i = j
  · subst hij
    rw [if_pos rfl, if_pos rfl, if_pos rfl, if_neg, if_neg]
    · ring
    · unfold mirror; split_ifs <;> omega
    · unfold mirror; split_ifs <;> omega
  · have h0 : ¬ i - 1 = j - 1 := by omega
    rw [if_neg hij, if_neg h0, if_neg h0]
    by_cases h1 : i = 1
    · subst h1
      have m1 : mirror n (1 - 1 - 1) = 1 := by unfold mirror; split_ifs <;> omega
      have m2 : mirror n (1 - 1 + 1) = 1 := by unfold mirror; split_ifs <;> omega
      rw [m1, m2]
      by_cases hj2 : j = 2
      · subst hj2; norm_num; ring
      · rw [if_neg (by omega), if_neg (by omega)]; ring
    · by_cases hin : i = n
      · subst hin
        have m1 : mirror i (i - 1 - 1) = i - 2 := by unfold mirror; split_ifs <;> omega
        have m2 : mirror i (i - 1 + 1) = i - 2 := by unfold mirror; split_ifs <;> omega
        rw [m1, m2]
        by_cases hj2 : i = j + 1
        · rw [if_pos (by omega), if_pos (by omega), if_pos (by omega)]; ring
        · rw [if_neg (by omega), if_neg (by omega)]; ring
      · have m1 : mirror n (i - 1 - 1) = i - 2 := by unfold mirror; split_ifs <;> omega
        have m2 : mirror n (i - 1 + 1) = i := by unfold mirror; split_ifs <;> omega
        rw [m1, m2]
        by_cases hj2 : i = j + 1
        · rw [if_pos (by omega), if_neg (by omega), if_pos (by omega), if_neg (by omega)]; ring
        · by_cases hj3 : j = i + 1
          · rw [if_neg (by omega), if_pos (by omega), if_pos (by omega), if_neg (by omega)]; ring
          · rw [if_neg (by omega), if_neg (by omega), if_neg (by omega)]; ring

/-- C93, KPP of Radau5 and FRadau5 (`lr = n-1`), KPP of Rodas (`lr = n`): the Jacobian routine stays in
the array for every `n ≥ 3`; derivatives outside the declared band are zero; in the band every stored entry
is the derivative of the right hand side, except the entry `(lr,n)` assigned last and the entry `(n,n-1)`,
which is not assigned at all. -/
theorem heat_jac_partial {n lr : ℤ} (hn : 3 ≤ n) (hl : lr = n - 1 ∨ lr = n) (eh2 : ℝ)
    {f : ℤ → ℝ → Option ℝ} {g : ℤ → ℝ → ℝ} {g' d : ℝ → ℝ}
    (hf : ∀ i u, 0 ≤ i → i < n → f i u = some (g i u)) (hg : ∀ i u, HasDerivAt (g i) (g' u) u)
    (hd : ∀ u, d u = -2 * eh2 + g' u) {y J : Buf ℝ} (hy : y.size = n) (hJ : J.size = ldab 1 1 * n) :
    ∃ J', heatJac n lr n eh2 d y J = some J' ∧ J'.size = J.size ∧
      (∀ i j, 1 ≤ i → i ≤ n → 1 ≤ j → j ≤ n → i ≤ j + 1 → j ≤ i + 1 →
        ¬ (i = lr ∧ j = n) → ¬ (i = n ∧ j = n - 1) →
        ∃ v, frGet 1 1 J' i j = some v ∧ IsPartial (field n (heatRhs n eh2 f)) y.cell (i - 1) (j - 1) v) ∧
      (∀ i j, 1 ≤ i → i ≤ n → 1 ≤ j → j ≤ n → (j + 1 < i ∨ i + 1 < j) →
        IsPartial (field n (heatRhs n eh2 f)) y.cell (i - 1) (j - 1) 0) ∧
      frGet 1 1 J' lr n = some (2 * eh2) ∧ frGet 1 1 J' n (n - 1) = frGet 1 1 J n (n - 1) := by
  have h4 : J.size = 4 * n := by rw [hJ]; unfold ldab; ring
  obtain ⟨J', e1, e2, e3⟩ := heatJac_of hn hl rfl eh2 d hy h4
  have rd : ∀ {B : Buf ℝ} {i j}, B.size = 4 * n → 1 ≤ i → i ≤ n → 1 ≤ j → j ≤ n → i ≤ j + 1 → j ≤ i + 1 →
      frGet 1 1 B i j = some (B.cell (frIdx 1 1 i j)) := by
    intro B i j hB h1 h2 h3 h4 h5 h6
    unfold frGet
    rw [Buf.rd_in (by rw [frIdx_one]; omega)]
  refine ⟨J', e1, by omega, ?_, ?_, ?_, ?_⟩
  · intro i j h1 h2 h3 h4 h5 h6 h7 h8
    refine ⟨_, rd e2 h1 h2 h3 h4 h5 h6, ?_⟩
    rw [e3 i j h1 h2 h3 h4 h5 h6, if_neg h7]
    refine (heat_partial hn eh2 hf hg y.cell h1 h2 h3 h4).congr_deriv ?_
    unfold entry
    by_cases hij : i = j
    · rw [if_pos hij, if_pos hij, hd]
    · rw [if_neg hij, if_neg hij, if_pos (by omega)]
      by_cases hi1 : i = 1
      · rw [if_pos (Or.inl hi1), if_pos hi1]
      · have hin : i ≠ n := by omega
        rw [if_neg (by omega), if_neg hi1, if_neg hin]
  · intro i j h1 h2 h3 h4 h5
    refine (heat_partial hn eh2 hf hg y.cell h1 h2 h3 h4).congr_deriv ?_
    rw [if_neg (by omega), if_neg (by omega)]
  · rw [rd e2 (by omega) (by omega) (by omega) (by omega) (by omega) (by omega),
      e3 lr n (by omega) (by omega) (by omega) (by omega) (by omega) (by omega), if_pos ⟨rfl, rfl⟩]
  · rw [rd e2 (by omega) (by omega) (by omega) (by omega) (by omega) (by omega),
      rd h4 (by omega) (by omega) (by omega) (by omega) (by omega) (by omega),
      e3 n (n - 1) (by omega) (by omega) (by omega) (by omega) (by omega) (by omega), if_neg (by omega)]
    unfold entry
    rw [if_neg (by omega), if_neg (by omega), if_pos rfl]

/-- the claim: every entry of the band is the derivative of the right hand side. -/
def JacobianOk (n : ℤ) (rhs jac : Buf ℝ → Buf ℝ → Option (Buf ℝ)) (y J : Buf ℝ) : Prop :=
  ∃ J', jac y J = some J' ∧ ∀ i j, 1 ≤ i → i ≤ n → 1 ≤ j → j ≤ n → i ≤ j + 1 → j ≤ i + 1 →
    ∃ v, frGet 1 1 J' i j = some v ∧ IsPartial (field n rhs) y.cell (i - 1) (j - 1) v

/-- C93 fails, KPP of Radau5 and FRadau5: whatever the state and the former contents of the matrix, the
entry `(n-1,n)` is twice the derivative. -/
theorem heat_jac_radau_fails {n : ℤ} (hn : 3 ≤ n) {eh2 : ℝ} (h0 : eh2 ≠ 0)
    {f : ℤ → ℝ → Option ℝ} {g : ℤ → ℝ → ℝ} {g' d : ℝ → ℝ}
    (hf : ∀ i u, 0 ≤ i → i < n → f i u = some (g i u)) (hg : ∀ i u, HasDerivAt (g i) (g' u) u)
    (hd : ∀ u, d u = -2 * eh2 + g' u) {y J : Buf ℝ} (hy : y.size = n) (hJ : J.size = ldab 1 1 * n) :
    ¬ JacobianOk n (heatRhs n eh2 f) (heatJac n (n - 1) n eh2 d) y J := by
  rintro ⟨J', e1, e2⟩
  obtain ⟨J2, a1, -, -, -, a2, -⟩ := heat_jac_partial hn (Or.inl rfl) eh2 hf hg hd hy hJ
  obtain rfl : J' = J2 := Option.some.inj (e1.symm.trans a1)
  obtain ⟨v, b1, b2⟩ := e2 (n - 1) n (by omega) (by omega) (by omega) (by omega) (by omega) (by omega)
  have hp := heat_partial hn eh2 hf hg y.cell (i := n - 1) (j := n) (by omega) (by omega) (by omega)
    (by omega)
  rw [if_neg (by omega), if_pos (by omega), if_neg (by omega)] at hp
  have h1 := IsPartial.unique b2 hp
  rw [a2] at b1
  have h2 := Option.some.inj b1
  apply h0
  linarith

/-- C93 fails, KPP of Rodas: the last diagonal entry is overwritten with `2*eh2`; it is the derivative only
if `df(y(n)) = 4*eh2`. -/
theorem heat_jac_rodas_fails {n : ℤ} (hn : 3 ≤ n) {eh2 : ℝ}
    {f : ℤ → ℝ → Option ℝ} {g : ℤ → ℝ → ℝ} {g' d : ℝ → ℝ}
    (hf : ∀ i u, 0 ≤ i → i < n → f i u = some (g i u)) (hg : ∀ i u, HasDerivAt (g i) (g' u) u)
    (hd : ∀ u, d u = -2 * eh2 + g' u) {y J : Buf ℝ} (hy : y.size = n) (hJ : J.size = ldab 1 1 * n)
    (hne : g' (y.cell (n - 1)) ≠ 4 * eh2) :
    ¬ JacobianOk n (heatRhs n eh2 f) (heatJac n n n eh2 d) y J := by
  rintro ⟨J', e1, e2⟩
  obtain ⟨J2, a1, -, -, -, a2, -⟩ := heat_jac_partial hn (Or.inr rfl) eh2 hf hg hd hy hJ
  obtain rfl : J' = J2 := Option.some.inj (e1.symm.trans a1)
  obtain ⟨v, b1, b2⟩ := e2 n n (by omega) (by omega) (by omega) (by omega) (by omega) (by omega)
  have hp := heat_partial hn eh2 hf hg y.cell (i := n) (j := n) (by omega) (by omega) (by omega)
    (by omega)
  rw [if_pos rfl] at hp
  have h1 := IsPartial.unique b2 hp
  rw [a2] at b1
  have h2 := Option.some.inj b1
  apply hne
  linarith

/-- C93 fails, all three: the entry `(n,n-1)` keeps the former contents of the memory. With two different
contents at most one result can be the derivative. -/
theorem heat_jac_uninitialised {n lr : ℤ} (hn : 3 ≤ n) (hl : lr = n - 1 ∨ lr = n) (eh2 : ℝ)
    {f : ℤ → ℝ → Option ℝ} {g : ℤ → ℝ → ℝ} {g' d : ℝ → ℝ}
    (hf : ∀ i u, 0 ≤ i → i < n → f i u = some (g i u)) (hg : ∀ i u, HasDerivAt (g i) (g' u) u)
    (hd : ∀ u, d u = -2 * eh2 + g' u) {y : Buf ℝ} (hy : y.size = n) (junk : ℤ → ℝ)
    (hj : junk (frIdx 1 1 n (n - 1)) ≠ 2 * eh2) :
    ¬ JacobianOk n (heatRhs n eh2 f) (heatJac n lr n eh2 d) y (frNew n 1 1 junk) := by
  rintro ⟨J', e1, e2⟩
  obtain ⟨J2, a1, -, -, -, -, a2⟩ :=
    heat_jac_partial (J := frNew n 1 1 junk) hn hl eh2 hf hg hd hy rfl
  obtain rfl : J' = J2 := Option.some.inj (e1.symm.trans a1)
  obtain ⟨v, b1, b2⟩ := e2 n (n - 1) (by omega) (by omega) (by omega) (by omega) (by omega) (by omega)
  have hp := heat_partial hn eh2 hf hg y.cell (i := n) (j := n - 1) (by omega) (by omega) (by omega)
    (by omega)
  rw [if_neg (by omega), if_pos (by omega), if_pos (by omega)] at hp
  have h1 := IsPartial.unique b2 hp
  have h3 : frGet 1 1 (frNew n 1 1 junk) n (n - 1) = some (junk (frIdx 1 1 n (n - 1))) := by
    unfold frGet
    exact Buf.rd_in (by rw [frIdx_one]; simp only [frNew, ldab]; omega)
  rw [a2, h3] at b1
  exact hj ((Option.some.inj b1).trans h1)

theorem kppF_deriv (k u : ℝ) : HasDerivAt (kppF k) (kppDf k u) u := by
  have h := ((((hasDerivAt_id' u).const_mul k).mul (hasDerivAt_id' u)).mul
    ((hasDerivAt_id' u).const_sub 1))
  refine h.congr_deriv ?_
  simp only [kppDf, Pi.mul_apply]
  ring

theorem eh2_pos {n : ℤ} (hn : 1 < n) {L eps : ℝ} (hL : 0 < L) (he : 0 < eps) : 0 < eh2 n L eps := by
  have : (1 : ℝ) < n := by exact_mod_cast hn
  unfold eh2
  have : 0 < L / ((n : ℝ) - 1) := div_pos hL (by linarith)
  positivity

/-- C93 fails for the shipped problems, in every state -/
theorem kpp_radau_jac_fails {y J : Buf ℝ} (hy : y.size = 1000) (hJ : J.size = ldab 1 1 * 1000) :
    ¬ JacobianOk 1000 kppRadauRhs kppRadauJac y J :=
  heat_jac_radau_fails (by norm_num) (eh2_pos (by norm_num) (by norm_num) (by norm_num)).ne'
    (fun _ _ _ _ => rfl) (fun _ => kppF_deriv 1) (fun _ => rfl) hy hJ

theorem fradau_jac_fails {b y J : Buf ℝ} (hb : b.size = 100) (hy : y.size = 100)
    (hJ : J.size = ldab 1 1 * 100) : ¬ JacobianOk 100 (fradauRhs b) fradauJac y J :=
  heat_jac_radau_fails (g := fun i _ => b.cell i) (g' := fun _ => 0) (by norm_num)
    (eh2_pos (by norm_num) (by norm_num) (by norm_num)).ne' (fun _ _ _ _ => Buf.rd_in (by omega))
    (fun i u => hasDerivAt_const _ _) (fun _ => by ring) hy hJ

theorem kpp_rodas_jac_fails {y J : Buf ℝ} (hy : y.size = 100000) (hJ : J.size = ldab 1 1 * 100000) :
    ¬ JacobianOk 100000 kppRodasRhs kppRodasJac y J := by
  refine heat_jac_rodas_fails (by norm_num) (fun _ _ _ _ => rfl) (fun _ => kppF_deriv 1) (fun _ => rfl)
    hy hJ ?_
  have h1 : kppDf 1 (y.cell (100000 - 1)) ≤ 1 / 3 := by
    unfold kppDf
    generalize y.cell (100000 - 1) = u
    nlinarith [sq_nonneg (3 * u - 1)]
  have h2 : (1 : ℝ) / 3 < 4 * eh2 100000 100 0.001 := by
    unfold eh2
    norm_num
  linarith

/-- the hypotheses hold for the shipped problems; here the part which is right -/
example {y : Buf ℝ} (hy : y.size = 1000) (junk : ℤ → ℝ) : ∃ J',
    kppRadauJac y (frNew 1000 1 1 junk) = some J' ∧ ∃ v, frGet 1 1 J' 500 500 = some v ∧
      IsPartial (field 1000 kppRadauRhs) y.cell 499 499 v := by
  obtain ⟨J', h1, -, h2, -⟩ := heat_jac_partial (n := 1000) (lr := 1000 - 1) (by norm_num) (Or.inl rfl)
    (eh2 1000 100 0.001) (f := fun _ u => some (kppF 1 u)) (g := fun _ => kppF 1) (g' := kppDf 1)
    (fun _ _ _ _ => rfl) (fun _ => kppF_deriv 1) (fun _ => rfl) hy (J := frNew 1000 1 1 junk) rfl
  exact ⟨J', h1, h2 500 500 (by norm_num) (by norm_num) (by norm_num) (by norm_num) (by norm_num)
    (by norm_num) (by norm_num) (by norm_num)⟩

end Odes.Stiff
