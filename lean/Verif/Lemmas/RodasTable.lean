import Verif.Lemmas.RodasStages

/-! The coefficient tables of Rodas; equivalence of the two forms of a Rosenbrock method. -/

namespace Odes.Spec

variable {K : Type} [Field K] {n s : ℕ}

/-- a step in the implementation form is a step of the classical form with the same coefficients. -/
theorem Rosenbrock.step_classic {R : Rosenbrock K s} {M : Classic K s} (hM : R.SameAs M)
    (ha : ∀ i j, ¬ j < i → R.a i j = 0) (hc : ∀ i j, ¬ j < i → R.c i j = 0) {h : K} (h0 : h ≠ 0)
    {F : K → (Fin n → K) → Fin n → K} {J : Matrix (Fin n) (Fin n) K} {ft : Fin n → K} {x : K}
    {y : Fin n → K} {u : Fin s → Fin n → K} {ynew : Fin n → K}
    (hs : R.Step F J ft x h y u ynew) :
    ∃ k : Fin s → Fin n → K, (∀ i, u i = ∑ j, M.gam i j • k j) ∧
      M.Step R.alpha R.d F J ft x h y k ynew := by
  obtain ⟨h1, h2⟩ := hs
  have ea : ∀ i, (∑ j, if j < i then R.a i j • u j else 0) = ∑ j, R.a i j • u j := by
    intro i
    refine Finset.sum_congr rfl fun j _ => ?_
    split_ifs with hji
    · rfl
    · rw [ha i j hji, zero_smul]
  have ec : ∀ i, (∑ j, if j < i then (R.c i j / h) • u j else 0) = ∑ j, (R.c i j / h) • u j := by
    intro i
    refine Finset.sum_congr rfl fun j _ => ?_
    split_ifs with hji
    · rfl
    · rw [hc i j hji, zero_div, zero_smul]
  let k : Fin s → Fin n → K := fun i => ∑ j, ((if i = j then 1 / R.gamma else 0) - R.c i j) • u j
  have hu : ∀ i, u i = ∑ j, M.gam i j • k j := by
    intro i
    have : ∑ j, M.gam i j • k j = ∑ l, (∑ j, M.gam i j *
        ((if j = l then 1 / R.gamma else 0) - R.c j l)) • u l := by
      simp only [k, Finset.smul_sum, Finset.sum_smul, smul_smul]
      rw [Finset.sum_comm]
    rw [this]
    simp only [hM.gam]
    simp
  have hk : ∀ i, k i = (1 / R.gamma) • u i - ∑ j, R.c i j • u j := by
    intro i
    simp only [k, sub_smul, Finset.sum_sub_distrib]
    simp
  refine ⟨k, hu, fun i => ?_, ?_⟩
  · have h3 := h1 i
    rw [ea, ec, Matrix.sub_mulVec, Matrix.smul_mulVec, Matrix.one_mulVec] at h3
    have hal : ∑ j, M.alpha i j • k j = ∑ j, R.a i j • u j := by
      simp only [hM.alpha]
      simp only [hu, Finset.smul_sum, Finset.sum_smul, smul_smul]
      rw [Finset.sum_comm]
    rw [hal, ← hu, hk]
    have h4 := congrArg (fun v => h • v) h3
    simp only [smul_sub, smul_add, Finset.smul_sum, smul_smul] at h4
    have e1 : h * (1 / (h * R.gamma)) = 1 / R.gamma := by
      rcases eq_or_ne R.gamma 0 with hg | hg
      · rw [hg]; simp
      · field_simp
    have e2 : ∀ j, h * (R.c i j / h) = R.c i j := fun j => by field_simp
    have e3 : h * (h * R.d i) = h ^ 2 * R.d i := by ring
    rw [e1, e3] at h4
    simp only [e2] at h4
    rw [sub_eq_iff_eq_add] at h4 ⊢
    rw [h4]
    abel
  · rw [h2]
    congr 1
    simp only [hM.b]
    simp only [hu, Finset.smul_sum, Finset.sum_smul, smul_smul]
    rw [Finset.sum_comm]

end Odes.Spec

namespace Odes.Rodas

open Spec

/-- `(diag(1/γ) - C)⁻¹`, row by row. -/
def gamRows (c : Coef ℚ) : List (List ℚ) :=
  (List.finRange 6).foldl (fun rows i =>
    rows ++ [(List.finRange 6).map fun j =>
      c.GAMMA * ((if i = j then 1 else 0) +
        ((List.finRange 6).map fun k => (method c).c i k * ((rows.getD k []).getD j 0)).sum)]) []

/-- classical form of a table. -/
def classic (c : Coef ℚ) : Classic ℚ 6 where
  gam i j := ((gamRows c).getD i []).getD j 0
  alpha i j := ∑ k, (method c).a i k * ((gamRows c).getD k []).getD j 0
  b j := ∑ k, (method c).m k * ((gamRows c).getD k []).getD j 0

/-- weights of the embedded solution `y + Σ a_6j k_j` (the value of `YNEW` before the last stage is
added), classical form. -/
def embedded (c : Coef ℚ) (j : Fin 6) : ℚ :=
  ∑ k, (method c).a 5 k * ((gamRows c).getD k []).getD j 0

/-- everything checked about one table. -/
def Good (c : Coef ℚ) : Prop :=
  (∀ i j, ∑ k, (classic c).gam i k * ((if k = j then 1 / (method c).gamma else 0) - (method c).c k j)
    = if i = j then 1 else 0) ∧
  (classic c).Nodes (method c) 1e-14 ∧
  (classic c).Order4 (classic c).b 1e-14 ∧
  (classic c).Order3 (embedded c) 1e-14

instance (c : Coef ℚ) : Decidable (Good c) := inferInstanceAs (Decidable (_ ∧ _))

theorem good1 : ∀ c ∈ rocoe 1, Good c := by decide +kernel
theorem good2 : ∀ c ∈ rocoe 2, Good c := by decide +kernel
theorem good3 : ∀ c ∈ rocoe 3, Good c := by decide +kernel

theorem rocoe_cases {meth : ℤ} {c : Coef ℚ} (h : rocoe meth = some c) :
    meth = 1 ∨ meth = 2 ∨ meth = 3 := by
  by_contra hc
  push Not at hc
  unfold rocoe at h
  rw [if_neg hc.1, if_neg hc.2.1, if_neg hc.2.2] at h
  simp at h

theorem good {meth : ℤ} {c : Coef ℚ} (h : rocoe meth = some c) : Good c := by
  rcases rocoe_cases h with rfl | rfl | rfl
  · exact good1 c h
  · exact good2 c h
  · exact good3 c h

theorem method_same {meth : ℤ} {c : Coef ℚ} (h : rocoe meth = some c) :
    (method c).SameAs (classic c) :=
  ⟨(good h).1, fun _ _ => rfl, fun _ => rfl⟩

end Odes.Rodas
