import Verif.Model.Machine

/-! Two runs side by side. -/

namespace Odes

variable {σ τ : Type}

/-- results of the same kind, states related. -/
def Res.Rel (R Q : σ → τ → Prop) : Res σ → Res τ → Prop
  | .next s, .next t => R s t
  | .ret s, .ret t => Q s t
  | .throw e, .throw e' => e = e'
  | .ub u, .ub u' => u = u'
  | _, _ => False

theorem run_rel {f : σ → Res σ} {g : τ → Res τ} {R Q : σ → τ → Prop}
    (h : ∀ s t, R s t → Res.Rel R Q (f s) (g t)) : ∀ (k : Nat) {s : σ} {t : τ}, R s t →
    Res.Rel R Q (run f k s) (run g k t)
  | 0, _, _, hst => hst
  | k + 1, s, t, hst => by
    have h1 := h s t hst
    simp only [run]
    cases hf : f s <;> cases hg : g t <;> rw [hf, hg] at h1 <;> first | exact h1.elim | skip
    · exact run_rel h k h1
    · exact h1
    · exact h1
    · exact h1

/-- related runs have the same outcome. -/
theorem outcome_rel {f : σ → Res σ} {g : τ → Res τ} {R Q : σ → τ → Prop}
    (h : ∀ s t, R s t → Res.Rel R Q (f s) (g t)) {s : σ} {t : τ} (hst : R s t) :
    (∀ s', Returns f s s' → ∃ t', Returns g t t' ∧ Q s' t') ∧
    (∀ e, Throws f s e → Throws g t e) ∧ (∀ u, HasUb f s u → HasUb g t u) ∧
    (Diverges f s → Diverges g t) := by
  refine ⟨?_, ?_, ?_, ?_⟩
  · rintro s' ⟨k, hk⟩
    have h1 := run_rel h k hst
    rw [hk] at h1
    cases h2 : run g k t <;> rw [h2] at h1 <;> first | exact h1.elim | exact ⟨_, ⟨k, h2⟩, h1⟩
  · rintro e ⟨k, hk⟩
    have h1 := run_rel h k hst
    rw [hk] at h1
    cases h2 : run g k t <;> rw [h2] at h1 <;> first | exact h1.elim | exact ⟨k, by rw [h2, show e = _ from h1]⟩
  · rintro e ⟨k, hk⟩
    have h1 := run_rel h k hst
    rw [hk] at h1
    cases h2 : run g k t <;> rw [h2] at h1 <;> first | exact h1.elim | exact ⟨k, by rw [h2, show e = _ from h1]⟩
  · intro hd k
    obtain ⟨s', hk⟩ := hd k
    have h1 := run_rel h k hst
    rw [hk] at h1
    cases h2 : run g k t <;> rw [h2] at h1 <;> first | exact h1.elim | exact ⟨_, rfl⟩

end Odes
