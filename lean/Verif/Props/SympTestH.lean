import Verif.Props.SympTest
import Mathlib.Analysis.SpecialFunctions.Pow.Real

/-!
# The functions `H` of the problems shipped with the symplectic methods (C89)
-/

namespace Odes.Symp.Test

open Odes.Mem Spec Spec.NBody

/-- the pairs of consecutive bodies, which `H` of the planets leaves out. -/
noncomputable def missing {N : ℕ} (m : Fin N → ℝ) (q : Fin N → Fin 3 → ℝ) : ℝ :=
  ∑ i : Fin N, ∑ j : Fin N, if (j : ℕ) + 1 = i then m i * m j / √(dist2 (q i) (q j)) else 0

/-- C89: what `H` computes. -/
theorem outer_H {P : Planets} {X : Buf ℝ} (h : Ok P X) :
    hamil P X = some (energy P.G (mass P) (pos P.nb X) (mom P.nb X) +
      P.G * missing (mass P) (pos P.nb X)) := by
  have h1 := h.one
  obtain ⟨ret, a1, a2⟩ := forUp_nat (s := P.nb) (st := (0 : ℝ))
    (body := fun i ret => (dot X (3 * P.nb) i).bind fun d => (P.masses.rd i).map fun m => ret + d / m)
    (fun i ret => ret = ∑ l ∈ Finset.range i,
      if hl : l < P.nb then (∑ s, mom P.nb X ⟨l, hl⟩ s ^ 2) / mass P ⟨l, hl⟩ else 0)
    (by simp) (by
      intro i ret hi hr
      have e := dot_of h.X ⟨i, hi⟩
      simp only at e
      rw [e, Option.bind_some, Buf.rd_in (by rw [h.masses]; omega), Option.map_some]
      refine ⟨_, rfl, ?_⟩
      rw [Finset.sum_range_succ, dif_pos hi, hr]
      rfl)
  obtain ⟨g, hg⟩ : ∃ g : ℕ → ℕ → ℝ, g = fun i j : ℕ =>
    P.masses.cell i * P.masses.cell j / √(d2 X i j) := ⟨_, rfl⟩
  obtain ⟨s, b1, b2⟩ := forUp_inv (lo := 1) (hi := (P.nb : ℤ) - 1) (s := (0 : ℝ))
    (body := fun i s => (P.masses.rd i).bind fun mai =>
      forUp 0 (i - 1 - 1) (fun j s => (P.masses.rd j).bind fun mj => (diff2 X i j).map fun d =>
        s + mai * mj / √d) s)
    (fun i s => s = ∑ l ∈ Finset.range i.toNat, ∑ j ∈ Finset.range P.nb, if j + 1 < l then g l j else 0)
    (by omega) (by simp) (by
      intro i s hi hi' hs
      obtain ⟨I, rfl⟩ : ∃ I : ℕ, i = (I : ℤ) + 1 := ⟨(i - 1).toNat, by omega⟩
      rw [Buf.rd_in (by rw [h.masses]; omega), Option.bind_some,
        show (I : ℤ) + 1 - 1 - 1 = (I : ℤ) - 1 by ring]
      obtain ⟨s', c1, c2⟩ := forUp_nat (s := I) (st := s)
        (body := fun j s => (P.masses.rd j).bind fun mj => (diff2 X ((I : ℤ) + 1) j).map fun d =>
          s + P.masses.cell ((I : ℤ) + 1) * mj / √d)
        (fun J s' => s' = s + ∑ j ∈ Finset.range J, g (I + 1) j) (by simp) (by
          intro j s' hj hs'
          rw [Buf.rd_in (by rw [h.masses]; omega), Option.bind_some, diff2_of h.X (by omega) (by omega),
            Option.map_some]
          refine ⟨_, rfl, ?_⟩
          rw [Finset.sum_range_succ, hs', add_assoc, hg]
          push_cast
          rfl)
      refine ⟨s', c1, ?_⟩
      rw [c2, hs, show ((I : ℤ) + 1 + 1).toNat = (I + 1) + 1 by omega,
        show ((I : ℤ) + 1).toNat = I + 1 by omega, Finset.sum_range_succ _ (I + 1)]
      congr 1
      rw [← Finset.sum_filter]
      refine Finset.sum_congr ?_ fun _ _ => rfl
      ext j
      simp only [Finset.mem_range, Finset.mem_filter]
      omega)
  rw [hamil, a1, Option.bind_some, b1, Option.map_some]
  congr 1
  have e1 : ret = ∑ i, (∑ s, mom P.nb X i s ^ 2) / mass P i := by
    rw [a2, ← Fin.sum_univ_eq_sum_range (fun l => if hl : l < P.nb then
      (∑ s, mom P.nb X ⟨l, hl⟩ s ^ 2) / mass P ⟨l, hl⟩ else 0)]
    exact Finset.sum_congr rfl fun i _ => dif_pos i.2
  have e2 : s = ∑ i : Fin P.nb, ∑ j : Fin P.nb, if (j : ℕ) + 1 < i then
      mass P i * mass P j / √(dist2 (pos P.nb X i) (pos P.nb X j)) else 0 := by
    rw [b2, show ((P.nb : ℤ) - 1 + 1).toNat = P.nb by omega,
      ← Fin.sum_univ_eq_sum_range (fun l => ∑ j ∈ Finset.range P.nb, if j + 1 < l then g l j else 0)]
    refine Finset.sum_congr rfl fun i _ => ?_
    rw [← Fin.sum_univ_eq_sum_range (fun j => if j + 1 < (i : ℕ) then g i j else 0)]
    refine Finset.sum_congr rfl fun j _ => ?_
    rw [← d2_eq, hg]
    rfl
  have e3 : (∑ i : Fin P.nb, ∑ j : Fin P.nb, if j < i then
      mass P i * mass P j / √(dist2 (pos P.nb X i) (pos P.nb X j)) else 0) =
      s + missing (mass P) (pos P.nb X) := by
    rw [e2, missing, ← Finset.sum_add_distrib]
    refine Finset.sum_congr rfl fun i _ => ?_
    rw [← Finset.sum_add_distrib]
    refine Finset.sum_congr rfl fun j _ => ?_
    have hlt : j < i ↔ (j : ℕ) < i := Fin.lt_def
    rcases lt_trichotomy ((j : ℕ) + 1) i with hh | hh | hh
    · rw [if_pos (by omega), if_pos hh, if_neg (by omega), add_zero]
    · rw [if_pos (by omega), if_neg (by omega), if_pos hh, zero_add]
    · rw [if_neg (by omega), if_neg (by omega), if_neg (by omega), add_zero]
  rw [energy, e3, e1, Finset.sum_div]
  have e4 : ∀ i, (∑ s, mom P.nb X i s ^ 2) / mass P i / 2 =
      (∑ s, mom P.nb X i s ^ 2) / (2 * mass P i) := fun i => by rw [div_div, mul_comm 2]
  simp only [e4]
  ring

/-- derivative of the pairs left out -/
theorem hasDerivAt_missing {N : ℕ} {m : Fin N → ℝ} {q : ℝ → Fin N → Fin 3 → ℝ} {q' : Fin N → Fin 3 → ℝ}
    {t : ℝ} (hq : ∀ i s, HasDerivAt (fun t => q t i s) (q' i s) t) (h : Apart (q t)) :
    HasDerivAt (fun t => missing m (q t))
      (∑ i : Fin N, ∑ j : Fin N, if (j : ℕ) + 1 = i then
        -(m i * m j / √(dist2 (q t i) (q t j)) ^ 3 * ∑ s, (q t i s - q t j s) * (q' i s - q' j s)) else 0)
      t := by
  refine HasDerivAt.fun_sum fun i _ => HasDerivAt.fun_sum fun j _ => ?_
  by_cases hij : (j : ℕ) + 1 = i
  · simp only [if_pos hij]
    exact hasDerivAt_inv_dist (hq i) (hq j) (h i j (by rintro rfl; omega)) _
  · simp only [if_neg hij]
    exact hasDerivAt_const _ _

/-- bodies on a line at distance one, only the first one moves. -/
noncomputable def onLine (P : Planets) (k : Fin (6 * P.nb)) : ℝ :=
  if (k : ℕ) < 3 * P.nb then (if (k : ℕ) % 3 = 0 then (((k : ℕ) / 3 : ℕ) : ℝ) else 0)
  else if (k : ℕ) = 3 * P.nb then P.masses.cell 0 else 0

theorem onLine_pos (P : Planets) (i : Fin P.nb) (s : Fin 3) :
    posOf (onLine P) i s = if s = 0 then ((i : ℕ) : ℝ) else 0 := by
  have hi := i.2
  have hs := s.2
  rw [posOf, onLine, if_pos (by simp only; omega)]
  by_cases e : s = 0
  · subst e
    rw [if_pos (by simp), if_pos rfl]
    congr 1
    show (3 * (i : ℕ) + 0) / 3 = i
    omega
  · rw [if_neg e, if_neg]
    have : (s : ℕ) ≠ 0 := fun hh => e (Fin.ext hh)
    simp only
    omega

theorem onLine_mom (P : Planets) (i : Fin P.nb) (s : Fin 3) :
    momOf (onLine P) i s = if (i : ℕ) = 0 ∧ s = 0 then P.masses.cell 0 else 0 := by
  have hi := i.2
  have hs := s.2
  rw [momOf, onLine, if_neg (by simp only; omega)]
  by_cases e : (i : ℕ) = 0 ∧ s = 0
  · rw [if_pos e, if_pos]
    have := e.1
    have hs0 : (s : ℕ) = 0 := by rw [e.2]; rfl
    simp only
    omega
  · rw [if_neg e, if_neg]
    intro hh
    simp only at hh
    exact e ⟨by omega, Fin.ext (by simp only [Fin.val_zero]; omega)⟩

theorem onLine_apart (P : Planets) : Apart (posOf (onLine P)) := by
  intro i j hij hh
  have := congrFun hh 0
  rw [onLine_pos, onLine_pos, if_pos rfl, if_pos rfl] at this
  exact hij (Fin.ext (by exact_mod_cast this))

/-- C89 is violated by the problems of the planets: there is a state without collision such that along every
curve which satisfies the differential equation there, the value of `H` changes. -/
theorem outer_H_fails {P : Planets} (h2 : 2 ≤ P.nb) (hm : P.masses.size = P.nb)
    (hpos : ∀ i, 0 ≤ i → i < (P.nb : ℤ) → P.masses.cell i ≠ 0) (hG : P.G ≠ 0) :
    ∃ y0 : Fin (6 * P.nb) → ℝ, Apart (posOf y0) ∧ ∀ y : ℝ → Fin (6 * P.nb) → ℝ, y 0 = y0 →
      HasDerivAt y (field P (y 0)) 0 → ∃ (H : ℝ → ℝ) (d : ℝ), (∀ t, hamil P (bufOf (y t)) = some (H t)) ∧
        HasDerivAt H d 0 ∧ d ≠ 0 := by
  refine ⟨onLine P, onLine_apart P, fun y hy0 hy => ?_⟩
  have hap : Apart (posOf (y 0)) := by rw [hy0]; exact onLine_apart P
  have hE := outer_energy P hy hap
  have hM := hasDerivAt_missing (m := mass P) (q := fun t => posOf (y t))
    (fun i s => (hasDerivAt_pi.1 hy _).congr_deriv (posOf_field P (y 0) i s)) hap
  refine ⟨fun t => energy P.G (mass P) (posOf (y t)) (momOf (y t)) +
    P.G * missing (mass P) (posOf (y t)), _, fun t => ?_, HasDerivAt.fun_add hE (hM.const_mul P.G), ?_⟩
  · have := outer_H (bufOf_ok (P := P) (by omega) hm (y t))
    rwa [pos_bufOf, mom_bufOf] at this
  · rw [zero_add, hy0]
    have m0 : P.masses.cell 0 ≠ 0 := hpos 0 (by omega) (by omega)
    have m1 : P.masses.cell 1 ≠ 0 := hpos 1 (by omega) (by omega)
    refine mul_ne_zero hG ?_
    rw [Finset.sum_eq_single (⟨1, by omega⟩ : Fin P.nb), Finset.sum_eq_single (⟨0, by omega⟩ : Fin P.nb)]
    · rw [if_pos rfl]
      simp only [dist2, onLine_pos, onLine_mom, mass, Fin.sum_univ_three]
      simp [m0, m1]
    · intro j _ hj
      rw [if_neg]
      intro hh
      exact hj (Fin.ext (by simp only at hh ⊢; omega))
    · intro hh
      exact absurd (Finset.mem_univ _) hh
    · intro i _ hi
      refine Finset.sum_eq_zero fun j _ => ?_
      split_ifs with hh
      · have hj : (j : ℕ) ≠ 0 := fun h0 => hi (Fin.ext (by simp only; omega))
        simp only [onLine_mom]
        rw [Finset.sum_eq_zero, mul_zero, neg_zero]
        intro s _
        rw [if_neg (by omega), if_neg (by omega)]
        ring
      · rfl
    · intro hh
      exact absurd (Finset.mem_univ _) hh

/-- the three shipped problems -/
theorem outer_H_fails_shipped : ∀ P ∈ [outer, outerNeptune, outerUranus], ∃ y0 : Fin (6 * P.nb) → ℝ,
    Apart (posOf y0) ∧ ∀ y : ℝ → Fin (6 * P.nb) → ℝ, y 0 = y0 →
      HasDerivAt y (field P (y 0)) 0 → ∃ (H : ℝ → ℝ) (d : ℝ), (∀ t, hamil P (bufOf (y t)) = some (H t)) ∧
        HasDerivAt H d 0 ∧ d ≠ 0 := by
  intro P hP
  simp only [List.mem_cons, List.not_mem_nil, or_false] at hP
  rcases hP with rfl | rfl | rfl
  · refine outer_H_fails (by decide) rfl ?_ (by norm_num [outer])
    intro i _ _
    simp only [outer]
    split_ifs <;> norm_num
  · refine outer_H_fails (by decide) rfl ?_ (by norm_num [outerNeptune])
    intro i _ _
    simp only [outerNeptune]
    split_ifs <;> norm_num
  · refine outer_H_fails (by decide) rfl ?_ (by norm_num [outerUranus])
    intro i _ _
    simp only [outerUranus]
    split_ifs <;> norm_num

/-- such curves exist. -/
example (P : Planets) : ∃ y : ℝ → Fin (6 * P.nb) → ℝ, y 0 = onLine P ∧ HasDerivAt y (field P (y 0)) 0 := by
  refine ⟨fun t => onLine P + t • field P (onLine P), by simp, ?_⟩
  have := ((hasDerivAt_id (0 : ℝ)).smul_const (field P (onLine P))).const_add (onLine P)
  simpa using this

/-! ### Kepler's problem -/

/-- C89 for Kepler's problem: `H` is differentiable away from the origin and the right hand side is
`(-∂H/∂p, ∂H/∂q)`, the Hamiltonian field of `H` with time reversed. -/
theorem kepler_field {y : Fin 4 → ℝ} (h : y 0 ≠ 0 ∨ y 1 ≠ 0) :
    ∃ D : (Fin 4 → ℝ) →L[ℝ] ℝ, HasFDerivAt keplerH D y ∧
      kepler y = ![-D (Pi.single 2 1), -D (Pi.single 3 1), D (Pi.single 0 1), D (Pi.single 1 1)] := by
  have hp : 0 < y 0 * y 0 + y 1 * y 1 := by
    rcases h with h | h
    · have := mul_self_pos.2 h; nlinarith [mul_self_nonneg (y 1)]
    · have := mul_self_pos.2 h; nlinarith [mul_self_nonneg (y 0)]
  have hx : ∀ i, HasFDerivAt (fun y : Fin 4 → ℝ => y i)
      (ContinuousLinearMap.proj (R := ℝ) (φ := fun _ : Fin 4 => ℝ) i) y := fun i =>
    (ContinuousLinearMap.proj (R := ℝ) (φ := fun _ : Fin 4 => ℝ) i).hasFDerivAt
  have hr : HasFDerivAt (fun y : Fin 4 → ℝ => y 0 * y 0 + y 1 * y 1) _ y :=
    ((hx 0).mul (hx 0)).add ((hx 1).mul (hx 1))
  have hi := (hasDerivAt_inv (Real.sqrt_pos.2 hp).ne').comp_hasFDerivAt y (hr.sqrt hp.ne')
  have hk : HasFDerivAt (fun y : Fin 4 → ℝ => 0.5 * (y 2 * y 2 + y 3 * y 3)) _ y :=
    (((hx 2).mul (hx 2)).add ((hx 3).mul (hx 3))).const_mul 0.5
  have hH := (hk.sub hi).congr_of_eventuallyEq (f₁ := keplerH)
    (Filter.Eventually.of_forall fun z => by simp [keplerH])
  have hq : √((y 0 * y 0 + y 1 * y 1) ^ 3) = √(y 0 * y 0 + y 1 * y 1) ^ 3 := by
    rw [Real.sqrt_eq_iff_mul_self_eq (by positivity) (by positivity), ← mul_pow, Real.mul_self_sqrt hp.le]
  have hs := (Real.sqrt_pos.2 hp).ne'
  refine ⟨_, hH, ?_⟩
  funext k
  fin_cases k
  · simp [kepler]
    ring
  · simp [kepler]
    ring
  · simp [kepler, hq]
    field_simp
    ring
  · simp [kepler, hq]
    field_simp
    ring

/-- C89: so `H` is a first integral of the right hand side. -/
theorem kepler_H {y : ℝ → Fin 4 → ℝ} {t : ℝ} (hy : HasDerivAt y (kepler (y t)) t)
    (h : y t 0 ≠ 0 ∨ y t 1 ≠ 0) : HasDerivAt (fun t => keplerH (y t)) 0 t := by
  obtain ⟨D, hD, hf⟩ := kepler_field h
  refine (hD.comp_hasDerivAt t hy).congr_deriv ?_
  have e : ∀ z : Fin 4 → ℝ, D z = z 0 * D (Pi.single 0 1) + z 1 * D (Pi.single 1 1) +
      z 2 * D (Pi.single 2 1) + z 3 * D (Pi.single 3 1) := by
    intro z
    conv_lhs => rw [← Finset.univ_sum_single z]
    rw [map_sum, Fin.sum_univ_four]
    have : ∀ i, D (Pi.single i (z i)) = z i * D (Pi.single i 1) := by
      intro i
      rw [← smul_eq_mul, ← map_smul, ← Pi.single_smul, smul_eq_mul, mul_one]
    rw [this, this, this, this]
  rw [e, hf]
  simp
  ring

/-- but the equations are those of Kepler's problem with time reversed: at the shipped initial value the field
is not `(∂H/∂p, -∂H/∂q)`. -/
theorem kepler_reversed : ∃ D : (Fin 4 → ℝ) →L[ℝ] ℝ, HasFDerivAt keplerH D keplerInit ∧
    kepler keplerInit ≠ ![D (Pi.single 2 1), D (Pi.single 3 1), -D (Pi.single 0 1), -D (Pi.single 1 1)] := by
  obtain ⟨D, hD, hf⟩ := kepler_field (y := keplerInit) (Or.inl (by norm_num [keplerInit]))
  refine ⟨D, hD, fun hh => ?_⟩
  rw [hf] at hh
  have h0 := congrFun hh 0
  have h1 := congrFun hf 0
  simp [kepler, keplerInit] at h0 h1
  linarith

/-- angular momentum of Kepler's problem -/
noncomputable def keplerAng : (Fin 4 → ℝ) →ₗ[ℝ] (Fin 4 → ℝ) →ₗ[ℝ] ℝ :=
  LinearMap.mk₂ ℝ (fun x y => (x 0 * y 3 + y 0 * x 3 - (x 1 * y 2 + y 1 * x 2)) / 2)
    (fun x x' y => by simp only [Pi.add_apply]; ring)
    (fun c x y => by simp only [Pi.smul_apply, smul_eq_mul]; ring)
    (fun x y y' => by simp only [Pi.add_apply]; ring)
    (fun c x y => by simp only [Pi.smul_apply, smul_eq_mul]; ring)

theorem keplerAng_apply (x y : Fin 4 → ℝ) :
    keplerAng x y = (x 0 * y 3 + y 0 * x 3 - (x 1 * y 2 + y 1 * x 2)) / 2 := rfl

theorem keplerAng_quad : Quad keplerAng kepler where
  symm x y := by rw [keplerAng_apply, keplerAng_apply]; ring
  zero y := by
    rw [keplerAng_apply]
    simp [kepler]
    ring

/-- C91: angular momentum of Kepler's problem, exact tableau and exact stages. -/
theorem kepler_angular {c : Cfg ℝ 4} (hf : c.f = kepler) (hT : Tab c) (hS : Scal c)
    (hnar : ∀ x, c.narrow x = x) (hsym : ∀ i j, defect (tabA c) (tabB c) i j = 0)
    {st st' : St ℝ 4} (hist : Hist c st) {h : ℝ} {u u' : Fin 4 → ℝ} {first : Bool}
    (hs : step c h u first st = some (true, u', st')) (hz : st'.tv = 0) :
    u' 0 * u' 3 - u' 1 * u' 2 = u 0 * u 3 - u 1 * u 2 := by
  have := symp_preserves hT hS hnar hsym hist hs hz (hf ▸ keplerAng_quad)
  rw [keplerAng_apply, keplerAng_apply] at this
  linarith

end Odes.Symp.Test
