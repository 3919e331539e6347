import Verif.Model.PlanetsHam
import Verif.Props.PlanetsEnergy
import Verif.Props.SympTestH

/-!
# C89, C126: `H` as written by the test program of SymplecticRK for the planetary problems
-/

namespace Odes.Symp.Test

open Odes.Symp Odes.Mains Spec.NBody

variable {F : FP} {P : Planets} {c : PlanetsFl F P.nb}

/-- growth of a relative error -/
noncomputable def grow (F : FP) (k : ℕ) : ℝ := ((1 - F.eps) ^ k)⁻¹ - 1

theorem grow_mono (hp : 10 ≤ F.p) {k m : ℕ} (h : k ≤ m) : grow F k ≤ grow F m := by
  have e0 := F.eps_pos
  have e1 := eps_1024 hp
  exact sub_le_sub_right (inv_anti₀ (pow_pos (by linarith) _) (pow_le_pow_of_le_one (by linarith) (by linarith) h)) 1

theorem grow_rnd (hp : 10 ≤ F.p) {k : ℕ} {a b A : ℝ} (hb : |b| ≤ A) (h : |a - b| ≤ grow F k * A) : |F.rnd a - b| ≤ grow F (k + 1) * A := by
  have e0 := F.eps_pos
  have e1 := eps_1024 hp
  have hA : 0 ≤ A := (abs_nonneg _).trans hb
  have hr := F.err a
  have hq : 0 < (1 - F.eps) ^ k := pow_pos (by linarith) _
  unfold grow at *
  obtain ⟨q, eq⟩ : ∃ q, q = ((1 - F.eps) ^ k)⁻¹ := ⟨_, rfl⟩
  rw [← eq] at h
  have q0 : 0 < q := by rw [eq]; exact inv_pos.2 hq
  have s2 : |a| ≤ q * A := by
    have := abs_sub_abs_le_abs_sub a b
    nlinarith
  have s3 : (1 + F.eps) * q ≤ ((1 - F.eps) ^ (k + 1))⁻¹ := by
    rw [pow_succ, mul_inv, ← eq, mul_comm]
    refine mul_le_mul_of_nonneg_left ?_ q0.le
    rw [← one_div, le_div_iff₀ (by linarith)]; nlinarith
  have t := abs_sub_le (F.rnd a) a b
  have s4 := mul_le_mul_of_nonneg_left s2 e0.le
  have s5 := mul_le_mul_of_nonneg_right s3 hA
  nlinarith

theorem dot_rel (hp : 10 ≤ F.p) (y : Fin (6 * P.nb) → F.T) (i : Fin P.nb) :
    Rel F.eps 4 (dotFl y i).1 (∑ s, momOf (val y) i s ^ 2) := by
  have e0 := F.eps_pos
  have e1 := eps_1024 hp
  have e2 : F.eps < 1 := by linarith
  have sq : ∀ s, Rel F.eps 1 (momF y i s * momF y i s : F.T).1 (momOf (val y) i s ^ 2) := fun s => by
    rw [pow_two]; exact rel_rnd _
  have a0 : Rel F.eps 2 ((0 : F.T) + momF y i 0 * momF y i 0).1 (momOf (val y) i 0 ^ 2) := by
    rw [FP.add_val, FP.zero_val, zero_add]; exact (rel_rnd _).trans e2 (sq 0)
  have a1 : Rel F.eps 3 ((0 : F.T) + momF y i 0 * momF y i 0 + momF y i 1 * momF y i 1).1
      (momOf (val y) i 0 ^ 2 + momOf (val y) i 1 ^ 2) := by
    rw [FP.add_val]
    exact (rel_rnd _).trans e2 (a0.add (sq_nonneg _) (sq_nonneg _) ((sq 1).mono e0.le e2 (by norm_num)))
  have a2 : Rel F.eps 4 ((0 : F.T) + momF y i 0 * momF y i 0 + momF y i 1 * momF y i 1 + momF y i 2 * momF y i 2).1
      (momOf (val y) i 0 ^ 2 + momOf (val y) i 1 ^ 2 + momOf (val y) i 2 ^ 2) := by
    rw [FP.add_val]
    exact (rel_rnd _).trans e2 (a1.add (by positivity) (sq_nonneg _) ((sq 2).mono e0.le e2 (by norm_num)))
  rw [Fin.sum_univ_three]
  exact a2

theorem kin_rel (hp : 10 ≤ F.p) (hc : Computes c) (y : Fin (6 * P.nb) → F.T) (i : Fin P.nb) (h0 : mass P i ≠ 0) :
    Rel F.eps 12 (kinFl c y i).1 ((∑ s, momOf (val y) i s ^ 2) / mass P i) := by
  have e0 := F.eps_pos
  have e1 := eps_1024 hp
  have e2 : F.eps < 1 := by linarith
  have h1 : Rel F.eps 0 (c.masses i).1 (mass P i) := ⟨1, by simp, by simp, by rw [hc.mass, mul_one]⟩
  have hk : kinFl c y i = ⟨F.rnd ((dotFl y i).1 / (c.masses i).1), F.rn.flt _⟩ := if_neg (by rw [hc.mass]; exact h0)
  rw [hk]
  exact ((rel_rnd _).trans e2 ((dot_rel hp y i).div e2 h1)).mono e0.le e2 (by norm_num)

theorem pot_rel (hp : 10 ≤ F.p) (hc : Computes c) (y : Fin (6 * P.nb) → F.T) (i j : Fin P.nb) (h0 : 0 < sep (val y) i j) :
    Rel F.eps 12 (potFl c y i j).1 (mass P i * mass P j / sep (val y) i j) := by
  have e0 := F.eps_pos
  have e1 := eps_1024 hp
  have e2 : F.eps < 1 := by linarith
  have r : Rel F.eps 9 (normFl c y i j).1 (sep (val y) i j) :=
    (rel_rnd _).trans e2 ((diff2_rel hp hc y i j).sqrt e0.le e2 (Finset.sum_nonneg fun _ _ => sq_nonneg _))
  have hne : (normFl c y i j).1 ≠ 0 := by
    obtain ⟨θ, t1, -, t3⟩ := r
    rw [t3]
    exact (mul_pos h0 (lt_of_lt_of_le (pow_pos (by linarith) _) t1)).ne'
  have hm : Rel F.eps 1 (c.masses i * c.masses j : F.T).1 (mass P i * mass P j) := by
    rw [← hc.mass, ← hc.mass]; exact rel_rnd _
  have hk : potFl c y i j = ⟨F.rnd ((c.masses i * c.masses j : F.T).1 / (normFl c y i j).1), F.rn.flt _⟩ := if_neg hne
  rw [hk]
  exact ((rel_rnd _).trans e2 (hm.div e2 r)).mono e0.le e2 (by norm_num)

/-! ### the pairs in the order of the loops -/

/-- bodies `j<i-1` -/
def before (N : ℕ) (i : Fin N) : List (Fin N) := (List.finRange N).filter (fun j : Fin N => (j : ℕ) + 1 < (i : ℕ))

def pairsH (N : ℕ) : List (Fin N × Fin N) := (List.finRange N).flatMap fun i => (before N i).map fun j => (i, j)

theorem potSum_flat (y : Fin (6 * P.nb) → F.T) :
    potSumFl c y = (pairsH P.nb).foldl (fun s p => s + potFl c y p.1 p.2) 0 := by
  rw [pairsH, List.foldl_flatMap]
  simp only [List.foldl_map]
  rfl

theorem sum_flat {ι κ : Type*} (f : ι → List κ) (t : κ → ℝ) (l : List ι) :
    ((l.flatMap f).map t).sum = (l.map fun i => ((f i).map t).sum).sum := by
  induction l with
  | nil => rfl
  | cons a l ih => rw [List.flatMap_cons, List.map_append, List.sum_append, ih, List.map_cons, List.sum_cons]

theorem sum_pairs {N : ℕ} (t : Fin N → Fin N → ℝ) :
    ((pairsH N).map fun p => t p.1 p.2).sum = ∑ i : Fin N, ∑ j : Fin N, if (j : ℕ) + 1 < (i : ℕ) then t i j else 0 := by
  rw [pairsH, sum_flat, Fin.sum_univ_def]
  congr 1
  refine List.map_congr_left fun i _ => ?_
  rw [List.map_map, before, Fin.sum_univ_def]
  show (List.map (fun j => t i j) _).sum = _
  rw [sum_filter]
  congr 1
  refine List.map_congr_left fun j _ => ?_
  simp

theorem length_pairs (N : ℕ) : (pairsH N).length ≤ N * N := by
  have gen : ∀ l : List (Fin N), (l.flatMap fun i => (before N i).map fun j => (i, j)).length ≤ l.length * N := by
    intro l
    induction l with
    | nil => simp
    | cons a l ih =>
      rw [List.flatMap_cons, List.length_append, List.length_cons, List.length_map, add_mul, one_mul, add_comm]
      have : (before N a).length ≤ N := (List.length_filter_le _ _).trans_eq (List.length_finRange)
      omega
  exact (gen _).trans_eq (by rw [List.length_finRange])

theorem mem_pairs {N : ℕ} {p : Fin N × Fin N} (h : p ∈ pairsH N) : p.1 ≠ p.2 := by
  simp only [pairsH, before, List.mem_flatMap, List.mem_map, List.mem_filter, decide_eq_true_eq] at h
  obtain ⟨i, -, j, ⟨-, hj⟩, rfl⟩ := h
  intro e
  simp only at e
  subst e
  omega

/-- C89: what `H` computes with rounding: the energy and the pairs of neighbours, up to rounding errors. -/
theorem hamil_rounding (hp : 10 ≤ F.p) (hc : Computes c) (hN : (14 + P.nb + P.nb * P.nb : ℕ) * F.eps ≤ 1 / 2) {μ K a M : ℝ}
    (hS : Sizes P μ K) {y : Fin (6 * P.nb) → F.T} (ha : 0 < a) (hx : Far P (a / 2) (val y)) (hM : ‖val y‖ ≤ M) :
    |(hamilFl c y).1 - (energy P.G (mass P) (posOf (val y)) (momOf (val y)) + P.G * missing (mass P) (posOf (val y)))| ≤
      2 * (14 + P.nb + P.nb * P.nb) * F.eps * (P.nb * (2 * M ^ 2 / μ + 2 * K / a)) := by
  have e0 := F.eps_pos
  have e1 := eps_1024 hp
  have hμ := hS.pos
  have hK := hS.one
  have hM0 : 0 ≤ M := (norm_nonneg _).trans hM
  have hm0 : ∀ i, mass P i ≠ 0 := fun i => abs_pos.1 (hμ.trans_le (hS.mass i))
  obtain ⟨m, em⟩ : ∃ m, m = 12 + P.nb + P.nb * P.nb := ⟨_, rfl⟩
  -- kinetic energy
  obtain ⟨tk, etk⟩ : ∃ tk : Fin P.nb → ℝ, tk = fun i => (∑ s, momOf (val y) i s ^ 2) / mass P i := ⟨_, rfl⟩
  obtain ⟨a1, a2⟩ := fold_near (F := F) (t := tk) (T := kinFl c y) (k := 12) (List.finRange P.nb) (acc := 0) (S := 0) (A := 0) (K := 12)
    le_rfl (by simp) (by rw [FP.zero_val]; simp) (fun i _ => by rw [etk]; exact kin_rel hp hc y i (hm0 i))
  rw [zero_add, zero_add, List.length_finRange, ← Fin.sum_univ_def, ← Fin.sum_univ_def] at a1
  rw [zero_add, zero_add, ← Fin.sum_univ_def, ← Fin.sum_univ_def] at a2
  -- potential energy
  obtain ⟨tp, etp⟩ : ∃ tp : Fin P.nb → Fin P.nb → ℝ, tp = fun i j => mass P i * mass P j / sep (val y) i j := ⟨_, rfl⟩
  obtain ⟨b1, b2⟩ := fold_near (F := F) (t := fun p : Fin P.nb × Fin P.nb => tp p.1 p.2) (T := fun p => potFl c y p.1 p.2) (k := 12)
    (pairsH P.nb) (acc := 0) (S := 0) (A := 0) (K := 12) le_rfl (by simp) (by rw [FP.zero_val]; simp) (fun p hp' => by
      rw [etp]
      exact pot_rel hp hc y _ _ (lt_of_lt_of_le (by positivity) (hx _ _ (mem_pairs hp'))))
  rw [zero_add, zero_add, ← potSum_flat, sum_pairs, sum_pairs (fun i j => |tp i j|)] at b1
  rw [zero_add, zero_add, sum_pairs, sum_pairs (fun i j => |tp i j|)] at b2
  obtain ⟨A, eA⟩ : ∃ A, A = ∑ i, |tk i| := ⟨_, rfl⟩
  obtain ⟨SA, eSA⟩ : ∃ S, S = ∑ i, tk i := ⟨_, rfl⟩
  obtain ⟨B, eB⟩ : ∃ B, B = ∑ i : Fin P.nb, ∑ j : Fin P.nb, if (j : ℕ) + 1 < (i : ℕ) then |tp i j| else 0 := ⟨_, rfl⟩
  obtain ⟨SB, eSB⟩ : ∃ S, S = ∑ i : Fin P.nb, ∑ j : Fin P.nb, if (j : ℕ) + 1 < (i : ℕ) then tp i j else 0 := ⟨_, rfl⟩
  rw [← eA, ← eSA] at a1 a2
  rw [← eB, ← eSB] at b1 b2
  obtain ⟨R, eR⟩ : ∃ R : F.T, R = (List.finRange P.nb).foldl (fun a j => a + kinFl c y j) 0 := ⟨_, rfl⟩
  rw [← eR] at a1
  have hA0 : 0 ≤ A := (abs_nonneg _).trans a2
  have hB0 : 0 ≤ B := (abs_nonneg _).trans b2
  have k1 : |R.1 / 2 - SA / 2| ≤ grow F m * (A / 2) := by
    rw [← sub_div, abs_div, abs_two]
    have : |R.1 - SA| ≤ grow F m * A := a1.trans (mul_le_mul_of_nonneg_right (grow_mono hp (by omega)) hA0)
    linarith
  have k2 := grow_rnd hp (by rw [abs_div, abs_two]; linarith : |SA / 2| ≤ A / 2) k1
  have l1 : |c.G.1 * (potSumFl c y).1 - P.G * SB| ≤ grow F m * (|P.G| * B) := by
    rw [hc.G, ← mul_sub, abs_mul]
    have : |(potSumFl c y).1 - SB| ≤ grow F m * B :=
      b1.trans (mul_le_mul_of_nonneg_right (grow_mono hp (by have := length_pairs P.nb; omega)) hB0)
    calc |P.G| * |(potSumFl c y).1 - SB| ≤ |P.G| * (grow F m * B) := mul_le_mul_of_nonneg_left this (abs_nonneg _)
      _ = _ := by ring
  have l2 := grow_rnd hp (by rw [abs_mul]; exact mul_le_mul_of_nonneg_left b2 (abs_nonneg _) : |P.G * SB| ≤ |P.G| * B) l1
  have hf := grow_rnd hp (k := m + 1) (a := F.rnd (R.1 / 2) - F.rnd (c.G.1 * (potSumFl c y).1)) (b := SA / 2 - P.G * SB)
    (A := A / 2 + |P.G| * B)
    ((abs_sub _ _).trans (add_le_add (by rw [abs_div, abs_two]; linarith) (by rw [abs_mul]; exact mul_le_mul_of_nonneg_left b2 (abs_nonneg _))))
    (by
      rw [show F.rnd (R.1 / 2) - F.rnd (c.G.1 * (potSumFl c y).1) - (SA / 2 - P.G * SB) =
        (F.rnd (R.1 / 2) - SA / 2) - (F.rnd (c.G.1 * (potSumFl c y).1) - P.G * SB) by ring, mul_add]
      exact (abs_sub _ _).trans (add_le_add k2 l2))
  have eH : (hamilFl c y).1 = F.rnd (F.rnd (R.1 / 2) - F.rnd (c.G.1 * (potSumFl c y).1)) := by rw [eR]; rfl
  have eE : energy P.G (mass P) (posOf (val y)) (momOf (val y)) + P.G * missing (mass P) (posOf (val y)) = SA / 2 - P.G * SB := by
    have e1 : ∑ i, (∑ s, momOf (val y) i s ^ 2) / (2 * mass P i) = SA / 2 := by
      rw [eSA, etk, Finset.sum_div]
      exact Finset.sum_congr rfl fun i _ => by rw [div_div, mul_comm (mass P i)]
    have e2 : (∑ i : Fin P.nb, ∑ j : Fin P.nb, if j < i then mass P i * mass P j / √(dist2 (posOf (val y) i) (posOf (val y) j)) else 0) =
        SB + missing (mass P) (posOf (val y)) := by
      rw [eSB, etp, missing, ← Finset.sum_add_distrib]
      refine Finset.sum_congr rfl fun i _ => ?_
      rw [← Finset.sum_add_distrib]
      refine Finset.sum_congr rfl fun j _ => ?_
      by_cases h1 : (j : ℕ) + 1 < (i : ℕ)
      · have h2 : ¬ (j : ℕ) + 1 = (i : ℕ) := by omega
        have h3 : j < i := by rw [Fin.lt_def]; omega
        simp only [h1, h2, h3, if_true, if_false, add_zero]; rfl
      · by_cases h2 : (j : ℕ) + 1 = (i : ℕ)
        · have h3 : j < i := by rw [Fin.lt_def]; omega
          simp only [h1, h2, h3, if_true, if_false, zero_add]
          rw [if_neg (lt_irrefl _), zero_add]
        · have h3 : ¬ j < i := by rw [Fin.lt_def]; omega
          simp only [h1, h2, h3, if_false, zero_add]
    rw [energy, e1, e2]; ring
  rw [eH, eE]
  have bA : A / 2 ≤ P.nb * (2 * M ^ 2 / μ) := by
    have : A ≤ P.nb * (3 * M ^ 2 / μ) := by
      rw [eA]
      refine (Finset.sum_le_card_nsmul _ _ (3 * M ^ 2 / μ) fun i _ => ?_).trans_eq (by simp)
      rw [etk]
      simp only
      rw [abs_div, abs_of_nonneg (Finset.sum_nonneg fun _ _ => sq_nonneg _)]
      refine div_le_div₀ (by positivity) ?_ hμ (hS.mass i)
      refine (Finset.sum_le_card_nsmul _ _ (M ^ 2) fun s _ => ?_).trans_eq (by simp)
      rw [← sq_abs]
      exact pow_le_pow_left₀ (abs_nonneg _) ((mom_le (val y) i s).trans hM) 2
    have q : 0 ≤ P.nb * (M ^ 2 / μ) := by positivity
    have e3 : (P.nb : ℝ) * (3 * M ^ 2 / μ) = 3 * (P.nb * (M ^ 2 / μ)) := by ring
    have e4 : (P.nb : ℝ) * (2 * M ^ 2 / μ) = 2 * (P.nb * (M ^ 2 / μ)) := by ring
    rw [e4]; linarith
  have bB : |P.G| * B ≤ P.nb * (2 * K / a) := by
    rw [eB, Finset.mul_sum]
    refine (Finset.sum_le_card_nsmul _ _ (2 * K / a) fun i _ => ?_).trans_eq (by simp)
    rw [Finset.mul_sum]
    refine le_trans (Finset.sum_le_sum fun j _ => ?_) (?_ : ∑ j, |P.G * mass P i * mass P j| * (2 / a) ≤ _)
    · split_ifs with h1
      · have hs := hx i j (fun e => by subst e; omega)
        have hs0 : 0 < sep (val y) i j := lt_of_lt_of_le (by positivity) hs
        rw [etp]
        simp only
        rw [← abs_mul, ← mul_div_assoc, abs_div, abs_of_pos hs0, ← mul_assoc, div_eq_mul_inv]
        refine mul_le_mul_of_nonneg_left ?_ (abs_nonneg _)
        calc (sep (val y) i j)⁻¹ ≤ (a / 2)⁻¹ := inv_anti₀ (by positivity) hs
          _ = 2 / a := by rw [inv_div]
      · rw [mul_zero]; positivity
    · rw [← Finset.sum_mul]
      calc _ ≤ K * (2 / a) := mul_le_mul_of_nonneg_right (hS.force i) (by positivity)
        _ = _ := by ring
  have hg : grow F (m + 1 + 1) ≤ 2 * (14 + P.nb + P.nb * P.nb) * F.eps := by
    have := inv_pow_le (e := F.eps) (k := 14 + P.nb + P.nb * P.nb) e0.le hN (by linarith)
    rw [show m + 1 + 1 = 14 + P.nb + P.nb * P.nb by omega]
    unfold grow
    push_cast at this ⊢
    exact this
  refine hf.trans (mul_le_mul hg (by rw [mul_add]; exact add_le_add bA bB) (by positivity) (by positivity))

/-- the condition on the precision holds for the six bodies of Outer.hpp; the other hypotheses: `shipped_program`. -/
example {F : FP} (hp : 10 ≤ F.p) : ((14 + outer.nb + outer.nb * outer.nb : ℕ) : ℝ) * F.eps ≤ 1 / 2 := by
  have e0 := F.eps_pos
  have e1 := eps_1024 hp
  have : (14 + outer.nb + outer.nb * outer.nb : ℕ) = 56 := rfl
  rw [this]
  push_cast
  linarith

/-- C126: **the lines with `H` in the file**: up to the error of the trajectory and rounding errors, `H` is the energy at the beginning
plus the potential of the pairs of neighbours, which it leaves out. -/
theorem planets_main_H_partial {t : GTab} (ht : t ∈ gaussD) {y : ℝ → Fin (6 * P.nb) → ℝ} {T a M μ K ρ L V : ℝ} (hS : Sizes P μ K)
    (hT : 0 ≤ T) (hy : SolOn (field P) y 0 T) (ha : 0 < a) (hr : ∀ t ∈ Set.Icc 0 T, Far P a (y t)) (hM : ∀ t ∈ Set.Icc 0 T, ‖y t‖ ≤ M)
    (eρ : ρ = a / 8) (eL : L = 1 / μ + 112 * K / a ^ 3) (eV : V = (M + a / 8) / μ + 4 * K / a ^ 2) :
    ∃ h0 C : ℝ, 0 < h0 ∧ 0 ≤ C ∧
      ∀ (F : FP) (_ : 10 ≤ F.p) (_ : (35 + P.nb : ℕ) * F.eps ≤ 1 / 2) (_ : (14 + P.nb + P.nb * P.nb : ℕ) * F.eps ≤ 1 / 2) (itermax : ℤ)
        (c : PlanetsFl F P.nb) (_ : Computes c) (η : ℝ) (_ : η = F.eps * ((M + ρ) / μ + 8 * (35 + P.nb) * K / a ^ 2))
        (h : F.T) (_ : 0 < h.1) (_ : h.1 ≤ h0) (_ : h.1 * L ≤ 1 / 3)
        (junk st0 : St F.T (6 * P.nb)) (_ : construct (cfgFt F t itermax (planetsFl c)) junk = some (.ok st0))
        (u0 : Fin (6 * P.nb) → F.T) (e0 : ℝ) (_ : ‖val u0 - y 0‖ ≤ e0) (G κ r : ℝ) (_ : G = (ocst F 12 t.s η L ρ h.1 M V C).G)
        (_ : κ = (ocst F 12 t.s η L ρ h.1 M V C).κ) (_ : r = (ocst F 12 t.s η L ρ h.1 M V C).r)
        (_ : Real.exp (2 * (1 + 1 / 10 ^ 11) * L * T) * (e0 + T * (G + κ / h.1)) + κ + h.1 * (1 + 1 / 10 ^ 10) * (V + η) + r ≤ ρ)
        (years : ℝ) (it : ℕ) (u : Fin (6 * P.nb) → F.T) (st : St F.T (6 * P.nb)) (w : List (Fin (6 * P.nb) → F.T))
        (_ : SympLoopZ (cfgFt F t itermax (planetsFl c)) (halfA P.nb) h (moreSteps years h.1) u0 st0 it u st w),
        ∀ j (hj : j < w.length), (it - j : ℕ) * h.1 ≤ T →
          |(hamilFl c w[j]).1 - (energy P.G (mass P) (posOf (y 0)) (momOf (y 0)) + P.G * missing (mass P) (posOf (val w[j])))| ≤
          4 * P.nb * V *
            (Real.exp (2 * (1 + 1 / 10 ^ 11) * L * ((it - j : ℕ) * h.1)) * (e0 + (it - j : ℕ) * h.1 * (G + κ / h.1))) +
          2 * (14 + P.nb + P.nb * P.nb) * F.eps * (P.nb * (2 * (M + a / 8) ^ 2 / μ + 2 * K / a)) := by
  obtain ⟨h0, C, p1, p2, p3⟩ := planets_main_energy_partial ht hS hT hy ha hr hM eρ eL eV
  refine ⟨h0, C, p1, p2, ?_⟩
  intro F hp hN hN2 itermax c hc η eη h hh hh0 hhL junk st0 hst u0 e0 he0 G κ r eG eκ er hρ years it u st w hl j hj hT'
  obtain ⟨k1, k2, k3⟩ := p3 F hp hN itermax c hc η eη h hh hh0 hhL junk st0 hst u0 e0 he0 G κ r eG eκ er hρ years it u st w hl j hj hT'
  have k4 := hamil_rounding hp hc hN2 hS ha k2 k3
  refine le_trans ?_ (add_le_add k1 k4)
  rw [add_comm]
  refine le_trans (le_of_eq ?_) (abs_add_le _ _)
  congr 1
  ring

end Odes.Symp.Test
