import Verif.Props.SympKepler
import Verif.Model.Planets

/-!
# C126: the planetary problems
-/

namespace Odes.Symp.Test

open Odes.Mem Odes.Symp Spec.NBody

/-! ### `init` -/

theorem put3_spec {U : Buf ℝ} {k : ℤ} (h0 : 0 ≤ k) (h1 : k + 3 ≤ U.size) (v : Fin 3 → ℝ) :
    ∃ Z, put3 k v U = some Z ∧ Z.size = U.size ∧ (∀ s : Fin 3, Z.cell (k + s) = v s) ∧
      ∀ j, j < k ∨ k + 3 ≤ j → Z.cell j = U.cell j := by
  refine ⟨⟨U.size, Function.update (Function.update (Function.update U.cell k (v 0)) (k + 1) (v 1)) (k + 2) (v 2)⟩, ?_, rfl,
    fun s => ?_, fun j hj => ?_⟩
  · simp [put3, Buf.wr, show 0 ≤ k ∧ k < U.size by omega, show 0 ≤ k + 1 ∧ k + 1 < U.size by omega,
      show 0 ≤ k + 2 ∧ k + 2 < U.size by omega]
  · fin_cases s <;> simp [Function.update]
  · have a : j ≠ k := by omega
    have b : j ≠ k + 1 := by omega
    have c : j ≠ k + 2 := by omega
    simp [Function.update, a, b, c]

theorem bodies_spec {nb : ℤ} (l : List ((Fin 3 → ℝ) × (Fin 3 → ℝ))) : ∀ {k : ℤ} {U : Buf ℝ}, 0 ≤ k → k + l.length ≤ nb →
    U.size = 6 * nb → ∃ Z, bodies nb l k U = some Z ∧ Z.size = U.size ∧
      (∀ (i : ℕ) (hi : i < l.length) (s : Fin 3), Z.cell (3 * (k + i) + s) = l[i].1 s ∧
        Z.cell (3 * nb + (3 * (k + i) + s)) = l[i].2 s) ∧
      ∀ j, j < 3 * k ∨ (3 * nb ≤ j ∧ j < 3 * nb + 3 * k) → Z.cell j = U.cell j := by
  induction l with
  | nil => exact fun _ _ _ => ⟨_, rfl, rfl, fun i hi => absurd hi (by simp), fun _ _ => rfl⟩
  | cons r l ih =>
    intro k U h0 h1 h2
    rw [List.length_cons] at h1
    push_cast at h1
    obtain ⟨Z1, e1, s1, c1, d1⟩ := put3_spec (U := U) (k := 3 * k) (by omega) (by omega) r.1
    obtain ⟨Z2, e2, s2, c2, d2⟩ := put3_spec (U := Z1) (k := 3 * nb + 3 * k) (by omega) (by omega) r.2
    obtain ⟨Z, e3, s3, c3, d3⟩ := ih (k := k + 1) (U := Z2) (by omega) (by omega) (by omega)
    refine ⟨Z, by rw [bodies, e1, Option.bind_some, e2, Option.bind_some, e3], by omega, fun i hi s => ?_, fun j hj => ?_⟩
    · have hs := s.2
      rcases i with _ | i
      · rw [d3 _ (Or.inl (by push_cast; omega)), d3 _ (Or.inr (by push_cast; omega)), d2 _ (Or.inl (by push_cast; omega))]
        have a := c1 s
        have b := c2 s
        simp only [Nat.cast_zero, add_zero, List.getElem_cons_zero]
        exact ⟨a, by rw [← b]; congr 1; ring⟩
      · have := c3 i (by simpa using hi) s
        rw [show k + 1 + (i : ℤ) = k + ((i + 1 : ℕ) : ℤ) by push_cast; ring] at this
        simpa using this
    · rw [d3 j (by omega), d2 j (by omega), d1 j (by omega)]

theorem sun_spec {nb : ℤ} {U : Buf ℝ} (h1 : 1 ≤ nb) (h2 : U.size = 6 * nb) : ∃ Z, sun nb U = some Z ∧ Z.size = U.size ∧
    (∀ s : Fin 3, Z.cell (3 * (nb - 1) + s) = 0 ∧ Z.cell (3 * nb + (3 * (nb - 1) + s)) = 0) ∧
    ∀ j, j < 3 * (nb - 1) ∨ (3 * nb ≤ j ∧ j < 3 * nb + 3 * (nb - 1)) → Z.cell j = U.cell j := by
  obtain ⟨Z, e, hs, hz, hk⟩ := forUp_nat (body := fun i (U : Buf ℝ) => (U.wr (3 * (nb - 1) + i) 0).bind fun U =>
      U.wr (3 * nb + (3 * (nb - 1) + i)) 0)
    (fun m (Z : Buf ℝ) => Z.size = U.size ∧ (∀ s : ℕ, s < m → Z.cell (3 * (nb - 1) + s) = 0 ∧
      Z.cell (3 * nb + (3 * (nb - 1) + s)) = 0) ∧
      ∀ j, j < 3 * (nb - 1) ∨ (3 * nb ≤ j ∧ j < 3 * nb + 3 * (nb - 1)) → Z.cell j = U.cell j) 3 (st := U)
    ⟨rfl, fun s hs => absurd hs (by omega), fun _ _ => rfl⟩ (by
      rintro j Z hj ⟨g1, g2, g3⟩
      refine ⟨⟨Z.size, Function.update (Function.update Z.cell (3 * (nb - 1) + j) 0) (3 * nb + (3 * (nb - 1) + j)) 0⟩, ?_, g1,
        fun s hs => ?_, fun i hi => ?_⟩
      · simp [Buf.wr, show 0 ≤ 3 * (nb - 1) + (j : ℤ) ∧ 3 * (nb - 1) + (j : ℤ) < Z.size by omega,
          show 0 ≤ 3 * nb + (3 * (nb - 1) + (j : ℤ)) ∧ 3 * nb + (3 * (nb - 1) + (j : ℤ)) < Z.size by omega]
      · by_cases e : s = j
        · subst e
          simp [Function.update]
        · have := g2 s (by omega)
          have a : (3 * (nb - 1) + (s : ℤ)) ≠ 3 * (nb - 1) + j := by omega
          have b : (3 * (nb - 1) + (s : ℤ)) ≠ 3 * nb + (3 * (nb - 1) + j) := by omega
          have c : 3 * nb + (3 * (nb - 1) + (s : ℤ)) ≠ 3 * (nb - 1) + j := by omega
          have d : 3 * nb + (3 * (nb - 1) + (s : ℤ)) ≠ 3 * nb + (3 * (nb - 1) + j) := by omega
          dsimp only
          rw [Function.update_of_ne b, Function.update_of_ne a, Function.update_of_ne d, Function.update_of_ne c]
          exact this
      · dsimp only
        rw [Function.update_of_ne (by omega), Function.update_of_ne (by omega)]
        exact g3 i hi)
  exact ⟨Z, e, hs, fun s => hz s s.2, hk⟩

theorem momenta_spec {P : Planets} {U : Buf ℝ} (hm : P.masses.size = P.nb) (h2 : U.size = 6 * P.nb) :
    ∃ Z, momenta P U = some Z ∧ Z.size = U.size ∧ (∀ j : ℤ, j < 3 * P.nb → Z.cell j = U.cell j) ∧
      ∀ (i : ℕ) (_ : i < P.nb) (s : Fin 3), Z.cell (3 * P.nb + (3 * i + s)) = U.cell (3 * P.nb + (3 * i + s)) * P.masses.cell i := by
  obtain ⟨Z, e, hs, hz, hk, -⟩ := forUp_nat (body := fun i (U : Buf ℝ) => forUp 0 2 (fun j U => (U.rd (3 * P.nb + (3 * i + j))).bind
      fun p => (P.masses.rd i).bind fun m => U.wr (3 * P.nb + (3 * i + j)) (p * m)) U)
    (fun m (Z : Buf ℝ) => Z.size = U.size ∧ (∀ j : ℤ, j < 3 * P.nb → Z.cell j = U.cell j) ∧
      (∀ (i : ℕ) (_ : i < m) (s : Fin 3), Z.cell (3 * P.nb + (3 * i + s)) = U.cell (3 * P.nb + (3 * i + s)) * P.masses.cell i) ∧
      ∀ j, 3 * (P.nb : ℤ) + 3 * m ≤ j → Z.cell j = U.cell j) P.nb (st := U)
    ⟨rfl, fun _ _ => rfl, fun s hs => absurd hs (by omega), fun _ _ => rfl⟩ (by
      rintro i Z hi ⟨g1, g2, g3, g4⟩
      obtain ⟨W, e, w1, w2, w3, w4⟩ := forUp_nat (body := fun j (U : Buf ℝ) => (U.rd (3 * P.nb + (3 * i + j))).bind
          fun p => (P.masses.rd i).bind fun m => U.wr (3 * P.nb + (3 * i + j)) (p * m))
        (fun m (W : Buf ℝ) => W.size = U.size ∧ (∀ j, j < 3 * (P.nb : ℤ) + 3 * i → W.cell j = Z.cell j) ∧
          (∀ s : ℕ, s < m → W.cell (3 * P.nb + (3 * i + s)) = Z.cell (3 * P.nb + (3 * i + s)) * P.masses.cell i) ∧
          ∀ j, 3 * (P.nb : ℤ) + (3 * i + m) ≤ j → W.cell j = Z.cell j) 3 (st := Z)
        ⟨g1, fun _ _ => rfl, fun s hs => absurd hs (by omega), fun _ _ => rfl⟩ (by
          rintro j W hj ⟨q1, q2, q3, q4⟩
          refine ⟨⟨W.size, Function.update W.cell (3 * P.nb + (3 * i + j)) (W.cell (3 * P.nb + (3 * i + j)) * P.masses.cell i)⟩,
            ?_, q1, fun k hk => ?_, fun s hs => ?_, fun k hk => ?_⟩
          · simp [Buf.rd, Buf.wr, show 0 ≤ 3 * (P.nb : ℤ) + (3 * i + j) ∧ 3 * (P.nb : ℤ) + (3 * i + j) < W.size by omega,
              show (i : ℤ) < P.masses.size by omega]
          · dsimp only
            rw [Function.update_of_ne (by omega), q2 k hk]
          · dsimp only
            by_cases e : s = j
            · subst e
              rw [Function.update_self, q4 _ (by omega)]
            · rw [Function.update_of_ne (by omega), q3 s (by omega)]
          · dsimp only
            rw [Function.update_of_ne (by push_cast at hk; omega), q4 k (by push_cast at hk; omega)])
      refine ⟨W, e, w1, fun j hj => by rw [w2 j (by omega), g2 j hj], fun k hk s => ?_, fun j hj => ?_⟩
      · have hs := s.2
        by_cases e : k = i
        · subst e
          rw [w3 s s.2, g4 _ (by omega)]
        · rw [w2 _ (by omega), g3 k (by omega) s]
      · rw [w4 j (by push_cast at hj ⊢; omega), g4 j (by push_cast at hj; omega)])
  exact ⟨Z, e, hs, hz, hk⟩

/-- C126: **`init` writes every element, within the array, whatever it held**: the positions and `mass * velocity`, the Sun
at rest at the origin. -/
theorem init_spec {P : Planets} {l : List ((Fin 3 → ℝ) × (Fin 3 → ℝ))} (hl : l.length + 1 = P.nb) (hm : P.masses.size = P.nb)
    {U : Buf ℝ} (hU : U.size = 6 * P.nb) : ∃ Z, init P l U = some Z ∧ Z.size = U.size ∧ ∀ (i : Fin P.nb) (s : Fin 3),
      pos P.nb Z i s = (if h : (i : ℕ) < l.length then l[i].1 s else 0) ∧
      mom P.nb Z i s = (if h : (i : ℕ) < l.length then mass P i * l[i].2 s else 0) := by
  obtain ⟨Z1, e1, s1, c1, -⟩ := bodies_spec (nb := P.nb) l (k := 0) (U := U) le_rfl (by omega) hU
  obtain ⟨Z2, e2, s2, c2, d2⟩ := sun_spec (nb := P.nb) (U := Z1) (by omega) (by omega)
  obtain ⟨Z, e3, s3, c3, d3⟩ := momenta_spec (P := P) (U := Z2) hm (by omega)
  refine ⟨Z, by rw [init, e1, Option.bind_some, e2, Option.bind_some, e3], by omega, fun i s => ?_⟩
  have hi := i.2
  have hs := s.2
  unfold pos mom mass
  rw [c3 _ (by omega), d3 i i.2 s]
  by_cases h : (i : ℕ) < l.length
  · rw [dif_pos h, dif_pos h, d2 _ (Or.inl (by omega)), d2 _ (Or.inr (by omega))]
    have := c1 i h s
    rw [zero_add] at this
    exact ⟨this.1, by rw [this.2]; exact mul_comm _ _⟩
  · rw [dif_neg h, dif_neg h]
    have e : (i : ℤ) = P.nb - 1 := by omega
    have := c2 s
    rw [← e] at this
    exact ⟨this.1, by rw [this.2, zero_mul]⟩

/-! ### smoothness away from collisions -/

theorem norm3_near {d d' : Fin 3 → ℝ} {δ : ℝ} (h : ∀ s, |d s - d' s| ≤ δ) :
    |√(∑ s, d s ^ 2) - √(∑ s, d' s ^ 2)| ≤ 2 * δ := by
  have hδ : 0 ≤ δ := (abs_nonneg _).trans (h 0)
  have e : ∀ v : Fin 3 → ℝ, √(∑ s, v s ^ 2) = ‖(WithLp.toLp 2 v : EuclideanSpace ℝ (Fin 3))‖ := fun v => by
    rw [EuclideanSpace.norm_eq]
    simp only [Real.norm_eq_abs, sq_abs]
  rw [e, e]
  refine (abs_norm_sub_norm_le _ _).trans ?_
  rw [← WithLp.toLp_sub, ← e]
  refine Real.sqrt_le_iff.2 ⟨by linarith, ?_⟩
  have hs : ∀ s, (d - d') s ^ 2 ≤ δ ^ 2 := fun s => by
    rw [← sq_abs]
    exact pow_le_pow_left₀ (abs_nonneg _) (h s) 2
  rw [Fin.sum_univ_three]
  nlinarith [hs 0, hs 1, hs 2, sq_nonneg δ]

theorem pair_le {z r b : ℝ} (hb : 0 < b) (hr : b ≤ r) (hz : |z| ≤ r) : |z / r ^ 3| ≤ 1 / b ^ 2 := by
  have r0 : 0 < r := lt_of_lt_of_le hb hr
  rw [abs_div, abs_of_pos (pow_pos r0 3), div_le_div_iff₀ (by positivity) (by positivity), one_mul]
  calc |z| * b ^ 2 ≤ r * r ^ 2 := mul_le_mul hz (pow_le_pow_left₀ hb.le hr 2) (by positivity) r0.le
    _ = r ^ 3 := by ring

theorem pair_lip {z z' r r' b δ : ℝ} (hb : 0 < b) (hr : b ≤ r) (hr' : b ≤ r') (hz : |z - z'| ≤ δ) (hz' : |z'| ≤ r')
    (hd : |r - r'| ≤ 2 * δ) : |z / r ^ 3 - z' / r' ^ 3| ≤ 7 * δ / b ^ 3 := by
  have r0 : 0 < r := lt_of_lt_of_le hb hr
  have r1 : 0 < r' := lt_of_lt_of_le hb hr'
  have hδ : 0 ≤ δ := (abs_nonneg _).trans hz
  have e : z / r ^ 3 - z' / r' ^ 3 = (z - z') / r ^ 3 + z' / r' * ((r' - r) * (1 / r ^ 3 + 1 / (r ^ 2 * r') + 1 / (r * r' ^ 2))) := by
    field_simp
    ring
  have q : |z' / r'| ≤ 1 := by
    rw [abs_div, abs_of_pos r1, div_le_one r1]; exact hz'
  have i1 : 1 / r ^ 3 ≤ 1 / b ^ 3 := one_div_le_one_div_of_le (by positivity) (pow_le_pow_left₀ hb.le hr 3)
  have i2 : 1 / (r ^ 2 * r') ≤ 1 / b ^ 3 := one_div_le_one_div_of_le (by positivity) (by
    calc b ^ 3 = b ^ 2 * b := by ring
      _ ≤ _ := mul_le_mul (pow_le_pow_left₀ hb.le hr 2) hr' hb.le (by positivity))
  have i3 : 1 / (r * r' ^ 2) ≤ 1 / b ^ 3 := one_div_le_one_div_of_le (by positivity) (by
    calc b ^ 3 = b * b ^ 2 := by ring
      _ ≤ _ := mul_le_mul hr (pow_le_pow_left₀ hb.le hr' 2) (by positivity) r0.le)
  have a1 : |(z - z') / r ^ 3| ≤ δ * (1 / b ^ 3) := by
    rw [abs_div, abs_of_pos (pow_pos r0 3), div_eq_mul_one_div]
    exact mul_le_mul hz i1 (by positivity) hδ
  have a2 : |(r' - r) * (1 / r ^ 3 + 1 / (r ^ 2 * r') + 1 / (r * r' ^ 2))| ≤ 2 * δ * (3 * (1 / b ^ 3)) := by
    rw [abs_mul, abs_sub_comm, abs_of_pos (by positivity : 0 < 1 / r ^ 3 + 1 / (r ^ 2 * r') + 1 / (r * r' ^ 2))]
    exact mul_le_mul hd (by linarith) (by positivity) (by linarith)
  rw [e]
  refine (abs_add_le _ _).trans ?_
  have a3 := mul_le_mul q a2 (abs_nonneg _) zero_le_one
  rw [← abs_mul] at a3
  have : 7 * δ / b ^ 3 = δ * (1 / b ^ 3) + 1 * (2 * δ * (3 * (1 / b ^ 3))) := by ring
  linarith

variable {P : Planets}

/-- distance of two bodies -/
noncomputable def sep (y : Fin (6 * P.nb) → ℝ) (i j : Fin P.nb) : ℝ := √(dist2 (posOf y i) (posOf y j))

/-- all distances are at least `a` -/
def Far (P : Planets) (a : ℝ) (y : Fin (6 * P.nb) → ℝ) : Prop := ∀ i j, i ≠ j → a ≤ sep y i j

theorem pos_le (y : Fin (6 * P.nb) → ℝ) (i : Fin P.nb) (s : Fin 3) : |posOf y i s| ≤ ‖y‖ := norm_le_pi_norm y _

theorem mom_le (y : Fin (6 * P.nb) → ℝ) (i : Fin P.nb) (s : Fin 3) : |momOf y i s| ≤ ‖y‖ := norm_le_pi_norm y _

theorem diff_near (x y : Fin (6 * P.nb) → ℝ) (i j : Fin P.nb) (s : Fin 3) :
    |(posOf x i s - posOf x j s) - (posOf y i s - posOf y j s)| ≤ 2 * ‖x - y‖ := by
  have a : |posOf x i s - posOf y i s| ≤ ‖x - y‖ := pos_le (x - y) i s
  have b : |posOf x j s - posOf y j s| ≤ ‖x - y‖ := pos_le (x - y) j s
  rw [show (posOf x i s - posOf x j s) - (posOf y i s - posOf y j s) = (posOf x i s - posOf y i s) - (posOf x j s - posOf y j s) by ring]
  exact (abs_sub _ _).trans (by linarith)

theorem sep_near (x y : Fin (6 * P.nb) → ℝ) (i j : Fin P.nb) : |sep x i j - sep y i j| ≤ 2 * (2 * ‖x - y‖) :=
  norm3_near fun s => diff_near x y i j s

theorem diff_le (x : Fin (6 * P.nb) → ℝ) (i j : Fin P.nb) (s : Fin 3) : |posOf x i s - posOf x j s| ≤ sep x i j := by
  refine Real.abs_le_sqrt ?_
  exact Finset.single_le_sum (f := fun s => (posOf x i s - posOf x j s) ^ 2) (fun _ _ => sq_nonneg _) (Finset.mem_univ s)

theorem Far.near {x y : Fin (6 * P.nb) → ℝ} {a : ℝ} (h : Far P a y) (hx : ‖x - y‖ ≤ a / 8) : Far P (a / 2) x := fun i j hij => by
  have h1 := h i j hij
  have h2 := (abs_le.1 (sep_near x y i j)).1
  linarith

/-- a component of the right hand side -/
theorem field_mom (x : Fin (6 * P.nb) → ℝ) (i : Fin P.nb) (s : Fin 3) : momOf (field P x) i s =
    ∑ j, P.G * mass P i * mass P j * ((posOf x i s - posOf x j s) / sep x i j ^ 3) := by
  rw [momOf_field, force, neg_one_mul, neg_neg]
  refine Finset.sum_congr rfl fun j _ => ?_
  unfold sep
  ring

/-- the constants: smallest mass, strength of the interactions -/
structure Sizes (P : Planets) (μ K : ℝ) : Prop where
  pos : 0 < μ
  mass : ∀ i, μ ≤ |mass P i|
  force : ∀ i, ∑ j, |P.G * Test.mass P i * Test.mass P j| ≤ K
  one : 0 ≤ K

theorem field_comp {g : (Fin (6 * P.nb) → ℝ)} {c : ℝ} (h1 : ∀ i s, |posOf g i s| ≤ c) (h2 : ∀ i s, |momOf g i s| ≤ c) (h0 : 0 ≤ c) :
    ‖g‖ ≤ c := by
  rw [pi_norm_le_iff_of_nonneg h0]
  intro k
  rcases coord k with ⟨i, s, e⟩ | ⟨i, s, e⟩
  · have := h1 i s
    have ek : k = ⟨3 * i + s, by have := i.2; have := s.2; omega⟩ := Fin.ext e
    rw [ek]; exact this
  · have := h2 i s
    have ek : k = ⟨3 * P.nb + (3 * i + s), by have := i.2; have := s.2; omega⟩ := Fin.ext e
    rw [ek]; exact this

theorem field_norm {μ K a M : ℝ} (hS : Sizes P μ K) {x : Fin (6 * P.nb) → ℝ} (ha : 0 < a) (hx : Far P (a / 2) x) (hM : ‖x‖ ≤ M) :
    ‖field P x‖ ≤ M / μ + 4 * K / a ^ 2 := by
  have hμ := hS.pos
  have hK := hS.one
  have hM0 : 0 ≤ M := (norm_nonneg _).trans hM
  have p1 : 0 ≤ M / μ := by positivity
  have p2 : 0 ≤ 4 * K / a ^ 2 := by positivity
  refine field_comp (fun i s => ?_) (fun i s => ?_) (by positivity)
  · rw [posOf_field, neg_one_mul, abs_neg, abs_div]
    have : |momOf x i s| / |mass P i| ≤ M / μ := div_le_div₀ hM0 ((mom_le x i s).trans hM) hμ (hS.mass i)
    linarith
  · rw [field_mom]
    have : |∑ j, P.G * mass P i * mass P j * ((posOf x i s - posOf x j s) / sep x i j ^ 3)| ≤ K * (4 / a ^ 2) := by
      refine (Finset.abs_sum_le_sum_abs _ _).trans ?_
      refine le_trans (Finset.sum_le_sum fun j _ => ?_) (?_ : ∑ j, |P.G * mass P i * mass P j| * (4 / a ^ 2) ≤ _)
      · rw [abs_mul]
        refine mul_le_mul_of_nonneg_left ?_ (abs_nonneg _)
        by_cases hij : i = j
        · subst hij; rw [sub_self, zero_div, abs_zero]; positivity
        · have := pair_le (by positivity : 0 < a / 2) (hx i j hij) (diff_le x i j s)
          rwa [show 1 / (a / 2) ^ 2 = 4 / a ^ 2 by field_simp; norm_num] at this
      · rw [← Finset.sum_mul]
        exact mul_le_mul_of_nonneg_right (hS.force i) (by positivity)
    have e : K * (4 / a ^ 2) = 4 * K / a ^ 2 := by ring
    linarith

theorem field_lip {μ K a : ℝ} (hS : Sizes P μ K) {x z : Fin (6 * P.nb) → ℝ} (ha : 0 < a) (hx : Far P (a / 2) x)
    (hz : Far P (a / 2) z) : ‖field P x - field P z‖ ≤ (1 / μ + 112 * K / a ^ 3) * ‖x - z‖ := by
  have hμ := hS.pos
  have hK := hS.one
  have hn := norm_nonneg (x - z)
  have p1 : 0 ≤ 1 / μ * ‖x - z‖ := by positivity
  have p2 : 0 ≤ 112 * K / a ^ 3 * ‖x - z‖ := by positivity
  refine field_comp (fun i s => ?_) (fun i s => ?_) (by positivity)
  · show |posOf (field P x) i s - posOf (field P z) i s| ≤ _
    rw [posOf_field, posOf_field, show -1 * (momOf x i s / mass P i) - -1 * (momOf z i s / mass P i) =
      -((momOf x i s - momOf z i s) / mass P i) by ring, abs_neg, abs_div]
    have : |momOf x i s - momOf z i s| / |mass P i| ≤ ‖x - z‖ / μ := div_le_div₀ hn (mom_le (x - z) i s) hμ (hS.mass i)
    have e : ‖x - z‖ / μ = 1 / μ * ‖x - z‖ := by ring
    linarith
  · show |momOf (field P x) i s - momOf (field P z) i s| ≤ _
    rw [field_mom, field_mom, ← Finset.sum_sub_distrib]
    have : |∑ j, (P.G * mass P i * mass P j * ((posOf x i s - posOf x j s) / sep x i j ^ 3) -
        P.G * mass P i * mass P j * ((posOf z i s - posOf z j s) / sep z i j ^ 3))| ≤ K * (112 / a ^ 3 * ‖x - z‖) := by
      refine (Finset.abs_sum_le_sum_abs _ _).trans ?_
      refine le_trans (Finset.sum_le_sum fun j _ => ?_)
        (?_ : ∑ j, |P.G * mass P i * mass P j| * (112 / a ^ 3 * ‖x - z‖) ≤ _)
      · rw [← mul_sub, abs_mul]
        refine mul_le_mul_of_nonneg_left ?_ (abs_nonneg _)
        by_cases hij : i = j
        · subst hij; rw [sub_self, sub_self, zero_div, zero_div, sub_self, abs_zero]; positivity
        · have := pair_lip (by positivity : 0 < a / 2) (hx i j hij) (hz i j hij) (diff_near x z i j s) (diff_le z i j s)
            (sep_near x z i j)
          rwa [show 7 * (2 * ‖x - z‖) / (a / 2) ^ 3 = 112 / a ^ 3 * ‖x - z‖ by field_simp; ring] at this
      · rw [← Finset.sum_mul]
        exact mul_le_mul_of_nonneg_right (hS.force i) (by positivity)
    have e : K * (112 / a ^ 3 * ‖x - z‖) = 112 * K / a ^ 3 * ‖x - z‖ := by ring
    linarith

theorem field_smooth {a : ℝ} {x : Fin (6 * P.nb) → ℝ} (ha : 0 < a) (hx : Far P a x) (N : ℕ) : ContDiffAt ℝ N (field P) x := by
  have hk : ∀ k, ContDiffAt ℝ N (fun x : Fin (6 * P.nb) → ℝ => x k) x := fun k => (contDiff_apply ℝ ℝ k).contDiffAt
  have hp : ∀ i s, ContDiffAt ℝ N (fun x : Fin (6 * P.nb) → ℝ => posOf x i s) x := fun i s => hk _
  have hq : ∀ i s, ContDiffAt ℝ N (fun x : Fin (6 * P.nb) → ℝ => momOf x i s) x := fun i s => hk _
  refine contDiffAt_pi.2 fun k => ?_
  rcases coord k with ⟨i, s, e⟩ | ⟨i, s, e⟩
  · have ek : k = ⟨3 * i + s, by have := i.2; have := s.2; omega⟩ := Fin.ext e
    have : (fun x => field P x k) = fun x => -1 * (momOf x i s / mass P i) := funext fun x => by
      rw [← posOf_field, ek]; rfl
    rw [this]
    exact contDiffAt_const.mul ((hq i s).div_const _)
  · have ek : k = ⟨3 * P.nb + (3 * i + s), by have := i.2; have := s.2; omega⟩ := Fin.ext e
    have : (fun x => field P x k) = fun x => ∑ j, P.G * mass P i * mass P j * ((posOf x i s - posOf x j s) / sep x i j ^ 3) :=
      funext fun x => by rw [← field_mom, ek]; rfl
    rw [this]
    refine ContDiffAt.sum fun j _ => contDiffAt_const.mul ?_
    by_cases hij : i = j
    · subst hij
      simp only [sub_self, zero_div]
      exact contDiffAt_const
    · have h0 : 0 < sep x i j := lt_of_lt_of_le ha (hx i j hij)
      refine ((hp i s).sub (hp j s)).div (ContDiffAt.pow ?_ 3) (pow_pos h0 3).ne'
      refine ContDiffAt.sqrt ?_ (Real.sqrt_pos.1 h0).ne'
      exact ContDiffAt.sum fun s _ => ((hp i s).sub (hp j s)).pow 2

/-- C126: the hypotheses of C123 for every solution without collision, with explicit constants. -/
theorem planets_smoothly {y : ℝ → Fin (6 * P.nb) → ℝ} {t0 t1 a M μ K : ℝ} (hS : Sizes P μ K) (hy : SolOn (field P) y t0 t1) (ha : 0 < a)
    (hr : ∀ t ∈ Set.Icc t0 t1, Far P a (y t)) (hM : ∀ t ∈ Set.Icc t0 t1, ‖y t‖ ≤ M) (N : ℕ) :
    Smoothly (field P) y t0 t1 (a / 8) N (1 / μ + 112 * K / a ^ 3) M ((M + a / 8) / μ + 4 * K / a ^ 2) where
  sol := hy
  pos := by positivity
  smooth t ht x hx := field_smooth (by positivity) ((hr t ht).near hx) N
  bound0 := hM
  bound1 t ht x hx := by
    refine field_norm hS ha ((hr t ht).near hx) ?_
    have e : x = y t + (x - y t) := by abel
    rw [e]
    exact (norm_add_le _ _).trans (add_le_add (hM t ht) hx)
  lip t ht x z hx hz := field_lip hS ha ((hr t ht).near hx) ((hr t ht).near hz)

/-- a solution without collision on a compact interval: distances and norm are bounded. -/
theorem planets_away {y : ℝ → Fin (6 * P.nb) → ℝ} {t0 t1 : ℝ} (hy : SolOn (field P) y t0 t1)
    (h : ∀ t ∈ Set.Icc t0 t1, Apart (posOf (y t))) :
    ∃ a M : ℝ, 0 < a ∧ ∀ t ∈ Set.Icc t0 t1, Far P a (y t) ∧ ‖y t‖ ≤ M := by
  have hc : ContinuousOn y (Set.Icc t0 t1) := fun t ht => (hy t ht).continuousWithinAt
  obtain ⟨M, hM⟩ := isCompact_Icc.exists_bound_of_continuousOn hc
  have hp : ∀ p : Fin P.nb × Fin P.nb, ∃ a : ℝ, 0 < a ∧ (p.1 ≠ p.2 → ∀ t ∈ Set.Icc t0 t1, a ≤ sep (y t) p.1 p.2) := by
    rintro ⟨i, j⟩
    by_cases hij : i = j
    · exact ⟨1, one_pos, fun h => absurd hij h⟩
    rcases (Set.Icc t0 t1).eq_empty_or_nonempty with he | he
    · exact ⟨1, one_pos, fun _ t ht => by rw [he] at ht; exact ht.elim⟩
    have hs : ContinuousOn (fun t => sep (y t) i j) (Set.Icc t0 t1) := by
      refine ContinuousOn.sqrt ?_
      refine continuousOn_finsetSum _ fun s _ => ContinuousOn.pow (ContinuousOn.sub ?_ ?_) 2
      · exact (continuous_apply _).comp_continuousOn hc
      · exact (continuous_apply _).comp_continuousOn hc
    obtain ⟨t, ht, hmin⟩ := isCompact_Icc.exists_isMinOn he hs
    exact ⟨sep (y t) i j, Real.sqrt_pos.2 (dist2_pos (h t ht i j hij)), fun _ u hu => hmin hu⟩
  choose a ha using hp
  rcases (Finset.univ : Finset (Fin P.nb × Fin P.nb)).eq_empty_or_nonempty with he | he
  · refine ⟨1, M, one_pos, fun t ht => ⟨fun i j => ?_, hM t ht⟩⟩
    exact absurd (Finset.mem_univ (i, j)) (by rw [he]; simp)
  · obtain ⟨p, -, hp⟩ := Finset.exists_min_image Finset.univ a he
    exact ⟨a p, M, (ha p).1, fun t ht => ⟨fun i j hij => (hp (i, j) (Finset.mem_univ _)).trans ((ha (i, j)).2 hij t ht), hM t ht⟩⟩

/-- C126: **order `2s` on the problem of `N` bodies** (tables of `double`), as long as the solution has no collision.  The
right hand side is computed by a function which writes its result and nothing else, with error at most `η`. -/
theorem planets_order_partial {t : GTab} (ht : t ∈ gaussD) {y : ℝ → Fin (6 * P.nb) → ℝ} {T a M μ K ρ L V : ℝ} (hS : Sizes P μ K)
    (hT : 0 ≤ T) (hy : SolOn (field P) y 0 T) (ha : 0 < a) (hr : ∀ t ∈ Set.Icc 0 T, Far P a (y t)) (hM : ∀ t ∈ Set.Icc 0 T, ‖y t‖ ≤ M)
    (eρ : ρ = a / 8) (eL : L = 1 / μ + 112 * K / a ^ 3) (eV : V = (M + a / 8) / μ + 4 * K / a ^ 2) :
    ∃ h0 C : ℝ, 0 < h0 ∧ 0 ≤ C ∧
      ∀ (F : FP) (_ : 10 ≤ F.p) (itermax : ℤ) (fF : (Fin (6 * P.nb) → F.T) → Fin (6 * P.nb) → F.T) (η : ℝ) (_ : 0 ≤ η)
        (_ : ∀ x, ∀ t ∈ Set.Icc 0 T, ‖val x - y t‖ ≤ ρ → ‖val (fF x) - field P (val x)‖ ≤ η)
        (h : F.T) (_ : 0 < h.1) (_ : h.1 ≤ h0) (_ : h.1 * L ≤ 1 / 3)
        (junk st0 : St F.T (6 * P.nb)) (_ : construct (cfgFt F t itermax fF) junk = some (.ok st0))
        (u0 : Fin (6 * P.nb) → F.T) (e0 : ℝ) (_ : ‖val u0 - y 0‖ ≤ e0) (G κ r : ℝ) (_ : G = (ocst F 12 t.s η L ρ h.1 M V C).G)
        (_ : κ = (ocst F 12 t.s η L ρ h.1 M V C).κ) (_ : r = (ocst F 12 t.s η L ρ h.1 M V C).r)
        (_ : Real.exp (2 * (1 + 1 / 10 ^ 11) * L * T) * (e0 + T * G) + κ + h.1 * (1 + 1 / 10 ^ 10) * (V + η) + r ≤ ρ)
        (N : ℕ) (u : Fin (6 * P.nb) → F.T) (st : St F.T (6 * P.nb)) (_ : RunF (cfgFt F t itermax fF) h N u0 st0 u st)
        (_ : N * h.1 ≤ T),
        ‖val u - y (N * h.1)‖ ≤ Real.exp (2 * (1 + 1 / 10 ^ 11) * L * (N * h.1)) * (e0 + N * h.1 * G) + κ := by
  have hSm := planets_smoothly hS hy ha hr hM (2 * t.s)
  rw [← eρ, ← eL, show (M + ρ) / μ + 4 * K / a ^ 2 = V by rw [eV, eρ]] at hSm
  have hL0 : 0 ≤ L := by
    have := hS.pos
    have := hS.one
    rw [eL]; positivity
  obtain ⟨h0, C, p1, p2, p3⟩ := symp_double_order ht hT hL0 hSm
  refine ⟨h0, C, p1, p2, ?_⟩
  intro F hp itermax fF η hη hf h hh hh0 hhL junk st0 hst u0 e0 he0 G κ r eG eκ er hρ N u st hrun hN
  have := (p3 F hp itermax fF η hη hf h hh hh0 hhL junk st0 hst u0 e0 he0 G κ r (V + η) eG eκ er rfl
    (by simpa using hρ) N u st hrun (by simpa using hN)).2
  simpa using this

/-- the theorem of Picard and Lindelöf, with the ball in which the solution stays. -/
theorem picard_mem {E : Type*} [NormedAddCommGroup E] [NormedSpace ℝ E] [CompleteSpace E] {f : ℝ → E → E} {tmin tmax : ℝ}
    {t0 : Set.Icc tmin tmax} {x0 : E} {a L K : NNReal} (hf : IsPicardLindelof f t0 x0 a 0 L K) :
    ∃ y : ℝ → E, y t0 = x0 ∧ (∀ t ∈ Set.Icc tmin tmax, HasDerivWithinAt y (f t (y t)) (Set.Icc tmin tmax) t) ∧
      ∀ t, y t ∈ Metric.closedBall x0 a := by
  obtain ⟨α, hα⟩ := ODE.FunSpace.exists_isFixedPt_next hf (Metric.mem_closedBall_self le_rfl)
  refine ⟨α.compProj, by rw [ODE.FunSpace.compProj_val, ← hα, ODE.FunSpace.next_apply₀], fun t ht => ?_,
    fun t => α.compProj_mem_closedBall hf.mul_max_le⟩
  apply ODE.hasDerivWithinAt_picard_Icc t0.2 hf.continuousOn_uncurry
    α.continuous_compProj.continuousOn (fun _ ht' => α.compProj_mem_closedBall hf.mul_max_le) x0 ht |>.congr_of_mem _ ht
  intro t' ht'
  nth_rw 1 [← hα]
  rw [ODE.FunSpace.compProj_of_mem ht', ODE.FunSpace.next_apply]

/-- C126: solutions exist for a time which depends on the distances, the masses and the size of the state only. -/
theorem planets_exists {w : Fin (6 * P.nb) → ℝ} {a M μ K V : ℝ} (hS : Sizes P μ K) (ha : 0 < a) (hw : Far P a w) (hM : ‖w‖ ≤ M)
    (eV : V = (M + a / 8) / μ + 4 * K / a ^ 2) :
    ∃ y : ℝ → Fin (6 * P.nb) → ℝ, y 0 = w ∧ SolOn (field P) y 0 (a / 8 / V) ∧
      ∀ t ∈ Set.Icc 0 (a / 8 / V), Far P (a / 2) (y t) ∧ ‖y t‖ ≤ M + a / 8 := by
  have hμ := hS.pos
  have hK := hS.one
  have hM0 : 0 ≤ M := (norm_nonneg _).trans hM
  have hV : 0 < V := by rw [eV]; positivity
  have hT : 0 < a / 8 / V := by positivity
  have hpl : IsPicardLindelof (fun _ => field P) (tmin := 0) (tmax := a / 8 / V) ⟨0, le_rfl, hT.le⟩ w
      ⟨a / 8, by positivity⟩ 0 ⟨V, hV.le⟩ ⟨1 / μ + 112 * K / a ^ 3, by positivity⟩ := by
    refine IsPicardLindelof.of_time_independent (fun x hx => ?_) (LipschitzOnWith.of_dist_le_mul fun x hx z hz => ?_) ?_
    · rw [mem_closedBall_iff_norm] at hx
      show ‖field P x‖ ≤ V
      rw [eV]
      refine field_norm hS ha (hw.near hx) ?_
      have e : x = w + (x - w) := by abel
      rw [e]
      exact (norm_add_le _ _).trans (add_le_add hM hx)
    · rw [mem_closedBall_iff_norm] at hx hz
      rw [dist_eq_norm, dist_eq_norm]
      exact field_lip hS ha (hw.near hx) (hw.near hz)
    · show V * max (a / 8 / V - 0) (0 - 0) ≤ a / 8 - 0
      rw [sub_zero, sub_zero, sub_zero, max_eq_left hT.le]
      exact le_of_eq (by field_simp)
  obtain ⟨y, y0, hy, hb⟩ := picard_mem hpl
  refine ⟨y, y0, hy, fun t ht => ?_⟩
  have := hb t
  rw [mem_closedBall_iff_norm] at this
  refine ⟨hw.near this, ?_⟩
  have e : y t = w + (y t - w) := by abel
  rw [e]
  exact (norm_add_le _ _).trans (add_le_add hM this)

/-! ### the three shipped problems -/

/-- the state written by `init`. -/
def stateOf (nb : ℕ) (Z : Buf ℝ) : Fin (6 * nb) → ℝ := fun k => Z.cell (k : ℕ)

theorem pos_state (nb : ℕ) (Z : Buf ℝ) : posOf (stateOf nb Z) = pos nb Z := by
  funext i s
  show Z.cell _ = Z.cell _
  push_cast
  rfl

theorem mom_state (nb : ℕ) (Z : Buf ℝ) : momOf (stateOf nb Z) = mom nb Z := by
  funext i s
  show Z.cell _ = Z.cell _
  push_cast
  rfl

/-- the problems with their initial values. -/
noncomputable def shippedPlanets : List (Planets × List ((Fin 3 → ℝ) × (Fin 3 → ℝ))) :=
  [(outer, outerRows), (outerNeptune, neptuneRows), (outerUranus, uranusRows)]

/-- body number `i` of a list, the Sun last. -/
noncomputable def rowPos (l : List ((Fin 3 → ℝ) × (Fin 3 → ℝ))) (i : ℕ) (s : Fin 3) : ℝ := if h : i < l.length then l[i].1 s else 0

theorem third (a b c : ℝ) : (![a, b, c] : Fin 3 → ℝ) 2 = c := rfl

/-- what is checked of the tables. -/
structure RowsOk (P : Planets) (l : List ((Fin 3 → ℝ) × (Fin 3 → ℝ))) : Prop where
  len : l.length + 1 = P.nb
  nb : P.nb ≤ 6
  size : P.masses.size = P.nb
  far : ∀ i < P.nb, ∀ j < i, 25 ≤ dist2 (rowPos l i) (rowPos l j)
  small : ∀ i < P.nb, ∀ s, |rowPos l i s| ≤ 26
  vel : ∀ i (_ : i < l.length) (s : Fin 3), |l[i].2 s| ≤ 1
  mass : ∀ i : ℕ, i < P.nb → 7e-9 ≤ P.masses.cell i ∧ P.masses.cell i ≤ 2
  G : 0 < P.G ∧ P.G ≤ 3e-4
  bound : ∀ i (_ : i < l.length), (∑ s, l[i].2 s ^ 2 / 2) ^ 2 * dist2 l[i].1 0 < (P.G * P.masses.cell (P.nb - 1)) ^ 2

theorem outer_ok : RowsOk outer outerRows where
  len := rfl
  nb := le_rfl
  size := rfl
  far i hi j hj := by
    change i < 6 at hi
    interval_cases i <;> interval_cases j <;>
      norm_num [dist2, Fin.sum_univ_three, rowPos, outerRows, rows3, rowNeptune, rowPluto, third]
  small i hi s := by
    change i < 6 at hi
    interval_cases i <;> fin_cases s <;>
      norm_num [rowPos, outerRows, rows3, rowNeptune, rowPluto, third, abs_le]
  vel i hi s := by
    change i < 5 at hi
    interval_cases i <;> fin_cases s <;>
      norm_num [outerRows, rows3, rowNeptune, rowPluto, third, abs_le]
  mass i hi := by
    change i < 6 at hi
    interval_cases i <;> norm_num [outer]
  G := by norm_num [outer]
  bound i hi := by
    change i < 5 at hi
    interval_cases i <;>
      norm_num [dist2, Fin.sum_univ_three, outerRows, rows3, rowNeptune, rowPluto, third, outer]

theorem neptune_ok : RowsOk outerNeptune neptuneRows where
  len := rfl
  nb := by decide
  size := rfl
  far i hi j hj := by
    change i < 5 at hi
    interval_cases i <;> interval_cases j <;>
      norm_num [dist2, Fin.sum_univ_three, rowPos, neptuneRows, rows3, rowNeptune, third]
  small i hi s := by
    change i < 5 at hi
    interval_cases i <;> fin_cases s <;>
      norm_num [rowPos, neptuneRows, rows3, rowNeptune, third, abs_le]
  vel i hi s := by
    change i < 4 at hi
    interval_cases i <;> fin_cases s <;>
      norm_num [neptuneRows, rows3, rowNeptune, third, abs_le]
  mass i hi := by
    change i < 5 at hi
    interval_cases i <;> norm_num [outerNeptune]
  G := by norm_num [outerNeptune]
  bound i hi := by
    change i < 4 at hi
    interval_cases i <;>
      norm_num [dist2, Fin.sum_univ_three, neptuneRows, rows3, rowNeptune, third, outerNeptune]

theorem uranus_ok : RowsOk outerUranus uranusRows where
  len := rfl
  nb := by decide
  size := rfl
  far i hi j hj := by
    change i < 4 at hi
    interval_cases i <;> interval_cases j <;>
      norm_num [dist2, Fin.sum_univ_three, rowPos, uranusRows, rows3, third]
  small i hi s := by
    change i < 4 at hi
    interval_cases i <;> fin_cases s <;>
      norm_num [rowPos, uranusRows, rows3, third, abs_le]
  vel i hi s := by
    change i < 3 at hi
    interval_cases i <;> fin_cases s <;>
      norm_num [uranusRows, rows3, third, abs_le]
  mass i hi := by
    change i < 4 at hi
    interval_cases i <;> norm_num [outerUranus]
  G := by norm_num [outerUranus]
  bound i hi := by
    change i < 3 at hi
    interval_cases i <;>
      norm_num [dist2, Fin.sum_univ_three, uranusRows, rows3, third, outerUranus]

theorem RowsOk.sizes {l : List ((Fin 3 → ℝ) × (Fin 3 → ℝ))} (h : RowsOk P l) : Sizes P 7e-9 (1 / 100) where
  pos := by norm_num
  mass i := (h.mass i i.2).1.trans (le_abs_self _)
  one := by norm_num
  force i := by
    refine le_trans (Finset.sum_le_sum fun j _ => (?_ : _ ≤ (3e-4 * 2 * 2 : ℝ))) ?_
    · obtain ⟨a1, a2⟩ : 7e-9 ≤ Test.mass P i ∧ Test.mass P i ≤ 2 := h.mass i i.2
      obtain ⟨b1, b2⟩ : 7e-9 ≤ Test.mass P j ∧ Test.mass P j ≤ 2 := h.mass j j.2
      have g := h.G
      have a0 : 0 ≤ Test.mass P i := le_trans (by norm_num) a1
      have b0 : 0 ≤ Test.mass P j := le_trans (by norm_num) b1
      rw [abs_of_nonneg (mul_nonneg (mul_nonneg g.1.le a0) b0)]
      exact mul_le_mul (mul_le_mul g.2 a2 a0 (by norm_num)) b2 b0 (by norm_num)
    · rw [Finset.sum_const, Finset.card_univ, Fintype.card_fin, nsmul_eq_mul]
      have : (P.nb : ℝ) ≤ 6 := by exact_mod_cast h.nb
      norm_num
      linarith

/-- the last body. -/
def lastBody (P : Planets) (h : 0 < P.nb) : Fin P.nb := ⟨P.nb - 1, by omega⟩

theorem RowsOk.start {l : List ((Fin 3 → ℝ) × (Fin 3 → ℝ))} (h : RowsOk P l) {U : Buf ℝ} (hU : U.size = 6 * P.nb) (h0 : 0 < P.nb) :
    ∃ (Z : Buf ℝ) (w : Fin (6 * P.nb) → ℝ), init P l U = some Z ∧ Z.size = U.size ∧ (∀ k, w k = Z.cell (k : ℕ)) ∧ Far P 5 w ∧
      ‖w‖ ≤ 26 ∧ (∀ s, posOf w (lastBody P h0) s = 0 ∧ momOf w (lastBody P h0) s = 0) ∧
      ∀ i, i ≠ lastBody P h0 → (∑ s, momOf w i s ^ 2) / (2 * Test.mass P i)
        < P.G * Test.mass P i * Test.mass P (lastBody P h0) / sep w i (lastBody P h0) := by
  obtain ⟨Z, e, sz, hc⟩ := init_spec h.len h.size hU
  have hl := h.len
  obtain ⟨w, hw⟩ : ∃ w, w = stateOf P.nb Z := ⟨_, rfl⟩
  have hp : ∀ i : Fin P.nb, posOf w i = rowPos l i := fun i => by
    funext s; rw [hw, pos_state, (hc i s).1]; rfl
  have hq : ∀ (i : Fin P.nb) s, momOf w i s = (if h : (i : ℕ) < l.length then Test.mass P i * l[i].2 s else 0) := fun i s => by
    rw [hw, mom_state, (hc i s).2]
  refine ⟨Z, w, e, sz, fun k => by rw [hw]; rfl, fun i j hij => ?_, ?_, fun s => ?_, fun i hi => ?_⟩
  · refine Real.le_sqrt_of_sq_le ?_
    rw [hp, hp]
    have : (i : ℕ) ≠ j := fun e => hij (Fin.ext e)
    rcases Nat.lt_or_gt_of_ne this with h1 | h1
    · rw [dist2_comm]
      have := h.far j j.2 i h1
      norm_num at this ⊢
      exact this
    · have := h.far i i.2 j h1
      norm_num at this ⊢
      exact this
  · refine field_comp (fun i s => ?_) (fun i s => ?_) (by norm_num)
    · rw [hp]; exact h.small i i.2 s
    · rw [hq]
      split_ifs with h1
      · obtain ⟨a1, a2⟩ : 7e-9 ≤ Test.mass P i ∧ Test.mass P i ≤ 2 := h.mass i i.2
        have a0 : 0 ≤ Test.mass P i := le_trans (by norm_num) a1
        rw [abs_mul, abs_of_nonneg a0]
        have := mul_le_mul a2 (h.vel i h1 s) (abs_nonneg _) (by norm_num)
        exact le_trans this (by norm_num)
      · norm_num
  · have : ¬ ((lastBody P h0 : Fin P.nb) : ℕ) < l.length := by
      show ¬ P.nb - 1 < l.length
      omega
    rw [hp, hq, dif_neg this]
    exact ⟨dif_neg this, rfl⟩
  · have hil : (i : ℕ) < l.length := by
      have h1 : (i : ℕ) ≠ P.nb - 1 := fun e => hi (Fin.ext e)
      have := i.2
      omega
    have hlast : rowPos l (lastBody P h0 : Fin P.nb) = 0 := by
      funext s
      exact dif_neg (by show ¬ P.nb - 1 < l.length; omega)
    have hrow : rowPos l i = l[i].1 := by
      funext s
      exact dif_pos hil
    obtain ⟨a1, -⟩ : 7e-9 ≤ Test.mass P i ∧ Test.mass P i ≤ 2 := h.mass i i.2
    have a0 : 0 < Test.mass P i := lt_of_lt_of_le (by norm_num) a1
    have hb := h.bound i hil
    have hM : Test.mass P (lastBody P h0) = P.masses.cell (P.nb - 1) := by
      show P.masses.cell ((P.nb - 1 : ℕ) : ℤ) = _
      rw [Nat.cast_sub h0]; rfl
    obtain ⟨b1, -⟩ : 7e-9 ≤ Test.mass P (lastBody P h0) ∧ _ := h.mass _ (lastBody P h0).2
    have b0 : 0 < Test.mass P (lastBody P h0) := lt_of_lt_of_le (by norm_num) b1
    rw [← hM] at hb
    have hfar : 0 < dist2 l[i].1 0 := by
      have := h.far (P.nb - 1) (by omega) i (by omega)
      rw [show rowPos l (P.nb - 1) = 0 from hlast, hrow, dist2_comm] at this
      linarith
    have hsep : sep w i (lastBody P h0) = √(dist2 l[i].1 0) := by
      unfold sep
      rw [hp, hp, hlast, hrow]
    have hs : 0 < √(dist2 l[i].1 0) := Real.sqrt_pos.2 hfar
    have hc : P.G * Test.mass P (lastBody P h0) > 0 := mul_pos h.G.1 b0
    have hx : 0 ≤ ∑ s, l[i].2 s ^ 2 / 2 := Finset.sum_nonneg fun s _ => by positivity
    have hlt : (∑ s, l[i].2 s ^ 2 / 2) * √(dist2 l[i].1 0) < P.G * Test.mass P (lastBody P h0) := by
      refine lt_of_pow_lt_pow_left₀ 2 hc.le ?_
      rw [mul_pow, Real.sq_sqrt hfar.le]
      exact hb
    rw [hsep, lt_div_iff₀ hs]
    have e1 : (∑ s, momOf w i s ^ 2) / (2 * Test.mass P i) = Test.mass P i * ∑ s, l[i].2 s ^ 2 / 2 := by
      rw [Finset.sum_congr rfl fun s _ => by rw [hq i s, dif_pos hil]]
      rw [Finset.mul_sum, Finset.sum_div]
      refine Finset.sum_congr rfl fun s _ => ?_
      field_simp
    rw [e1]
    have := mul_lt_mul_of_pos_left hlt a0
    linarith

theorem shipped_ok : ∀ q ∈ shippedPlanets, RowsOk q.1 q.2 ∧ 0 < q.1.nb := by
  intro q hq
  simp only [shippedPlanets, List.mem_cons, List.not_mem_nil, or_false] at hq
  rcases hq with rfl | rfl | rfl
  · exact ⟨outer_ok, by decide⟩
  · exact ⟨neptune_ok, by decide⟩
  · exact ⟨uranus_ok, by decide⟩

/-- C126: **the initial states of the three problems**: whatever the array held, `init` writes a state whose bodies are at
distance at least 5, the Sun at rest at the origin, every planet with less energy than needed to leave the Sun. -/
theorem planets_init : ∀ q ∈ shippedPlanets, ∀ U : Buf ℝ, U.size = 6 * q.1.nb → ∃ (h0 : 0 < q.1.nb) (Z : Buf ℝ)
    (w : Fin (6 * q.1.nb) → ℝ), init q.1 q.2 U = some Z ∧ Z.size = U.size ∧ (∀ k, w k = Z.cell (k : ℕ)) ∧ Far q.1 5 w ∧
      ‖w‖ ≤ 26 ∧ (∀ s, posOf w (lastBody q.1 h0) s = 0 ∧ momOf w (lastBody q.1 h0) s = 0) ∧
      ∀ i, i ≠ lastBody q.1 h0 → (∑ s, momOf w i s ^ 2) / (2 * mass q.1 i)
        < q.1.G * mass q.1 i * mass q.1 (lastBody q.1 h0) / sep w i (lastBody q.1 h0) := fun q hq _ hU =>
  ⟨(shipped_ok q hq).2, (shipped_ok q hq).1.start hU (shipped_ok q hq).2⟩

/-- C126: from these states the solutions exist for some time, without collision: the hypotheses of `planets_order_partial`
are met. -/
theorem planets_start : ∀ q ∈ shippedPlanets, ∀ U : Buf ℝ, U.size = 6 * q.1.nb → ∃ (Z : Buf ℝ) (T : ℝ)
    (y : ℝ → Fin (6 * q.1.nb) → ℝ), init q.1 q.2 U = some Z ∧ 0 < T ∧ (∀ k, y 0 k = Z.cell (k : ℕ)) ∧ SolOn (field q.1) y 0 T ∧
      Sizes q.1 7e-9 (1 / 100) ∧ ∀ t ∈ Set.Icc 0 T, Far q.1 (5 / 2) (y t) ∧ ‖y t‖ ≤ 27 := by
  intro q hq U hU
  obtain ⟨h0, Z, w, e, -, hw, hf, hn, -⟩ := planets_init q hq U hU
  have hS := (shipped_ok q hq).1.sizes
  obtain ⟨y, y0, hy, hb⟩ := planets_exists hS (by norm_num) hf hn rfl
  refine ⟨Z, _, y, e, by norm_num, fun k => by rw [y0, hw], hy, hS, fun t ht => ⟨(hb t ht).1, (hb t ht).2.trans (by norm_num)⟩⟩

end Odes.Symp.Test
