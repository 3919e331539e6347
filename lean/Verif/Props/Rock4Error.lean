import Verif.Props.Rock4
import Mathlib.Algebra.BigOperators.Fin
import Mathlib.Algebra.Order.BigOperators.Group.Finset

/-!
# C57: the error measure of ROCK4
-/

namespace Odes.Rock4

open Classical

variable {n : ℕ}

/-- Specification: weighted root mean square over the reals. -/
noncomputable def rms (e y : Fin n → ℝ) (atol rtol : ℝ) : ℝ :=
  Real.sqrt ((∑ i, (e i / (atol + rtol * |y i|)) ^ 2) / n)

theorem foldl_fin (f : Fin n → X) (g : Fin n → ℝ) (h : ∀ i, f i = X.fin (g i)) (l : List (Fin n))
    (a : ℝ) : l.foldl (fun acc i => acc + f i) (X.fin a) = X.fin (a + (l.map g).sum) := by
  induction l generalizing a with
  | nil => simp
  | cons i l ih =>
    simp only [List.foldl_cons, List.map_cons, List.sum_cons]
    rw [h i, X.fin_add, ih, add_assoc]

/-- C57: for finite data and usual tolerances the error returned by the kernel is the root mean
square of (error estimate)/(atol + rtol |y_new|). -/
theorem rock4_error_is_rms (P : Problem n) (T : Tables) (s s' : St n) (dt err : X)
    (hd : Distinct s) (hsel : Sel s.mdeg s.mp1 s.mp2) (hfn : s.heap s.fn = P.F (s.heap s.y))
    (hk : kernel P T s dt = some (s', err)) (hn : 0 < n)
    (e v : Fin n → ℝ) (atol rtol : ℝ)
    (he : ∀ i, Spec.errVec (formulaOf T s.mdeg s.mp1 s.mp2) dt
      (Spec.stages (formulaOf T s.mdeg s.mp1 s.mp2) P.F dt (s.heap s.y)) i = X.fin (e i))
    (hy : ∀ i, s'.heap s'.temp i = X.fin (v i))
    (hat : s.atol = X.fin atol) (hrt : s.rtol = X.fin rtol) (ha : 0 < atol) (hr : 0 ≤ rtol) :
    err = X.fin (rms e v atol rtol) := by
  obtain ⟨b1, -⟩ := hsel.bounds
  obtain ⟨k1, -, -, -, k5⟩ := kernel_spec P T s s' dt err hk hd b1 hfn
  rw [k5]
  rw [k1] at hy
  unfold Spec.scaledRms rms
  have hpos : ∀ i, 0 < atol + rtol * |v i| := fun i =>
    add_pos_of_pos_of_nonneg ha (mul_nonneg hr (abs_nonneg _))
  have hterm : ∀ i, Spec.errVec (formulaOf T s.mdeg s.mp1 s.mp2) dt
      (Spec.stages (formulaOf T s.mdeg s.mp1 s.mp2) P.F dt (s.heap s.y)) i *
      Spec.errVec (formulaOf T s.mdeg s.mp1 s.mp2) dt
      (Spec.stages (formulaOf T s.mdeg s.mp1 s.mp2) P.F dt (s.heap s.y)) i *
      (1 / (X.ABS ((Spec.stages (formulaOf T s.mdeg s.mp1 s.mp2) P.F dt (s.heap s.y)).ynew i)
        * s.rtol + s.atol)) *
      (1 / (X.ABS ((Spec.stages (formulaOf T s.mdeg s.mp1 s.mp2) P.F dt (s.heap s.y)).ynew i)
        * s.rtol + s.atol)) = X.fin ((e i / (atol + rtol * |v i|)) ^ 2) := by
    intro i
    have hne : |v i| * rtol + atol ≠ 0 := by
      have := hpos i
      rw [mul_comm]; linarith
    have hne' := (hpos i).ne'
    rw [he i, hy i, hat, hrt, X.ABS_fin, X.fin_mul, X.fin_mul, X.fin_add, X.one_eq,
      X.fin_div _ _ hne, X.fin_mul, X.fin_mul, X.fin_inj]
    rw [show |v i| * rtol + atol = atol + rtol * |v i| by ring]
    field_simp
  rw [X.zero_eq, foldl_fin _ _ hterm]
  have hnn : ((n : ℤ) : ℝ) ≠ 0 := by exact_mod_cast hn.ne'
  have hnonneg : 0 ≤ (∑ i, (e i / (atol + rtol * |v i|)) ^ 2) / (n : ℝ) :=
    div_nonneg (Finset.sum_nonneg fun i _ => sq_nonneg _) (Nat.cast_nonneg _)
  rw [X.ofInt, X.fin_div _ _ hnn, zero_add]
  have e1 : (List.map (fun i => (e i / (atol + rtol * |v i|)) ^ 2) (List.finRange n)).sum
      = ∑ i, (e i / (atol + rtol * |v i|)) ^ 2 := by
    rw [← List.ofFn_eq_map, List.sum_ofFn]
  rw [e1, Int.cast_natCast, X.sqrt_fin_nonneg hnonneg]

/-- C57: the weighted norm decreases when tolerances are enlarged. -/
theorem rms_antitone (e y : Fin n → ℝ) {a a' r r' : ℝ} (ha : 0 < a) (hr : 0 ≤ r)
    (haa : a ≤ a') (hrr : r ≤ r') : rms e y a' r' ≤ rms e y a r := by
  unfold rms
  apply Real.sqrt_le_sqrt
  apply div_le_div_of_nonneg_right _ (Nat.cast_nonneg _)
  apply Finset.sum_le_sum
  intro i _
  have h1 : 0 < a + r * |y i| := add_pos_of_pos_of_nonneg ha (mul_nonneg hr (abs_nonneg _))
  have h2 : a + r * |y i| ≤ a' + r' * |y i| :=
    add_le_add haa (mul_le_mul_of_nonneg_right hrr (abs_nonneg _))
  rw [div_pow, div_pow]
  exact div_le_div_of_nonneg_left (sq_nonneg _) (by positivity)
    (pow_le_pow_left₀ h1.le h2 2)

/-- C57: two kernel calls which differ by the tolerances only: the larger tolerances give the
smaller (or equal) error, and the same new value. -/
theorem rock4_error_monotone (P : Problem n) (T : Tables) (s : St n) (dt : X)
    (hd : Distinct s) (hsel : Sel s.mdeg s.mp1 s.mp2) (hfn : s.heap s.fn = P.F (s.heap s.y))
    (hn : 0 < n) (a a' r r' : ℝ) (ha : 0 < a) (hr : 0 ≤ r) (haa : a ≤ a') (hrr : r ≤ r')
    (s1 s2 : St n) (err1 err2 : X)
    (h1 : kernel P T { s with atol := X.fin a, rtol := X.fin r } dt = some (s1, err1))
    (h2 : kernel P T { s with atol := X.fin a', rtol := X.fin r' } dt = some (s2, err2))
    (e v : Fin n → ℝ)
    (he : ∀ i, Spec.errVec (formulaOf T s.mdeg s.mp1 s.mp2) dt
      (Spec.stages (formulaOf T s.mdeg s.mp1 s.mp2) P.F dt (s.heap s.y)) i = X.fin (e i))
    (hy : ∀ i, (Spec.stages (formulaOf T s.mdeg s.mp1 s.mp2) P.F dt (s.heap s.y)).ynew i
      = X.fin (v i)) :
    err2 ≤ err1 ∧ s2.heap s2.temp = s1.heap s1.temp := by
  obtain ⟨b1, -⟩ := hsel.bounds
  have hd1 : Distinct { s with atol := X.fin a, rtol := X.fin r } := hd
  have hd2 : Distinct { s with atol := X.fin a', rtol := X.fin r' } := hd
  obtain ⟨k1, -⟩ := kernel_spec P T _ s1 dt err1 h1 hd1 b1 hfn
  obtain ⟨l1, -⟩ := kernel_spec P T _ s2 dt err2 h2 hd2 b1 hfn
  have E1 := rock4_error_is_rms P T _ s1 dt err1 hd1 hsel hfn h1 hn e v a r he
    (fun i => by rw [k1]; exact hy i) rfl rfl ha hr
  have E2 := rock4_error_is_rms P T _ s2 dt err2 hd2 hsel hfn h2 hn e v a' r' he
    (fun i => by rw [l1]; exact hy i) rfl rfl (lt_of_lt_of_le ha haa) (hr.trans hrr)
  refine ⟨?_, by rw [k1, l1]⟩
  rw [E1, E2, X.fin_le]
  exact rms_antitone e v ha hr haa hrr

/-- C57: the error is never negative, for any data (NaN and infinities included), any
tolerances. -/
theorem rock4_error_not_negative (P : Problem n) (T : Tables) (s s' : St n) (dt err : X)
    (hk : kernel P T s dt = some (s', err)) : ¬ err < 0 := by
  unfold kernel at hk
  rw [Option.bind_eq_some_iff] at hk
  obtain ⟨r, -, hk⟩ := hk
  rw [Option.bind_eq_some_iff] at hk
  obtain ⟨c, -, hk⟩ := hk
  injection hk with hk
  injection hk with _ hk
  rw [← hk]
  generalize (_ / X.ofInt n : X) = z
  cases z with
  | fin q =>
    rw [X.sqrt_fin]
    split_ifs with h
    · simp
    · rw [X.zero_eq, X.fin_lt]; exact not_lt.2 (Real.sqrt_nonneg _)
  | _ => simp

/-- the hypotheses are met: one step of degree one of `y' = 0` with tables all ones. -/
example : Distinct (fresh (zeroObj) 1 : St 1) := by
  have := (valid_fresh zeroObj 1 0 (Or.inl (by norm_num))).nodup
  exact this

example : rms (fun _ : Fin 2 => 3) (fun _ => 1) 1 2 = 1 := by
  unfold rms; norm_num

end Odes.Rock4
