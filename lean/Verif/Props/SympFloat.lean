import Verif.Props.Symplectic
import Verif.Lemmas.Float

/-!
# Compensated summation with rounding errors (C71)

The same model, with floating point numbers (`p` bits, unbounded exponents, round to nearest) as scalar
type.
-/

namespace Odes.Symp

open Odes.Mem Spec

/-- a floating point arithmetic. -/
structure FP where
  p : ℕ
  hp : 1 ≤ p
  rnd : ℝ → ℝ
  rn : IsRN p rnd

/-- its numbers. -/
def FP.T (F : FP) : Type := {x : ℝ // Flt F.p x}

namespace FP

variable {F : FP}

noncomputable instance : Add F.T := ⟨fun x y => ⟨F.rnd (x.1 + y.1), F.rn.flt _⟩⟩
noncomputable instance : Sub F.T := ⟨fun x y => ⟨F.rnd (x.1 - y.1), F.rn.flt _⟩⟩
noncomputable instance : Mul F.T := ⟨fun x y => ⟨F.rnd (x.1 * y.1), F.rn.flt _⟩⟩
instance : Zero F.T := ⟨⟨0, Flt.zero⟩⟩
instance : One F.T := ⟨⟨1, Flt.one F.hp⟩⟩
instance : LE F.T := ⟨fun x y => x.1 ≤ y.1⟩

theorem add_val (x y : F.T) : (x + y).1 = F.rnd (x.1 + y.1) := rfl
theorem sub_val (x y : F.T) : (x - y).1 = F.rnd (x.1 - y.1) := rfl
theorem zero_val : (0 : F.T).1 = 0 := rfl
theorem one_val : (1 : F.T).1 = 1 := rfl

theorem mul_one' (x : F.T) : x * 1 = x := by
  apply Subtype.ext
  show F.rnd (x.1 * 1) = x.1
  rw [mul_one]
  exact F.rn.exact x.2

end FP

/-- there are such arithmetics, for every number of bits. -/
theorem exists_fp (p : ℕ) (hp : 1 ≤ p) : ∃ F : FP, F.p = p := by
  obtain ⟨r, h⟩ := exists_rn hp
  exact ⟨⟨p, hp, r, h⟩, rfl⟩

variable {F : FP} {n : ℕ}

/-- C71: compensated summation in floating point arithmetic.  In a successful step, if the correction
(compensation plus increment, `e1`) is not larger than `u` then the two subtractions are exact: `u+e`
advances by exactly `e1`, without any rounding error; `e1` itself is the sum of the old compensation and
the increment, rounded once. -/
theorem symp_comp_float {c : Cfg F.T n} (hT : Tab c) (hS : Scal c) {st st' : St F.T n} (hist : Hist c st)
    {h : F.T} {u u' : Fin n → F.T} {first : Bool} (hs : step c h u first st = some (true, u', st'))
    (l : Fin n) (hle : |(st.e l + st'.delta l).1| ≤ |(u l).1|) :
    (u' l).1 + (st'.e l).1 = (u l).1 + (st.e l + st'.delta l).1 ∧
    |((u' l).1 + (st'.e l).1) - ((u l).1 + ((st.e l).1 + (st'.delta l).1))| ≤
      |(st.e l).1 + (st'.delta l).1| / 2 ^ F.p := by
  obtain ⟨-, -, -, Y0, -, h1⟩ := step_cases hT hS (hist.inv hT hS) hs
  have key : (u' l).1 + (st'.e l).1 = (u l).1 + (st.e l + st'.delta l).1 := by
    rcases h1 with ⟨-, M, -, -, -, -, -, -, -, hu, he⟩ | ⟨hf, -⟩
    · obtain ⟨f1, f2⟩ := F.rn.fastTwoSum F.hp (u l).2 (st.e l + st'.delta l).2 hle
      have e1 : (u' l).1 = F.rnd ((u l).1 + (st.e l + st'.delta l).1) := by rw [hu]; rfl
      rw [← e1] at f1 f2
      have e2 : (u l - u' l).1 = (u l).1 - (u' l).1 := by rw [FP.sub_val, F.rn.exact f1]
      have e3 : (st'.e l).1 = (st.e l + st'.delta l).1 + ((u l).1 - (u' l).1) := by
        rw [he, FP.add_val, e2, F.rn.exact f2]
      rw [e3]; ring
    · cases hf
  refine ⟨key, ?_⟩
  rw [key]
  have := F.rn.rel F.hp ((st.e l).1 + (st'.delta l).1)
  rw [abs_sub_comm] at this
  rw [FP.add_val]
  refine le_of_eq_of_le ?_ this
  congr 1
  ring

/-- successful calls of `step`; the list contains the increments of component `l` and the compensations
before the step. -/
inductive Acc (c : Cfg F.T n) (l : Fin n) : (Fin n → F.T) → St F.T n → List (F.T × F.T) → (Fin n → F.T) →
    St F.T n → Prop
  | zero (u st) : Acc c l u st [] u st
  | succ {u0 st0 L u st u' st'} (h : F.T) (first : Bool) (ih : Acc c l u0 st0 L u st)
      (hs : step c h u first st = some (true, u', st'))
      (hle : |(st.e l + st'.delta l).1| ≤ |(u l).1|) :
      Acc c l u0 st0 ((st.e l, st'.delta l) :: L) u' st'

/-- C71 for any number of steps: `u+e` differs from the exact sum of all increments by at most the sum
of one relative error of each correction; the rounding errors of the additions to `u` are all
recovered. -/
theorem symp_comp_acc {c : Cfg F.T n} (hT : Tab c) (hS : Scal c) {l : Fin n} {u0 u' : Fin n → F.T}
    {st0 st' : St F.T n} (hist : Hist c st0) {L : List (F.T × F.T)} (h : Acc c l u0 st0 L u' st') :
    |((u' l).1 + (st'.e l).1) - ((u0 l).1 + (st0.e l).1 + (L.map fun x => x.2.1).sum)| ≤
      (L.map fun x => |x.1.1 + x.2.1| / 2 ^ F.p).sum := by
  suffices Hist c st' ∧ _ from this.2
  induction h with
  | zero => exact ⟨hist, by simp⟩
  | @succ L u st u' st' h first _ hs hle ih =>
    obtain ⟨h1, h2⟩ := ih
    refine ⟨Hist.step h u u' first true h1 hs, ?_⟩
    have := (symp_comp_float hT hS h1 hs l hle).2
    simp only [List.map_cons, List.sum_cons]
    have e : ((u' l).1 + (st'.e l).1) - ((u0 l).1 + (st0.e l).1 +
        ((st'.delta l).1 + (L.map fun x => x.2.1).sum)) =
        (((u' l).1 + (st'.e l).1) - ((u l).1 + ((st.e l).1 + (st'.delta l).1))) +
        (((u l).1 + (st.e l).1) - ((u0 l).1 + (st0.e l).1 + (L.map fun x => x.2.1).sum)) := by ring
    rw [e]
    exact (abs_add_le _ _).trans (add_le_add this h2)

/-- the condition is needed: with `u=1` and an increment `2^(p+2)` the value 1 is lost, `u+e` does not
advance by the increment. -/
theorem symp_comp_needs (F : FP) (st : St F.T 1) (he : ∀ l, st.e l = 0)
    (hd : ∀ l, (st.delta l).1 = 2 ^ (F.p + 2)) :
    ((compensate (fun _ => 1) st).1 0).1 + ((compensate (fun _ => 1) st).2.e 0).1 ≠
      1 + ((st.e 0).1 + (st.delta 0).1) := by
  have hb : Flt F.p ((2 : ℝ) ^ (F.p + 2)) := by
    have := Flt.two_zpow F.hp ((F.p + 2 : ℕ) : ℤ)
    rwa [zpow_natCast] at this
  have h4 : (2 : ℝ) ^ (F.p + 2) = 4 * 2 ^ F.p := by rw [pow_add]; ring
  have hpp : (1 : ℝ) ≤ 2 ^ F.p := one_le_pow₀ (by norm_num)
  -- every other number is at least 2 away
  have hgap : ∀ x y : ℝ, Flt F.p y → |x - 2 ^ (F.p + 2)| ≤ 1 → |x - y| ≤ |x - 2 ^ (F.p + 2)| →
      y = 2 ^ (F.p + 2) := by
    intro x y hy h1 h2
    have h3 : |y - 2 ^ (F.p + 2)| ≤ 2 := by
      have : y - 2 ^ (F.p + 2) = -(x - y) + (x - 2 ^ (F.p + 2)) := by ring
      rw [this]
      refine (abs_add_le _ _).trans ?_
      rw [abs_neg]
      linarith
    have hyl : (2 : ℝ) ^ (F.p - 1 : ℤ) * 2 ^ (2 : ℤ) ≤ |y| := by
      have hl := (abs_le.1 h3).1
      have : (2 : ℝ) ^ (F.p - 1 : ℤ) * 2 ^ (2 : ℤ) = 2 * 2 ^ F.p := by
        rw [← zpow_add₀ (by norm_num), ← zpow_natCast, mul_comm, ← zpow_add_one₀ (by norm_num)]
        congr 1; ring
      rw [this]
      refine le_trans ?_ (le_abs_self y)
      linarith
    obtain ⟨k, hk⟩ := hy.multiple F.hp hyl
    have h5 : |(k : ℝ) - 2 ^ F.p| ≤ 1 / 2 := by
      rw [hk, h4] at h3
      have e : (k : ℝ) * 2 ^ (2 : ℤ) - 4 * 2 ^ F.p = 4 * (k - 2 ^ F.p) := by norm_num; ring
      rw [e, abs_mul, abs_of_pos (by norm_num : (0 : ℝ) < 4)] at h3
      linarith
    have h6 : |k - 2 ^ F.p| < 1 := by
      have : ((|k - 2 ^ F.p| : ℤ) : ℝ) < 1 := by push_cast; linarith
      exact_mod_cast this
    have h7 : k = 2 ^ F.p := by
      have := Int.abs_lt_one_iff.1 h6
      omega
    rw [hk, h7, h4]
    push_cast
    norm_num
    ring
  have e1 : (st.e 0 + st.delta 0).1 = 2 ^ (F.p + 2) := by
    rw [FP.add_val, he, FP.zero_val, zero_add, hd]
    exact F.rn.exact hb
  have e2 : (((1 : F.T) + (st.e 0 + st.delta 0))).1 = 2 ^ (F.p + 2) := by
    rw [FP.add_val, e1, FP.one_val]
    refine hgap (1 + 2 ^ (F.p + 2)) _ (F.rn.flt _) (by simp) (F.rn.near _ _ hb)
  have e3 : ((1 : F.T) - (1 + (st.e 0 + st.delta 0))).1 = -2 ^ (F.p + 2) := by
    rw [FP.sub_val, e2, FP.one_val]
    have h8 := F.rn.near (1 - 2 ^ (F.p + 2)) _ hb.neg
    have := hgap (-(1 - 2 ^ (F.p + 2))) (-F.rnd (1 - 2 ^ (F.p + 2))) (F.rn.flt _).neg
      (by rw [show -(1 - (2 : ℝ) ^ (F.p + 2)) - 2 ^ (F.p + 2) = -1 by ring]; simp) (by
        have a1 : -(1 - (2 : ℝ) ^ (F.p + 2)) - -F.rnd (1 - 2 ^ (F.p + 2)) =
          -((1 - 2 ^ (F.p + 2)) - F.rnd (1 - 2 ^ (F.p + 2))) := by ring
        have a2 : -(1 - (2 : ℝ) ^ (F.p + 2)) - 2 ^ (F.p + 2) =
          -((1 - 2 ^ (F.p + 2)) - -2 ^ (F.p + 2)) := by ring
        rw [a1, a2, abs_neg, abs_neg]
        exact h8)
    linarith
  show ((1 : F.T) + (st.e 0 + st.delta 0)).1 +
    ((st.e 0 + st.delta 0) + ((1 : F.T) - (1 + (st.e 0 + st.delta 0)))).1 ≠ _
  rw [FP.add_val (st.e 0 + st.delta 0), e1, e2, e3, add_neg_cancel, F.rn.exact Flt.zero, he, hd,
    FP.zero_val]
  intro hcon
  linarith

/-- hypotheses are met: 53 bits, the table for 2 stages (rounded), no narrowing. -/
noncomputable def cfgF (F : FP) (itermax : ℤ) (f : (Fin n → F.T) → Fin n → F.T) : Cfg F.T n where
  s := 2
  itermax := itermax
  f := f
  la := gaussD2.la.map fun x => ⟨F.rnd x, F.rn.flt x⟩
  lb := gaussD2.lb.map fun x => ⟨F.rnd x, F.rn.flt x⟩
  lc := gaussD2.lc.map fun x => ⟨F.rnd x, F.rn.flt x⟩
  eq := (· = ·)
  narrow := id
  small v := v.1 ≤ 5 / 10 ^ 308
  big := ⟨F.rnd (10 ^ 40), F.rn.flt _⟩

example : ∃ F : FP, F.p = 53 ∧ ∀ f : (Fin 2 → F.T) → Fin 2 → F.T,
    Tab (cfgF F 10 f) ∧ Scal (cfgF F 10 f) := by
  obtain ⟨F, hF⟩ := exists_fp 53 (by norm_num)
  refine ⟨F, hF, fun f => ⟨⟨?_, ?_, ?_, le_rfl, by show 2 ≤ 16; norm_num⟩, ⟨fun _ _ h => h, FP.mul_one'⟩⟩⟩
  all_goals
    obtain ⟨a, b, d⟩ := symp_tables.2.2 gaussD2 (by simp [gaussD])
    first
    | exact (List.length_map ..).trans a
    | exact (List.length_map ..).trans b
    | exact (List.length_map ..).trans d

end Odes.Symp
