import Verif.Lemmas.TimeLoop
import Verif.Model.Rock4L
import Verif.Lemmas.Rock4Progress

/-!
# End of the interval of integration in floating point arithmetic (C110)
-/

namespace Odes.TimeLoop

open Odes.Symp Spec

variable {F : FP}

/-- the loops with floating point numbers. -/
noncomputable def cfgF (tend c101 c11 umin : F.T) (over : F.T → Prop) : Tl F.T :=
  { tend := tend, c101 := c101, c11 := c11, umin := umin, dist := distF tend, over := over }

/-- a constant written in the program is the nearest floating point number. -/
def Lit (x : F.T) (v : ℝ) : Prop := x.1 = F.rnd v

/-! ### Rock4L -/

/-- the state after a step of length `x`. -/
noncomputable def after (c : Tl F.T) (t x : F.T) : St F.T :=
  open Classical in { t := t + x, h := if c.tend < t + x + x then c.tend - (t + x) else x }

theorem stepL_next {c : Tl F.T} {s : St F.T} {x : F.T} (hx : chop c s = x) (h1 : s.t < c.tend) (h2 : ¬ x < c.umin)
    (h3 : ¬ c.over x) : stepL c s = .next (after c s.t x) := by
  subst hx
  unfold stepL
  rw [if_pos h1]
  simp only [if_neg h2, if_neg h3]
  rfl

/-- hypotheses under which the loop of Rock4L ends as it should. -/
structure Good (c : Tl F.T) (h : F.T) : Prop where
  dist : c.dist = distF c.tend
  lit : Lit c.c101 1.01
  hi : 100 * h.1 ≤ 49 * c.tend.1
  lo : 1000 * (F.eps * c.tend.1) ≤ h.1
  umin : 0 < c.umin.1
  lo' : 200 * c.umin.1 ≤ h.1
  over : ∀ x : F.T, 100 * x.1 ≤ 102 * h.1 → ¬ c.over x

namespace Good

variable {c : Tl F.T} {h : F.T} (G : Good c h)

include G

theorem hpos : 0 < h.1 := by have := G.umin; have := G.lo'; linarith

theorem tpos : 0 < c.tend.1 := by have := G.hpos; have := G.hi; linarith

theorem eps : 1000 * F.eps ≤ 49 / 100 := by
  have h1 := G.lo
  have h2 := G.hi
  have h3 := G.tpos
  have : (1000 * F.eps) * c.tend.1 ≤ 49 / 100 * c.tend.1 := by linarith
  exact le_of_mul_le_mul_right this h3

theorem c1 : 1.009 ≤ c.c101.1 ∧ c.c101.1 ≤ 1.011 := by
  have h1 := G.eps
  have h2 := F.err 1.01
  rw [← G.lit] at h2
  rw [abs_le, abs_of_pos (by norm_num)] at h2
  constructor <;> linarith [h2.1, h2.2]

/-- the product `1.01*h`. -/
theorem mul1 : 1.008 * h.1 ≤ (c.c101 * h).1 ∧ (c.c101 * h).1 ≤ 1.012 * h.1 := by
  have h0 := G.hpos
  obtain ⟨h1, h2⟩ := G.c1
  have he := G.eps
  have hp := F.eps_pos
  have h3 := F.err (c.c101.1 * h.1)
  rw [FP.mul_val]
  rw [abs_le, abs_of_pos (by positivity)] at h3
  have a1 : 1.009 * h.1 ≤ c.c101.1 * h.1 := mul_le_mul_of_nonneg_right h1 h0.le
  have a2 : c.c101.1 * h.1 ≤ 1.011 * h.1 := mul_le_mul_of_nonneg_right h2 h0.le
  have a3 : F.eps * (c.c101.1 * h.1) ≤ (49 / 100000) * (1.011 * h.1) :=
    mul_le_mul (by linarith) a2 (by positivity) (by norm_num)
  constructor <;> linarith [h3.1, h3.2]

/-- state of the loop before the end. -/
structure Inv (c : Tl F.T) (h : F.T) (s : St F.T) : Prop where
  t0 : 0 ≤ s.t.1
  t1 : s.t.1 < c.tend.1
  um : c.umin.1 ≤ c.tend.1 - s.t.1
  hh : s.h = h ∨ (s.h = c.tend - s.t ∧ c.tend.1 - s.t.1 ≤ h.1)

/-- one iteration: either the last one, or `t` increases by `h` up to rounding. -/
theorem step {s : St F.T} (I : Inv c h s) :
    (∃ s', stepL c s = .next s' ∧ s'.t = c.tend ∧ c.tend.1 - s.t.1 ≤ 1.015 * h.1) ∨
    (∃ s', stepL c s = .next s' ∧ Inv c h s' ∧ s.t.1 + 0.999 * h.1 ≤ s'.t.1 ∧
      s'.t.1 ≤ s.t.1 + 1.001 * h.1) := by
  have h0 := G.hpos
  have he := G.eps
  have hp := F.eps_pos
  obtain ⟨m1, m2⟩ := G.mul1
  obtain ⟨i1, i2, i3, i4⟩ := I
  have hd : c.dist s.t = c.tend - s.t := by rw [G.dist, distF_eq i2.le]
  have hsub := F.err (c.tend.1 - s.t.1)
  rw [← FP.sub_val, abs_le, abs_of_pos (by linarith)] at hsub
  have hsu : c.umin.1 ≤ (c.tend - s.t).1 := by
    rw [FP.sub_val]; exact F.rn.ge c.umin.2 i3
  have hs0 : 0 ≤ (c.tend - s.t).1 := sub_nonneg' i2.le
  have hlt : s.t < c.tend := i2
  -- distances are small when the step is chopped
  by_cases hc : c.dist s.t ≤ c.c101 * s.h
  · have hch : chop c s = c.tend - s.t := by unfold chop; rw [if_pos hc, hd]
    have a1 : F.eps * (c.tend.1 - s.t.1) ≤ (49 / 100000) * (c.tend.1 - s.t.1) :=
      mul_le_mul_of_nonneg_right (by linarith) (by linarith)
    have a2 : c.tend.1 - s.t.1 ≤ 1.015 * h.1 := by
      rcases i4 with e | ⟨e, i5⟩
      · rw [hd, e, le_val] at hc
        linarith [hsub.1]
      · linarith
    have hhalf : c.tend.1 / 2 ≤ s.t.1 := by have := G.hi; linarith
    have ho : ¬ c.over (chop c s) := G.over _ (by rw [hch]; linarith [hsub.2])
    have hu : ¬ chop c s < c.umin := by rw [hch, lt_val]; linarith
    left
    rw [hch] at ho hu
    exact ⟨_, stepL_next hch hlt hu ho, land_exact hhalf i2.le, a2⟩
  · have hch : chop c s = s.h := by unfold chop; rw [if_neg hc]
    have e : s.h = h := by
      rcases i4 with e | ⟨e, -⟩
      · exact e
      · exfalso
        apply hc
        rw [hd, e, le_val, FP.mul_val]
        refine F.rn.ge (c.tend - s.t).2 ?_
        have := G.c1.1
        nlinarith
    rw [hd, e, le_val, not_le] at hc
    have a1 : F.eps * (c.tend.1 - s.t.1) ≤ F.eps * c.tend.1 :=
      mul_le_mul_of_nonneg_left (by linarith) hp.le
    have hlo := G.lo
    have a2 : 1.007 * h.1 ≤ c.tend.1 - s.t.1 := by linarith [hsub.2]
    have ha := F.err (s.t.1 + h.1)
    rw [← FP.add_val, abs_le, abs_of_pos (by linarith)] at ha
    have a3 : F.eps * (s.t.1 + h.1) ≤ F.eps * c.tend.1 :=
      mul_le_mul_of_nonneg_left (by linarith) hp.le
    have ho : ¬ c.over (chop c s) := G.over _ (by rw [hch, e]; linarith)
    have hu : ¬ chop c s < c.umin := by rw [hch, e, lt_val]; linarith [G.lo', G.umin]
    rw [hch, e] at ho hu
    right
    have b1 : (s.t + h).1 < c.tend.1 - 0.005 * h.1 := by linarith [ha.2]
    refine ⟨_, stepL_next (hch.trans e) hlt hu ho, ⟨?_, ?_, ?_, ?_⟩, ?_, ?_⟩
    · show 0 ≤ (s.t + h).1
      linarith [ha.1]
    · show (s.t + h).1 < _
      linarith
    · show c.umin.1 ≤ c.tend.1 - (s.t + h).1
      linarith [G.lo']
    · show (if _ then _ else _) = h ∨ _
      by_cases hq : c.tend < s.t + h + h
      · right
        refine ⟨if_pos hq, ?_⟩
        show c.tend.1 - (s.t + h).1 ≤ h.1
        by_contra hcon
        rw [not_le] at hcon
        have : (s.t + h + h).1 ≤ c.tend.1 := by
          rw [FP.add_val]; exact F.rn.le c.tend.2 (by linarith)
        exact absurd hq (by rw [lt_val]; linarith)
      · exact Or.inl (if_neg hq)
    · show s.t.1 + 0.999 * h.1 ≤ (s.t + h).1
      linarith [ha.1]
    · show (s.t + h).1 ≤ _
      linarith [ha.2]

end Good

/-- C110, partial: Rock4L in floating point arithmetic (any precision, any rounding to nearest).  For
`0 <= t0 < tend` and a step which is neither larger than `0.49*tend` nor so small that it drowns in the
rounding errors of `t`, the loop returns at exactly `tend`, without exception and without passing `tend`
before, after `N` steps, with `0.999*(N-1)*h < tend-t0 <= 1.015*N*h`. -/
theorem rock4l_float_end_partial {c : Tl F.T} {t0 h : F.T} (G : Good c h) (ht0 : 0 ≤ t0.1)
    (ht : c.umin.1 ≤ c.tend.1 - t0.1) :
    ∃ N : ℕ, ∃ s : St F.T, 1 ≤ N ∧ run (stepL c) (N + 1) ⟨t0, h⟩ = .ret s ∧ s.t = c.tend ∧
      (∀ k s', run (stepL c) k ⟨t0, h⟩ = .next s' → s'.t.1 ≤ c.tend.1) ∧
      0.999 * h.1 * (N - 1) < c.tend.1 - t0.1 ∧ c.tend.1 - t0.1 ≤ 1.015 * h.1 * N := by
  have hu := G.umin
  have h0 := G.hpos
  have gen : ∀ m : ℕ, ∀ s : St F.T, Good.Inv c h s → c.tend.1 - s.t.1 ≤ 0.999 * h.1 * m →
      ∃ N : ℕ, ∃ s' : St F.T, 1 ≤ N ∧ run (stepL c) (N + 1) s = .ret s' ∧ s'.t = c.tend ∧
      (∀ k s', run (stepL c) k s = .next s' → s'.t.1 ≤ c.tend.1) ∧
      0.999 * h.1 * (N - 1) < c.tend.1 - s.t.1 ∧ c.tend.1 - s.t.1 ≤ 1.015 * h.1 * N := by
    intro m
    induction m with
    | zero =>
      intro s I hm
      have := I.t1
      rw [Nat.cast_zero, mul_zero] at hm
      linarith
    | succ m ih =>
      intro s I hm
      rcases G.step I with ⟨s', e, e', hl⟩ | ⟨s', e, I', l1, l2⟩
      · have hret : stepL c s' = .ret s' := by
          unfold stepL
          rw [if_neg]
          rw [e', lt_val]; exact lt_irrefl _
        refine ⟨1, s', le_rfl, ?_, e', ?_, ?_, ?_⟩
        · rw [run_succ_next e]; simp [run, hret]
        · intro k u hk
          match k with
          | 0 => simp only [run, Res.next.injEq] at hk; rw [← hk]; exact I.t1.le
          | 1 => rw [run_succ_next e] at hk; simp only [run, Res.next.injEq] at hk; rw [← hk, e']
          | k + 2 => rw [run_succ_next e] at hk; simp [run, hret] at hk
        · have := I.t1
          simp only [Nat.cast_one, sub_self, mul_zero]; linarith
        · simpa using hl
      · obtain ⟨N, u, hN, q1, q2, q3, q4, q5⟩ := ih s' I' (by push_cast at hm; linarith)
        refine ⟨N + 1, u, by omega, ?_, q2, ?_, ?_, ?_⟩
        · rw [run_succ_next e]; exact q1
        · intro k v hk
          match k with
          | 0 => simp only [run, Res.next.injEq] at hk; rw [← hk]; exact I.t1.le
          | k + 1 => rw [run_succ_next e] at hk; exact q3 k v hk
        · push_cast; linarith
        · push_cast; linarith
  obtain ⟨m, hm⟩ := exists_nat_ge ((c.tend.1 - t0.1) / (0.999 * h.1))
  refine gen m ⟨t0, h⟩ ⟨ht0, ?_, ht, Or.inl rfl⟩ ?_
  · show t0.1 < c.tend.1
    linarith
  · show c.tend.1 - t0.1 ≤ _
    rw [div_le_iff₀ (by positivity)] at hm
    linarith

/-- the constants of the programs: `1.01e0`, `1.1` and `10.0e0*uround` with `uround=1.e-16`
(Rock4L.hpp 252, 299, 302; Rock4.hpp 148, 208, 211, 269), rounded. -/
structure Std (c : Tl F.T) : Prop where
  dist : c.dist = distF c.tend
  lit : Lit c.c101 1.01
  lit' : Lit c.c11 1.1
  umin : Lit c.umin (10 * F.rnd 1e-16)

theorem Std.c1 {c : Tl F.T} (S : Std c) : 1 ≤ c.c101.1 := by
  rw [S.lit]
  exact F.rn.ge (Flt.one F.hp) (by norm_num)

theorem Std.u1 {c : Tl F.T} (S : Std c) : (2 : ℝ) ^ (-51 : ℤ) ≤ c.umin.1 ∧ c.umin.1 ≤ (2 : ℝ) ^ (-49 : ℤ) := by
  have h1 : (2 : ℝ) ^ (-54 : ℤ) ≤ F.rnd 1e-16 := F.rn.ge (Flt.two_zpow F.hp _) (by norm_num)
  have h2 : F.rnd 1e-16 ≤ (2 : ℝ) ^ (-53 : ℤ) := F.rn.le (Flt.two_zpow F.hp _) (by norm_num)
  rw [S.umin]
  norm_num at h1 h2
  exact ⟨F.rn.ge (Flt.two_zpow F.hp _) (by norm_num; linarith),
    F.rn.le (Flt.two_zpow F.hp _) (by norm_num; linarith)⟩

/-- `0.1` in double precision. -/
theorem tenth (hp : F.p = 53) : F.rnd 0.1 = 7205759403792794 * (2 : ℝ) ^ (-56 : ℤ) := by
  have := rnd_eq F (m := 7205759403792794) (e := -56) (x := 0.1) (by rw [hp]; norm_num)
    (by rw [hp]; norm_num) (by norm_num [abs_of_neg]) (by norm_num)
  simpa using this

/-- the step from `-0.5` to `0.1` ends below `0.1`. -/
theorem misses (hp : F.p = 53) {tend t : F.T} (h1 : tend.1 = F.rnd 0.1) (h2 : t.1 = -0.5) :
    (tend - t).1 = 5404319552844595 * (2 : ℝ) ^ (-53 : ℤ) ∧
    (t + (tend - t)).1 = 900719925474099 * (2 : ℝ) ^ (-53 : ℤ) ∧
    (tend - (t + (tend - t))).1 = (2 : ℝ) ^ (-55 : ℤ) := by
  rw [tenth hp] at h1
  have e1 : (tend - t).1 = 5404319552844595 * (2 : ℝ) ^ (-53 : ℤ) := by
    rw [FP.sub_val, h1, h2]
    have := rnd_eq F (m := 5404319552844595) (e := -53) (x := 7205759403792794 * (2 : ℝ) ^ (-56 : ℤ) - -0.5)
      (by rw [hp]; norm_num) (by rw [hp]; norm_num) (by norm_num [abs_of_pos]) (by norm_num)
    simpa using this
  have e2 : (t + (tend - t)).1 = 900719925474099 * (2 : ℝ) ^ (-53 : ℤ) := by
    rw [FP.add_val, e1, h2]
    have : (-0.5 + 5404319552844595 * (2 : ℝ) ^ (-53 : ℤ)) = ((900719925474099 : ℤ) : ℝ) * (2 : ℝ) ^ (-53 : ℤ) := by
      norm_num
    rw [this]
    have h := F.rn.exact (x := ((900719925474099 : ℤ) : ℝ) * (2 : ℝ) ^ (-53 : ℤ))
      ⟨900719925474099, -53, by rw [hp]; norm_num, rfl⟩
    rw [h]; norm_num
  refine ⟨e1, e2, ?_⟩
  rw [FP.sub_val, e2, h1]
  have : (7205759403792794 * (2 : ℝ) ^ (-56 : ℤ) - 900719925474099 * (2 : ℝ) ^ (-53 : ℤ)) = (2 : ℝ) ^ (-55 : ℤ) := by
    norm_num
  rw [this]
  exact F.rn.exact (Flt.two_zpow F.hp _)

/-- the step is chopped to reach `tend`. -/
theorem chop_eq {c : Tl F.T} (S : Std c) {s : St F.T} (h1 : s.t.1 ≤ c.tend.1) (h2 : (c.tend - s.t).1 ≤ s.h.1) :
    chop c s = c.tend - s.t := by
  have hd : c.dist s.t = c.tend - s.t := by rw [S.dist, distF_eq h1]
  unfold chop
  rw [hd, if_pos]
  rw [le_val, FP.mul_val]
  refine F.rn.ge (c.tend - s.t).2 ?_
  have h0 : 0 ≤ (c.tend - s.t).1 := sub_nonneg' h1
  have := S.c1
  nlinarith

/-- a remaining distance of `2^(-55)` is too small. -/
theorem tiny {c : Tl F.T} (S : Std c) {s : St F.T} (h1 : s.t.1 < c.tend.1)
    (h2 : (c.tend - s.t).1 = (2 : ℝ) ^ (-55 : ℤ)) (h3 : s.h = c.tend - s.t) : chop c s < c.umin ∧ s.t < c.tend := by
  refine ⟨?_, h1⟩
  rw [chop_eq S h1.le (by rw [h3]), lt_val, h2]
  exact lt_of_lt_of_le (by norm_num) S.u1.1

/-- C110: the code violates the property.  In double precision, for any rule for ties, integrating from
`-0.5` to `0.1` (the double nearest to it) in one step: the step is not rounded exactly, `t` ends at
`tend-2^(-55)`, the loop `while(t<tend)` goes on and throws the exception "step too small". -/
theorem rock4l_float_throws (hp : F.p = 53) {c : Tl F.T} (S : Std c) (hov : ∀ x : F.T, x.1 ≤ 1 → ¬ c.over x)
    (hte : Lit c.tend 0.1) {t0 h : F.T} (ht0 : t0.1 = -0.5) (hh : 1 ≤ h.1) :
    (∃ s, run (stepL c) 1 ⟨t0, h⟩ = .next s ∧ c.tend.1 - s.t.1 = (2 : ℝ) ^ (-55 : ℤ)) ∧
    run (stepL c) 2 ⟨t0, h⟩ = .throw .stepTooSmall := by
  obtain ⟨e1, e2, e3⟩ := misses hp hte ht0
  have et : c.tend.1 = 7205759403792794 * (2 : ℝ) ^ (-56 : ℤ) := by rw [← tenth hp]; exact hte
  have hlt : t0.1 < c.tend.1 := by rw [et, ht0]; norm_num
  have hle : (c.tend - t0).1 ≤ h.1 := by rw [e1]; exact le_trans (by norm_num) hh
  have hch : chop c ⟨t0, h⟩ = c.tend - t0 := chop_eq S hlt.le hle
  have n1 := stepL_next hch hlt (by
    rw [lt_val, e1, not_lt]; exact S.u1.2.trans (by norm_num)) (hov _ (by rw [e1]; norm_num))
  have hlt' : (t0 + (c.tend - t0)).1 < c.tend.1 := by rw [et, e2]; norm_num
  have hh' : (after c t0 (c.tend - t0)).h = c.tend - (t0 + (c.tend - t0)) := by
    refine if_pos ?_
    rw [lt_val, FP.add_val, e1, e2, et]
    refine lt_of_lt_of_le ?_ (F.rn.ge (Flt.two_zpow F.hp (-1)) ?_) <;> norm_num
  refine ⟨⟨_, by rw [run_succ_next n1]; rfl, ?_⟩, ?_⟩
  · show c.tend.1 - (t0 + (c.tend - t0)).1 = _
    rw [et, e2]; norm_num
  · obtain ⟨q1, q2⟩ := tiny S (s := after c t0 (c.tend - t0)) hlt' e3 hh'
    rw [run_succ_next n1]
    have : stepL c (after c t0 (c.tend - t0)) = .throw .stepTooSmall := by
      unfold stepL
      rw [if_pos q2]
      simp only [if_pos q1]
    simp [run, this]

/-- C110: the test `h<10*uround` does not compare `h` with `t`.  If `t0+h` is rounded to `t0`, `h` passes
the test and is not near `tend-t0`, then the loop of Rock4L never ends. -/
theorem rock4l_float_diverges {c : Tl F.T} (hd : c.dist = distF c.tend) {t0 h : F.T} (ht : t0.1 < c.tend.1)
    (hu : c.umin.1 ≤ h.1) (hov : ¬ c.over h) (h1 : (c.c101 * h).1 < (c.tend - t0).1) (h2 : t0 + h = t0) :
    Diverges (stepL c) ⟨t0, h⟩ := by
  refine diverges_of_inv (I := fun s => s = ⟨t0, h⟩) ?_ rfl
  rintro s rfl
  refine ⟨⟨t0, h⟩, ?_, rfl⟩
  have hch : chop c ⟨t0, h⟩ = h := by
    unfold chop
    rw [if_neg]
    rw [hd, distF_eq ht.le, le_val]; linarith
  rw [stepL_next hch ht (by rw [lt_val]; linarith) hov]
  unfold after
  congr 2
  rw [h2, h2, if_neg]
  rw [lt_val]; linarith

/-- C110: a case in double precision: `t0=2^30`, `tend=2^31`, `h=2^(-49)` (about `1.8e-15`). -/
theorem rock4l_float_hangs (hp : F.p = 53) {c : Tl F.T} (S : Std c) (hov : ∀ x, ¬ c.over x) {t0 h : F.T}
    (h1 : t0.1 = (2 : ℝ) ^ (30 : ℤ)) (h2 : c.tend.1 = (2 : ℝ) ^ (31 : ℤ)) (h3 : h.1 = (2 : ℝ) ^ (-49 : ℤ)) :
    Diverges (stepL c) ⟨t0, h⟩ := by
  have ht : t0.1 < c.tend.1 := by rw [h1, h2]; norm_num
  refine rock4l_float_diverges S.dist ht (by rw [h3]; exact S.u1.2) (hov _) ?_ ?_
  · have a1 : (c.c101 * h).1 ≤ (2 : ℝ) ^ (0 : ℤ) := by
      rw [FP.mul_val, h3]
      refine F.rn.le (Flt.two_zpow F.hp _) ?_
      have : c.c101.1 ≤ (2 : ℝ) ^ (1 : ℤ) := by
        rw [S.lit]; exact F.rn.le (Flt.two_zpow F.hp _) (by norm_num)
      norm_num at this ⊢
      linarith
    have a2 : (2 : ℝ) ^ (1 : ℤ) ≤ (c.tend - t0).1 := by
      rw [FP.sub_val, h1, h2]
      exact F.rn.ge (Flt.two_zpow F.hp _) (by norm_num)
    norm_num at a1 a2
    linarith
  · apply Subtype.ext
    rw [FP.add_val, h1, h3]
    have := rnd_eq F (m := 4503599627370496) (e := -22) (x := (2 : ℝ) ^ (30 : ℤ) + (2 : ℝ) ^ (-49 : ℤ))
      (by rw [hp]; norm_num) (by rw [hp]; norm_num) (by norm_num [abs_of_pos]) (by norm_num)
    rw [this]; norm_num

/-! ### Rock4 -/

/-- C110 for Rock4: the same interval, when the first step is accepted (the error estimate of a constant
solution is zero) and was not limited by the number of stages; whatever step is proposed next, provided it is
not smaller than the remaining distance. -/
theorem rock4_float_throws (hp : F.p = 53) {c : Tl F.T} (S : Std c) (hte : Lit c.tend 0.1) {t0 h : F.T}
    (ht0 : t0.1 = -0.5) (hh : 1 ≤ h.1) {a : Ans F.T} (b : Ans F.T) (ha : a.acc = true) (hc : a.cap = none)
    (hn : (2 : ℝ) ^ (-55 : ℤ) ≤ a.next.1) :
    ∃ s, stepR c a ⟨t0, h⟩ = .next s ∧ c.tend.1 - s.t.1 = (2 : ℝ) ^ (-55 : ℤ) ∧
      stepR c b s = .throw .stepTooSmall := by
  obtain ⟨e1, e2, e3⟩ := misses hp hte ht0
  have et : c.tend.1 = 7205759403792794 * (2 : ℝ) ^ (-56 : ℤ) := by rw [← tenth hp]; exact hte
  have hlt : t0.1 < c.tend.1 := by rw [et, ht0]; norm_num
  have hle : (c.tend - t0).1 ≤ h.1 := by rw [e1]; exact le_trans (by norm_num) hh
  have hch : chop c ⟨t0, h⟩ = c.tend - t0 := chop_eq S hlt.le hle
  have hlt' : (t0 + (c.tend - t0)).1 < c.tend.1 := by rw [et, e2]; norm_num
  have hd : c.dist (t0 + (c.tend - t0)) = c.tend - (t0 + (c.tend - t0)) := by rw [S.dist, distF_eq hlt'.le]
  have hnu : ¬ chop c ⟨t0, h⟩ < c.umin := by
    rw [hch, lt_val, e1, not_lt]; exact S.u1.2.trans (by norm_num)
  have hc11 : c.c11.1 ≥ 1 := by rw [S.lit']; exact F.rn.ge (Flt.one F.hp) (by norm_num)
  have hle' : c.dist (t0 + (c.tend - t0)) ≤ c.c11 * a.next := by
    rw [hd, le_val, FP.mul_val]
    refine F.rn.ge (c.tend - (t0 + (c.tend - t0))).2 ?_
    rw [e3]
    have := z2 (-55)
    nlinarith
  refine ⟨⟨t0 + (c.tend - t0), c.tend - (t0 + (c.tend - t0))⟩, ?_, ?_, ?_⟩
  · unfold stepR
    rw [if_pos (show (⟨t0, h⟩ : St F.T).t < c.tend from hlt)]
    rw [hch] at hnu
    simp only [hch, if_neg hnu, hc, Option.getD_none, ha, if_true]
    rw [if_pos hle', hd]
  · show c.tend.1 - (t0 + (c.tend - t0)).1 = _
    rw [et, e2]; norm_num
  · obtain ⟨q1, q2⟩ := tiny S (s := ⟨t0 + (c.tend - t0), c.tend - (t0 + (c.tend - t0))⟩) hlt' e3 rfl
    unfold stepR
    rw [if_pos q2]
    simp only [if_pos q1]

/-- iterations of the loop of Rock4 with arbitrary answers; a step limited by the number of stages is
shorter than the one wanted, and all accepted steps are at most `L`. -/
inductive RunR (c : Tl F.T) (L : ℝ) : St F.T → St F.T → Prop
  | refl (s) : RunR c L s s
  | tail {s u v} (a : Ans F.T) (ih : RunR c L s u)
      (hcap : ∀ x, a.cap = some x → 0 ≤ x.1 ∧ 10 * x.1 ≤ 9 * (chop c u).1)
      (hL : a.acc = true → (a.cap.getD (chop c u)).1 ≤ L) (hs : stepR c a u = .next v) : RunR c L s v

theorem stepR_cases {c : Tl F.T} {a : Ans F.T} {s v : St F.T} (h : stepR c a s = .next v) :
    s.t < c.tend ∧ ¬ chop c s < c.umin ∧
      (v.t = s.t ∨ a.acc = true ∧ v.t = s.t + a.cap.getD (chop c s)) := by
  unfold stepR at h
  by_cases h1 : s.t < c.tend
  · rw [if_pos h1] at h
    simp only at h
    by_cases h2 : chop c s < c.umin
    · rw [if_pos h2] at h; cases h
    · rw [if_neg h2] at h
      refine ⟨h1, h2, ?_⟩
      by_cases h3 : a.acc = true
      · rw [if_pos h3] at h
        injection h with h
        exact Or.inr ⟨h3, by rw [← h]⟩
      · rw [if_neg h3] at h
        injection h with h
        exact Or.inl (by rw [← h])
  · rw [if_neg h1] at h; cases h

/-- an accepted step: not chopped it does not pass `tend`. -/
theorem stepR_t {c : Tl F.T} (S : Std c) (hp : 12 ≤ F.p) {a : Ans F.T} {s v : St F.T} {L : ℝ} (ht0 : 0 ≤ s.t.1)
    (hcap : ∀ x, a.cap = some x → 0 ≤ x.1 ∧ 10 * x.1 ≤ 9 * (chop c s).1)
    (hL : a.acc = true → (a.cap.getD (chop c s)).1 ≤ L) (h : stepR c a s = .next v) :
    0 ≤ v.t.1 ∧ (v.t.1 ≤ c.tend.1 ∨ v.t = s.t + (c.tend - s.t) ∧ (c.tend - s.t).1 ≤ L) := by
  obtain ⟨h1, h2, h3⟩ := stepR_cases h
  rw [lt_val] at h1
  rw [lt_val, not_lt] at h2
  have he : F.eps ≤ 1 / 4096 := by
    unfold FP.eps
    refine one_div_le_one_div_of_le (by norm_num) ?_
    calc (4096 : ℝ) = 2 ^ 12 := by norm_num
      _ ≤ 2 ^ F.p := pow_le_pow_right₀ (by norm_num) hp
  have hu : 0 < c.umin.1 := (z2 _).trans_le S.u1.1
  rcases h3 with e | ⟨h3, e⟩
  · rw [e]; exact ⟨ht0, Or.inl h1.le⟩
  have hd : c.dist s.t = c.tend - s.t := by rw [S.dist, distF_eq h1.le]
  have hadd : ∀ x : F.T, 0 ≤ x.1 → 0 ≤ (s.t + x).1 := fun x hx => by
    rw [FP.add_val]; exact F.rn.ge Flt.zero (by linarith)
  have hle : ∀ x : F.T, x.1 ≤ c.tend.1 - s.t.1 → (s.t + x).1 ≤ c.tend.1 := fun x hx => by
    rw [FP.add_val]; exact F.rn.le c.tend.2 (by linarith)
  -- the step before the limit on the number of stages
  have hchop : (chop c s = c.tend - s.t) ∨ (chop c s).1 ≤ c.tend.1 - s.t.1 := by
    unfold chop
    rw [hd]
    by_cases hc : c.tend - s.t ≤ c.c101 * s.h
    · left; rw [if_pos hc]
    · right
      have hs : chop c s = s.h := by unfold chop; rw [hd, if_neg hc]
      rw [hs] at h2
      rw [if_neg hc]
      rw [le_val, not_le] at hc
      have b1 : s.h.1 ≤ (c.c101 * s.h).1 := by
        rw [FP.mul_val]
        refine F.rn.ge s.h.2 ?_
        have := S.c1
        nlinarith
      by_contra hcon
      rw [not_le] at hcon
      have : (c.tend - s.t).1 ≤ s.h.1 := by rw [FP.sub_val]; exact F.rn.le s.h.2 hcon.le
      linarith
  cases hcap' : a.cap with
  | none =>
    rw [hcap', Option.getD_none] at e
    have hL' := hL h3
    rw [hcap', Option.getD_none] at hL'
    refine ⟨by rw [e]; exact hadd _ (by linarith), ?_⟩
    rcases hchop with q | q
    · right; rw [e, q]; exact ⟨rfl, by rw [← q]; exact hL'⟩
    · left; rw [e]; exact hle _ q
  | some x =>
    rw [hcap', Option.getD_some] at e
    obtain ⟨x0, x1⟩ := hcap x hcap'
    refine ⟨by rw [e]; exact hadd _ x0, Or.inl ?_⟩
    rw [e]
    refine hle _ ?_
    rcases hchop with q | q
    · rw [q] at x1
      have := F.err (c.tend.1 - s.t.1)
      rw [← FP.sub_val, abs_le, abs_of_pos (by linarith)] at this
      have := mul_le_mul_of_nonneg_right he (by linarith : 0 ≤ c.tend.1 - s.t.1)
      linarith
    · linarith

/-- C110 for Rock4, partial: whatever the answers of the kernel and the steps proposed, `t` never passes
`tend` by more than a rounding error; if all accepted steps are at most `0.49*tend` it never does, so
that a call which returns ends exactly at `tend`. -/
theorem rock4_float_end_partial {c : Tl F.T} (S : Std c) (hp : 12 ≤ F.p) {L : ℝ} {s0 s : St F.T}
    (ht0 : 0 ≤ s0.t.1) (ht1 : s0.t.1 ≤ c.tend.1) (h : RunR c L s0 s) :
    0 ≤ s.t.1 ∧ s.t.1 ≤ c.tend.1 * (1 + 3 * F.eps) ∧
    (100 * L ≤ 49 * c.tend.1 → s.t.1 ≤ c.tend.1 ∧
      ∀ b u, stepR c b s = .ret u → u.t = c.tend) := by
  have he0 := F.eps_pos
  have he1 : F.eps ≤ 1 / 4096 := by
    unfold FP.eps
    refine one_div_le_one_div_of_le (by norm_num) ?_
    calc (4096 : ℝ) = 2 ^ 12 := by norm_num
      _ ≤ 2 ^ F.p := pow_le_pow_right₀ (by norm_num) hp
  have hte : 0 ≤ c.tend.1 := ht0.trans ht1
  have main : 0 ≤ s.t.1 ∧ s.t.1 ≤ c.tend.1 * (1 + 3 * F.eps) ∧
      (100 * L ≤ 49 * c.tend.1 → s.t.1 ≤ c.tend.1) := by
    induction h with
    | refl => exact ⟨ht0, by nlinarith, fun _ => ht1⟩
    | @tail u v a ih hcap hL hs ih' =>
      obtain ⟨j0, -, -⟩ := ih'
      obtain ⟨k1, k2⟩ := stepR_t S hp j0 hcap hL hs
      have k3 : u.t.1 < c.tend.1 := (stepR_cases hs).1
      refine ⟨k1, ?_, ?_⟩
      · rcases k2 with k2 | ⟨k2, -⟩
        · nlinarith
        · have := land_near c.tend u.t
          rw [← k2, abs_of_nonneg hte, abs_of_pos (by linarith : 0 < c.tend.1 - u.t.1)] at this
          have b1 := (abs_le.1 this).2
          have b2 : F.eps * (c.tend.1 - u.t.1) ≤ F.eps * c.tend.1 :=
            mul_le_mul_of_nonneg_left (by linarith) he0.le
          have b3 : (1 + F.eps) * (F.eps * (c.tend.1 - u.t.1)) ≤ 2 * (F.eps * c.tend.1) :=
            mul_le_mul (by linarith) b2 (mul_nonneg he0.le (by linarith)) (by norm_num)
          linarith
      · intro hLt
        rcases k2 with k2 | ⟨k2, k4⟩
        · exact k2
        · have := F.err (c.tend.1 - u.t.1)
          rw [← FP.sub_val, abs_le, abs_of_pos (by linarith)] at this
          have b1 := mul_le_mul_of_nonneg_right he1 (by linarith : 0 ≤ c.tend.1 - u.t.1)
          rw [k2, land_exact (by linarith [this.1]) k3.le]
  refine ⟨main.1, main.2.1, fun hL => ⟨main.2.2 hL, ?_⟩⟩
  intro b u hu
  unfold stepR at hu
  by_cases h1 : s.t < c.tend
  · rw [if_pos h1] at hu
    simp only at hu
    split at hu <;> [cases hu; (split at hu <;> cases hu)]
  · rw [if_neg h1] at hu
    injection hu with hu
    rw [lt_val, not_lt] at h1
    exact Subtype.ext (by rw [← hu]; exact le_antisymm (main.2.2 hL) h1)

/-! ### Agreement with the models without rounding errors -/

/-- the constants of `Rock4L.step`. -/
noncomputable def cfgL {n : ℕ} (tend : X) (s : Rock4L.St n) : Tl X :=
  { tend := tend, c101 := 1.01, c11 := 1.1, umin := 10.0 * s.uround, dist := fun t => X.ABS (tend - t)
    over := fun h => ∃ md, X.toInt (X.sqrt ((3.0 + h * s.eigmax) / 0.353) + 1) = some md ∧ md > 152 }

/-- the choice of the step in `Rock4L.step`. -/
theorem chooseL {n : ℕ} (tend : X) (s : Rock4L.St n) :
    (∀ s1, Rock4L.choose tend s = .next s1 → s1.t = s.t ∧ s1.h = chop (cfgL tend s) ⟨s.t, s.h⟩ ∧
      ¬ s1.h < (cfgL tend s).umin ∧ ¬ (cfgL tend s).over s1.h) ∧
    (∀ s1, Rock4L.choose tend s ≠ .ret s1) ∧
    (∀ e, Rock4L.choose tend s = .throw e →
      (e = .stepTooSmall ∧ chop (cfgL tend s) ⟨s.t, s.h⟩ < (cfgL tend s).umin) ∨
      (e = .degreeTooLarge ∧ ¬ chop (cfgL tend s) ⟨s.t, s.h⟩ < (cfgL tend s).umin ∧
        (cfgL tend s).over (chop (cfgL tend s) ⟨s.t, s.h⟩))) := by
  classical
  have hch : chop (cfgL tend s) ⟨s.t, s.h⟩ =
      if X.ABS (tend - s.t) ≤ 1.01 * s.h then X.ABS (tend - s.t) else s.h := by
    unfold chop cfgL; rfl
  have hum : (cfgL tend s).umin = 10.0 * s.uround := rfl
  have hov : ∀ x, (cfgL tend s).over x =
    ∃ md, X.toInt (X.sqrt ((3.0 + x * s.eigmax) / 0.353) + 1) = some md ∧ md > 152 := fun _ => rfl
  rw [hum]
  have hx : Rock4L.choose tend s = Rock4L.choose tend s := rfl
  conv at hx => rhs; unfold Rock4L.choose
  have hch' : chop (cfgL tend s) ⟨s.t, s.h⟩ =
      @ite _ (X.ABS (tend - s.t) ≤ 1.01 * s.h) (Classical.propDecidable _) (X.ABS (tend - s.t)) s.h := by
    rw [hch]
  simp only [← hch'] at hx
  set x := chop (cfgL tend s) ⟨s.t, s.h⟩
  rw [hx]
  by_cases h2 : x < 10.0 * s.uround
  · rw [if_pos h2]
    refine ⟨fun _ h => (by cases h), fun _ h => (by cases h), fun e h => ?_⟩
    injection h with h
    exact Or.inl ⟨h.symm, h2⟩
  · rw [if_neg h2]
    cases hm : X.toInt (X.sqrt ((3.0 + x * s.eigmax) / 0.353) + 1) with
    | none => simp
    | some md =>
      simp only
      by_cases h3 : md > 152
      · rw [if_pos h3]
        simp only [Res.throw.injEq]
        refine ⟨fun _ h => (by cases h), fun _ h => (by cases h), fun e he => Or.inr ⟨he.symm, h2, ?_⟩⟩
        rw [hov]; exact ⟨md, hm, h3⟩
      · rw [if_neg h3]
        have hno : ¬ (cfgL tend s).over x := by rw [hov, hm]; simpa using h3
        by_cases h4 : max md 5 - 4 ≠ s.mdego
        · rw [if_pos h4]
          refine ⟨fun s1 h => ?_, fun _ h => (by cases h), fun _ h => (by cases h)⟩
          injection h with h
          rw [← h]
          exact ⟨rfl, rfl, h2, hno⟩
        · rw [if_neg h4]
          refine ⟨fun s1 h => ?_, fun _ h => (by cases h), fun _ h => (by cases h)⟩
          injection h with h
          rw [← h]
          exact ⟨rfl, rfl, h2, hno⟩

/-- `t` and `h` of the model of Rock4L follow `stepL`. -/
theorem rock4l_sim {n : ℕ} (aff : Bool) (O : Rock4L.Oper X n) (T : Rock4L.Tab X) (tend : X) (s : Rock4L.St n) :
    (∀ s', Rock4L.step aff O T tend s = .next s' → stepL (cfgL tend s) ⟨s.t, s.h⟩ = .next ⟨s'.t, s'.h⟩) ∧
    (∀ s', Rock4L.step aff O T tend s = .ret s' → stepL (cfgL tend s) ⟨s.t, s.h⟩ = .ret ⟨s'.t, s'.h⟩) ∧
    (∀ e, Rock4L.step aff O T tend s = .throw e → stepL (cfgL tend s) ⟨s.t, s.h⟩ = .throw e) := by
  obtain ⟨c1, c2, c3⟩ := chooseL tend s
  unfold Rock4L.step stepL
  have hte : (cfgL tend s).tend = tend := rfl
  by_cases h1 : s.t < tend
  · rw [if_pos h1, hte, if_pos h1]
    cases hc : Rock4L.choose tend s with
    | ret s1 => exact absurd hc (c2 s1)
    | ub u => simp
    | throw e =>
      simp only
      refine ⟨fun _ h => (by cases h), fun _ h => (by cases h), fun e' h => ?_⟩
      injection h with h
      subst h
      rcases c3 e hc with ⟨q, q1⟩ | ⟨q, q1, q2⟩
      · rw [if_pos q1, q]
      · rw [if_neg q1, if_pos q2, q]
    | next s1 =>
      simp only
      obtain ⟨a1, a2, a3, a4⟩ := c1 s1 hc
      rw [← a2, if_neg a3, if_neg a4]
      cases hk : Rock4L.kern aff O T s1 with
      | none => simp
      | some r =>
        refine ⟨fun s' h => ?_, fun _ h => (by cases h), fun _ h => (by cases h)⟩
        simp only at h
        injection h with h
        rw [← h, ← a1]
        rfl
  · rw [if_neg h1, hte, if_neg h1]
    simp

/-- the constants of `Rock4.step`. -/
noncomputable def cfgR {n : ℕ} (tend : X) (s : Rock4.St n) : Tl X :=
  { tend := tend, c101 := 1.01, c11 := 1.1, umin := 10.0 * s.uround, dist := fun t => X.ABSsub tend t
    over := fun _ => False }

/-- the choice of the step in `Rock4.step`. -/
theorem chooseR {n : ℕ} (P : Rock4.Problem n) (tend : X) (s : Rock4.St n) :
    (∀ s1, Rock4.choose P tend s = .next s1 → s1.t = s.t ∧
      ¬ chop (cfgR tend s) ⟨s.t, s.h⟩ < (cfgR tend s).umin ∧
      (s1.h = chop (cfgR tend s) ⟨s.t, s.h⟩ ∨ s1.h = 0.8 * (152.0 * 152.0 * 0.353 - 3.0) / s1.eigmax)) ∧
    (∀ s1, Rock4.choose P tend s ≠ .ret s1) ∧
    (∀ e, Rock4.choose P tend s = .throw e →
      e = .stepTooSmall ∧ chop (cfgR tend s) ⟨s.t, s.h⟩ < (cfgR tend s).umin) := by
  have hum : (cfgR tend s).umin = 10.0 * s.uround := rfl
  have hx : chop (cfgR tend s) ⟨s.t, s.h⟩ = Rock4.hCapped tend s := rfl
  rw [hum, hx]
  by_cases h1 : Rock4.hCapped tend s < 10.0 * s.uround
  · rw [Rock4.choose_throw P tend s h1]
    refine ⟨fun _ h => (by cases h), fun _ h => (by cases h), fun e h => ?_⟩
    injection h with h
    exact ⟨h.symm, h1⟩
  cases h2 : X.toInt (X.sqrt ((3.0 + Rock4.hCapped tend s * Rock4.eigUsed P s) / 0.353) + 1) with
  | none => rw [Rock4.choose_ub P tend s h1 h2]; simp
  | some md =>
    refine ⟨fun s1 hs => ?_, fun s1 hs => ?_, fun e hs => ?_⟩
    all_goals
      have h1' := h1
      unfold Rock4.choose at hs
      unfold Rock4.hCapped at h1' h2
      unfold Rock4.eigUsed at h2
      simp only [h1', if_false, h2] at hs
    · by_cases h3 : md > 152 <;>
      [(simp only [if_pos h3] at hs); (simp only [if_neg h3] at hs)]
      all_goals
        split at hs
      all_goals
        injection hs with hs
        rw [← hs]
      · exact ⟨rfl, h1, Or.inr rfl⟩
      · exact ⟨rfl, h1, Or.inr rfl⟩
      · exact ⟨rfl, h1, Or.inl rfl⟩
      · exact ⟨rfl, h1, Or.inl rfl⟩
    · by_cases h3 : md > 152 <;>
      [(simp only [if_pos h3] at hs); (simp only [if_neg h3] at hs)]
      all_goals
        split at hs <;> cases hs
    · by_cases h3 : md > 152 <;>
      [(simp only [if_pos h3] at hs); (simp only [if_neg h3] at hs)]
      all_goals
        split at hs <;> cases hs

/-- `t` and `h` of the model of Rock4 follow `stepR`, with the answers computed by the rest of the program. -/
theorem rock4_sim {n : ℕ} (P : Rock4.Problem n) (T : Rock4.Tables) (tend : X) (s : Rock4.St n) :
    (∀ s', Rock4.step P T tend s = .next s' →
      ∃ a, stepR (cfgR tend s) a ⟨s.t, s.h⟩ = .next ⟨s'.t, s'.h⟩) ∧
    (∀ s', Rock4.step P T tend s = .ret s' → ∀ a, stepR (cfgR tend s) a ⟨s.t, s.h⟩ = .ret ⟨s'.t, s'.h⟩) ∧
    (∀ e, Rock4.step P T tend s = .throw e → ∀ a, stepR (cfgR tend s) a ⟨s.t, s.h⟩ = .throw e) := by
  obtain ⟨c1, c2, c3⟩ := chooseR P tend s
  unfold Rock4.step stepR
  by_cases h1 : s.t < tend
  · have h1' : s.t < (cfgR tend s).tend := h1
    simp only [if_pos h1, if_pos h1']
    cases hc : Rock4.choose P tend s with
    | ret s1 => exact absurd hc (c2 s1)
    | ub u => simp
    | throw e =>
      simp only
      refine ⟨fun _ h => (by cases h), fun _ h => (by cases h), fun e' h a => ?_⟩
      injection h with h
      subst h
      obtain ⟨q, q1⟩ := c3 e hc
      rw [if_pos q1, q]
    | next s1 =>
      simp only
      obtain ⟨a1, a2, a3⟩ := c1 s1 hc
      simp only [if_neg a2]
      cases hk : Rock4.kernel P T s1 s1.h with
      | none => simp
      | some r =>
        refine ⟨fun s' h => ?_, fun _ h => (by cases h), fun _ h => (by cases h)⟩
        simp only at h
        injection h with h
        have k1 : r.1.t = s.t ∧ r.1.h = s1.h := by
          simp only [Rock4.kernel, Option.bind_eq_some_iff] at hk
          obtain ⟨_, _, _, _, hk⟩ := hk
          simp only [Option.some.injEq] at hk
          rw [← hk]; exact ⟨a1, rfl⟩
        rw [← h]
        by_cases h5 : r.2 < 1.0
        · have e1 : (Rock4.control tend r.1 r.2).t = s.t + s1.h := by
            unfold Rock4.control; simp only [if_pos h5, k1.1, k1.2]
          have e2 : ∃ x, (Rock4.control tend r.1 r.2).h =
              open Classical in if X.ABSsub tend (s.t + s1.h) ≤ 1.1 * x then X.ABSsub tend (s.t + s1.h) else x := by
            rw [← k1.1, ← k1.2]
            unfold Rock4.control; simp only [if_pos h5]
            exact ⟨_, rfl⟩
          obtain ⟨x, e2⟩ := e2
          refine ⟨⟨some s1.h, true, x⟩, ?_⟩
          rw [e1, e2]
          rfl
        · have e1 : (Rock4.control tend r.1 r.2).t = s.t := by
            unfold Rock4.control; simp only [if_neg h5, k1.1]
          refine ⟨⟨none, false, (Rock4.control tend r.1 r.2).h⟩, ?_⟩
          rw [e1]
          rfl
  · have h1' : ¬ s.t < (cfgR tend s).tend := h1
    simp only [if_neg h1, if_neg h1']
    simp

/-! ### The hypotheses can be met -/

/-- the loops of the programs with a given end of interval, never more than 152 stages. -/
noncomputable def stdF (F : FP) (tend : F.T) : Tl F.T :=
  cfgF tend ⟨F.rnd 1.01, F.rn.flt _⟩ ⟨F.rnd 1.1, F.rn.flt _⟩ ⟨F.rnd (10 * F.rnd 1e-16), F.rn.flt _⟩ fun _ => False

theorem stdF_std (F : FP) (tend : F.T) : Std (stdF F tend) := ⟨rfl, rfl, rfl, rfl⟩

/-- powers of two. -/
noncomputable def pw (F : FP) (e : ℤ) : F.T := ⟨(2 : ℝ) ^ e, Flt.two_zpow F.hp e⟩

theorem stdF_good (F : FP) (hp : F.p = 53) : Good (stdF F 1) (pw F (-3)) := by
  have hu := (stdF_std F 1).u1
  refine ⟨rfl, rfl, ?_, ?_, (z2 _).trans_le hu.1, ?_, fun _ _ h => h⟩
  · show 100 * (2 : ℝ) ^ (-3 : ℤ) ≤ 49 * (1 : ℝ)
    norm_num
  · show 1000 * (F.eps * (1 : ℝ)) ≤ (2 : ℝ) ^ (-3 : ℤ)
    unfold FP.eps
    rw [hp]; norm_num
  · show 200 * (stdF F 1).umin.1 ≤ (2 : ℝ) ^ (-3 : ℤ)
    have := hu.2
    norm_num at this ⊢
    linarith

/-- from 0 to 1 with `h=1/8` in double precision. -/
example : ∃ F : FP, ∃ N : ℕ, ∃ s : St F.T, run (stepL (stdF F 1)) (N + 1) ⟨0, pw F (-3)⟩ = .ret s ∧ s.t.1 = 1 ∧
    7 ≤ N ∧ N ≤ 9 := by
  obtain ⟨F, hp⟩ := exists_fp 53 (by norm_num)
  have G := stdF_good F hp
  have hu := (stdF_std F 1).u1
  obtain ⟨N, s, -, h1, h2, -, h3, h4⟩ := rock4l_float_end_partial G (t0 := 0) le_rfl (by
    show (stdF F 1).umin.1 ≤ (1 : ℝ) - 0
    have := hu.2
    norm_num at this ⊢
    linarith)
  refine ⟨F, N, s, h1, by rw [h2]; rfl, ?_⟩
  have e1 : (stdF F 1).tend.1 - (0 : F.T).1 = 1 := by
    show (1 : ℝ) - 0 = 1
    norm_num
  have e2 : (pw F (-3)).1 = 1 / 8 := by
    show (2 : ℝ) ^ (-3 : ℤ) = _
    norm_num
  rw [e1, e2] at h3 h4
  have a1 : (N : ℝ) < 10 := by linarith
  have a2 : (7 : ℝ) < N := by linarith
  have : N < 10 := by exact_mod_cast a1
  have : 7 < N := by exact_mod_cast a2
  omega

/-- from `-0.5` to `0.1`, from `2^30` to `2^31`. -/
example : ∃ F : FP, (∃ (tend t0 h : F.T), run (stepL (stdF F tend)) 2 ⟨t0, h⟩ = .throw .stepTooSmall) ∧
    Diverges (stepL (stdF F (pw F 31))) ⟨pw F 30, pw F (-49)⟩ := by
  obtain ⟨F, hp⟩ := exists_fp 53 (by norm_num)
  refine ⟨F, ⟨⟨F.rnd 0.1, F.rn.flt _⟩, ⟨-0.5, -1, -1, by rw [hp]; norm_num, by norm_num⟩, 1, ?_⟩, ?_⟩
  · exact (rock4l_float_throws hp (stdF_std F ⟨F.rnd 0.1, F.rn.flt _⟩) (fun _ _ h => h) rfl rfl le_rfl).2
  · exact rock4l_float_hangs hp (stdF_std F _) (fun _ h => h) rfl rfl rfl

/-- Rock4: a first step of `1/8` from 0 to 1, then another one. -/
example : ∃ F : FP, ∃ s : St F.T, RunR (stdF F 1) (1 / 8) ⟨0, pw F (-3)⟩ s ∧ 0 < s.t.1 := by
  obtain ⟨F, hp⟩ := exists_fp 53 (by norm_num)
  have hlt : (0 : F.T) < (stdF F 1).tend := (by norm_num : (0 : ℝ) < 1)
  have e2 : (pw F (-3)).1 = 1 / 8 := by
    show (2 : ℝ) ^ (-3 : ℤ) = _
    norm_num
  have hch : chop (stdF F 1) ⟨0, pw F (-3)⟩ = pw F (-3) := by
    unfold chop
    rw [if_neg]
    show ¬ (distF 1 0 : F.T) ≤ _
    rw [distF_eq (by show (0 : ℝ) ≤ 1; norm_num), le_val, not_le]
    have a1 : ((1 : F.T) - 0).1 = 1 := by
      rw [FP.sub_val]
      show F.rnd (1 - 0) = 1
      rw [sub_zero]; exact F.rn.exact (Flt.one F.hp)
    rw [a1, FP.mul_val, e2]
    have a2 : F.rnd ((stdF F 1).c101.1 * (1 / 8)) ≤ (2 : ℝ) ^ (-2 : ℤ) := by
      refine F.rn.le (Flt.two_zpow F.hp _) ?_
      have : (stdF F 1).c101.1 ≤ (2 : ℝ) ^ (1 : ℤ) := F.rn.le (Flt.two_zpow F.hp _) (by norm_num)
      norm_num at this ⊢
      linarith
    refine a2.trans_lt ?_
    norm_num
  have hnu : ¬ chop (stdF F 1) ⟨0, pw F (-3)⟩ < (stdF F 1).umin := by
    rw [hch, lt_val, not_lt, e2]
    have := (stdF_std F 1).u1.2
    norm_num at this ⊢
    linarith
  obtain ⟨v, hv⟩ : ∃ v : F.T, stepR (stdF F 1) ⟨none, true, pw F (-3)⟩ ⟨0, pw F (-3)⟩ =
      .next ⟨0 + pw F (-3), v⟩ := by
    unfold stepR
    rw [if_pos (show (⟨0, pw F (-3)⟩ : St F.T).t < _ from hlt)]
    simp only [if_neg hnu]
    simp only [Option.getD_none, hch, if_true]
    exact ⟨_, rfl⟩
  refine ⟨F, _, RunR.tail _ (RunR.refl _) (by simp) (fun _ => ?_) hv, ?_⟩
  · rw [Option.getD_none, hch, e2]
  · show 0 < F.rnd (0 + (pw F (-3)).1)
    rw [zero_add, F.rn.exact (pw F (-3)).2, e2]
    norm_num

end Odes.TimeLoop
