import Verif.Model.PlanetsArr
import Verif.Props.SympPlanetsLoop

/-!
# C90, C126: with the declared arrays the rounded program writes outside `Y1`
-/

namespace Odes.Symp.Test

open Odes.Mem Odes.Symp

variable {F : FP} {N : ℕ} {c : PlanetsFl F N} {X Y : Buf F.T}

/-- the loop which sets `dp` to zero leaves an array which is too short -/
theorem zeroL_none {dp : ℤ} (h0 : 0 ≤ dp) (h1 : dp ≤ Y.size) (h2 : Y.size < dp + 18 * N) : zeroL N dp Y = none := by
  obtain ⟨k, hk⟩ : ∃ k : ℕ, (k : ℤ) = Y.size - dp := ⟨(Y.size - dp).toNat, by omega⟩
  have e : (3 * (6 * (N : ℤ)) - 1) = ((18 * N : ℕ) : ℤ) - 1 := by push_cast; ring
  unfold zeroL
  rw [e]
  refine forUp_none (fun Z : Buf F.T => Z.size = Y.size) (18 * N) k (by omega) rfl ?_ ?_
  · intro j Z Z' _ hZ hw
    rw [Buf.wr] at hw
    split_ifs at hw
    cases hw
    exact hZ
  · intro Z hZ
    rw [Buf.wr, if_neg (by omega)]

/-- C90: the call of `operator()` with room for `6N` elements at `off` is undefined exactly if fewer than `21N` are there. -/
theorem rhsL_ub (h1 : 1 ≤ N) (hX : X.size = 6 * N) {off : ℤ} (h0 : 0 ≤ off) (hY : off + 6 * N ≤ Y.size) :
    rhsL c X off Y = none ↔ Y.size < off + 21 * N := by
  constructor
  · intro hn
    by_contra hs
    obtain ⟨Y', h2, -⟩ := rhsL_of (c := c) (Y := Y) h1 hX h0 (by omega)
    rw [h2] at hn
    cases hn
  · intro hs
    obtain ⟨Y1, a1, a2, -⟩ := dqdtL_of (c := c) (Y := Y) hX h0 (by omega)
    rw [rhsL, a1, Option.bind_some, dpdtL, zeroL_none (by omega) (by omega) (by omega), Option.bind_none]

/-- C90, C126: with the arrays as declared every iteration of every step has undefined behaviour, whatever the number of bodies, the
number of stages, the values and the rounding. -/
theorem evalsArr_ub (c : PlanetsFl F N) (h1 : 1 ≤ N) {s : ℕ} (hs : 1 ≤ s) (Y : Buf F.T) {Y1 : Buf F.T} (hY : Y1.size = 6 * N * s) :
    evalsArr c s Y Y1 = none := by
  unfold evalsArr
  refine forUp_none (fun Z : Buf F.T => Z.size = 6 * N * s) s (s - 1) (by omega) hY ?_ ?_
  · intro j Z Z' hj hZ hr
    have f6 : 0 ≤ (j : ℤ) * (6 * N) := by positivity
    have f7 : (N : ℤ) * (j + 1) ≤ N * s := mul_le_mul_of_nonneg_left (by omega) (by omega)
    by_cases hn : Z.size < (j : ℤ) * (6 * N) + 21 * N
    · rw [(rhsL_ub h1 rfl f6 (by rw [hZ]; linarith)).2 hn] at hr
      cases hr
    · obtain ⟨Z2, h2, h3, -⟩ := rhsL_of (c := c) (X := ⟨6 * N, fun k => Y.cell (j * (6 * N) + k)⟩) (Y := Z) h1 rfl f6 (by omega)
      rw [h2] at hr
      cases hr
      exact h3.trans hZ
  · intro Z hZ
    obtain ⟨q, rfl⟩ : ∃ q, s = q + 1 := ⟨s - 1, by omega⟩
    have hN : (1 : ℤ) ≤ N := by omega
    refine (rhsL_ub h1 rfl (by positivity) ?_).2 ?_ <;> rw [hZ] <;> push_cast <;> nlinarith

/-- the program of test/main.cc: six bodies, eight stages. -/
example (c : PlanetsFl F 6) (Y : Buf F.T) (v : ℤ → F.T) : evalsArr c 8 Y ⟨6 * 6 * 8, v⟩ = none :=
  evalsArr_ub c (by decide) (by decide) Y rfl

end Odes.Symp.Test
