import Verif.Model.PlanetsLoop
import Verif.Props.SympFlat

/-!
# C126: the loops of the right hand side of the planetary problems, rounded
-/

namespace Odes.Symp.Test

open Odes.Mem Odes.Symp

variable {F : FP} {N : ℕ}

section rows

variable {dp : ℤ} {body : ℤ → ℤ → Buf F.T → Option (Buf F.T)} {t : ℕ → ℕ → ℤ → F.T}

/-- what one pair of bodies does to `dp` -/
def Pair (N : ℕ) (dp : ℤ) (body : ℤ → ℤ → Buf F.T → Option (Buf F.T)) (t : ℕ → ℕ → ℤ → F.T) : Prop :=
  ∀ (l j : ℕ) (Y : Buf F.T), l < N → j < N → dp + 3 * N ≤ Y.size → ∃ Y', body l j Y = some Y' ∧ Y'.size = Y.size ∧
    (∀ s, 0 ≤ s → s < 3 → Y'.cell (dp + (3 * l + s)) = Y.cell (dp + (3 * l + s)) + t l j s) ∧
    ∀ k, k < dp + 3 * l ∨ dp + 3 * l + 3 ≤ k → Y'.cell k = Y.cell k

/-- what a loop on the rows of `dp` does -/
structure RowsF (N : ℕ) (dp : ℤ) (T : ℕ → ℤ → F.T → F.T) (Y Y' : Buf F.T) : Prop where
  size : Y'.size = Y.size
  row : ∀ l s, l < N → 0 ≤ s → s < 3 → Y'.cell (dp + (3 * (l : ℤ) + s)) = T l s (Y.cell (dp + (3 * (l : ℤ) + s)))
  out : ∀ k, k < dp ∨ dp + 3 * N ≤ k → Y'.cell k = Y.cell k

/-- sum of terms in the order of a list -/
noncomputable def addUp (t : ℕ → F.T) (L : List ℕ) (d : F.T) : F.T := L.foldl (fun d j => d + t j) d

theorem addUp_append (t : ℕ → F.T) (L M : List ℕ) (d : F.T) : addUp t (L ++ M) d = addUp t M (addUp t L d) := List.foldl_append

theorem lower_rows (hb : Pair N dp body t) {Y : Buf F.T} (h1 : 1 ≤ N) (hY : dp + 3 * N ≤ Y.size) :
    ∃ Y', forUp 1 ((N : ℤ) - 1) (fun l Y => forUp 0 (l - 1) (fun j Y => body l j Y) Y) Y = some Y' ∧
      RowsF N dp (fun l s d => addUp (fun j => t l j s) (List.range l) d) Y Y' := by
  obtain ⟨Y', h2, h3⟩ := forUp_inv (lo := 1) (hi := (N : ℤ) - 1) (s := Y)
    (body := fun l Y => forUp 0 (l - 1) (fun j Y => body l j Y) Y)
    (fun l Y' => RowsF N dp (fun l' s d => if (l' : ℤ) < l then addUp (fun j => t l' j s) (List.range l') d else d) Y Y')
    (by omega)
    ⟨rfl, fun l s hl hs hs' => by
      rcases Nat.eq_zero_or_pos l with rfl | hl'
      · simp [addUp]
      · rw [if_neg (by omega)], fun k _ => rfl⟩ (by
      intro l Y1 hl hl' hP
      obtain ⟨L, rfl⟩ : ∃ L : ℕ, l = L := ⟨l.toNat, by omega⟩
      obtain ⟨Y2, a1, a2⟩ := forUp_nat (s := L) (st := Y1) (body := fun j Y => body L j Y)
        (fun J Y' => RowsF N dp (fun l' s d => if l' = L then addUp (fun j => t l' j s) (List.range J) d else d) Y1 Y')
        ⟨rfl, fun l s _ _ _ => by simp [addUp], fun k _ => rfl⟩ (by
          intro j Y2 hj hP2
          obtain ⟨Y3, b1, b2, b3, b4⟩ := hb L j Y2 (by omega) (by omega) (by rw [hP2.size, hP.size]; omega)
          refine ⟨Y3, b1, b2.trans hP2.size, fun l s hln hs hs' => ?_, fun k hk => ?_⟩
          · by_cases e : l = L
            · subst e
              rw [b3 s hs hs', hP2.row l s hln hs hs', if_pos rfl, if_pos rfl, List.range_succ, addUp_append]
              rfl
            · rw [b4 _ (by omega), hP2.row l s hln hs hs', if_neg e, if_neg e]
          · rw [b4 _ (by omega), hP2.out k hk])
      refine ⟨Y2, a1, a2.size.trans hP.size, fun l s hl hs hs' => ?_, fun k hk => ?_⟩
      · rw [a2.row l s hl hs hs', hP.row l s hl hs hs']
        by_cases e : l = L
        · subst e; rw [if_pos rfl, if_neg (by omega), if_pos (by omega)]
        · rw [if_neg e]
          by_cases e' : l < L
          · rw [if_pos (by omega), if_pos (by omega)]
          · rw [if_neg (by omega), if_neg (by omega)]
      · rw [a2.out k hk, hP.out k hk])
  refine ⟨Y', h2, h3.size, fun l s hl hs hs' => ?_, h3.out⟩
  rw [h3.row l s hl hs hs', if_pos (by omega)]

theorem filter_succ (L J : ℕ) (h : L < J) : (List.range (J + 1)).filter (fun j => L < j) = (List.range J).filter (fun j => L < j) ++ [J] := by
  rw [List.range_succ, List.filter_append]
  congr 1
  simp [h]

theorem filter_none (L : ℕ) : (List.range (L + 1)).filter (fun j => L < j) = [] := by
  rw [List.filter_eq_nil_iff]
  intro a ha
  have := List.mem_range.1 ha
  simp; omega

theorem upper_rows (hb : Pair N dp body t) {Y : Buf F.T} (h1 : 1 ≤ N) (hY : dp + 3 * N ≤ Y.size) :
    ∃ Y', forUp 0 (((N : ℤ) - 1) - 1) (fun l Y => forUp (l + 1) ((N : ℤ) - 1) (fun j Y => body l j Y) Y) Y = some Y' ∧
      RowsF N dp (fun l s d => addUp (fun j => t l j s) ((List.range N).filter (fun j => l < j)) d) Y Y' := by
  obtain ⟨Y', h2, h3⟩ := forUp_inv (lo := 0) (hi := (N : ℤ) - 1 - 1) (s := Y)
    (body := fun l Y => forUp (l + 1) ((N : ℤ) - 1) (fun j Y => body l j Y) Y)
    (fun l Y' => RowsF N dp (fun l' s d => if (l' : ℤ) < l then
      addUp (fun j => t l' j s) ((List.range N).filter (fun j => l' < j)) d else d) Y Y')
    (by omega)
    ⟨rfl, fun l s hl hs hs' => by rw [if_neg (by omega)], fun k _ => rfl⟩ (by
      intro l Y1 hl hl' hP
      obtain ⟨L, rfl⟩ : ∃ L : ℕ, l = L := ⟨l.toNat, by omega⟩
      obtain ⟨Y2, a1, a2⟩ := forUp_inv (lo := (L : ℤ) + 1) (hi := (N : ℤ) - 1) (s := Y1)
        (body := fun j Y => body L j Y)
        (fun J Y' => RowsF N dp (fun l' s d => if l' = L then
          addUp (fun j => t l' j s) ((List.range J.toNat).filter (fun j => L < j)) d else d) Y1 Y')
        (by omega)
        ⟨rfl, fun l s _ _ _ => by
          rw [show ((L : ℤ) + 1).toNat = L + 1 by omega, filter_none]; simp [addUp], fun k _ => rfl⟩ (by
          intro j Y2 hj hj' hP2
          obtain ⟨J, rfl⟩ : ∃ J : ℕ, j = J := ⟨j.toNat, by omega⟩
          obtain ⟨Y3, b1, b2, b3, b4⟩ := hb L J Y2 (by omega) (by omega) (by rw [hP2.size, hP.size]; omega)
          refine ⟨Y3, b1, b2.trans hP2.size, fun l s hln hs hs' => ?_, fun k hk => ?_⟩
          · by_cases e : l = L
            · subst e
              rw [b3 s hs hs', hP2.row l s hln hs hs', if_pos rfl, if_pos rfl,
                show ((J : ℤ) + 1).toNat = J + 1 by omega, show (J : ℤ).toNat = J by omega, filter_succ l J (by omega), addUp_append]
              rfl
            · rw [b4 _ (by omega), hP2.row l s hln hs hs', if_neg e, if_neg e]
          · rw [b4 _ (by omega), hP2.out k hk])
      refine ⟨Y2, a1, a2.size.trans hP.size, fun l s hl hs hs' => ?_, fun k hk => ?_⟩
      · rw [a2.row l s hl hs hs', hP.row l s hl hs hs']
        by_cases e : l = L
        · subst e
          rw [if_pos rfl, if_neg (by omega), if_pos (by omega), show ((N : ℤ) - 1 + 1).toNat = N by omega]
        · rw [if_neg e]
          by_cases e' : l < L
          · rw [if_pos (by omega), if_pos (by omega)]
          · rw [if_neg (by omega), if_neg (by omega)]
      · rw [a2.out k hk, hP.out k hk])
  refine ⟨Y', h2, h3.size, fun l s hl hs hs' => ?_, h3.out⟩
  rw [h3.row l s hl hs hs']
  by_cases e : (l : ℤ) < (N : ℤ) - 1 - 1 + 1
  · rw [if_pos e]
  · have : N = l + 1 := by omega
    rw [if_neg e, this, filter_none]
    rfl

end rows

variable {c : PlanetsFl F N} {X Y : Buf F.T} {dp : ℤ}

/-- the vector in an array -/
def vec (N : ℕ) (X : Buf F.T) (k : Fin (6 * N)) : F.T := X.cell k

theorem mass_rd {i : ℤ} (h : 0 ≤ i ∧ i < N) : (massBuf c).rd i = some (c.masses ⟨i.toNat, by omega⟩) := by
  rw [Buf.rd_in (by exact h)]
  simp only [massBuf]
  rw [dif_pos h]

theorem posF_vec (i : Fin N) (s : Fin 3) : posF (vec N X) i s = X.cell (3 * (i : ℕ) + (s : ℕ)) := by
  unfold posF vec; push_cast; rfl

theorem diff2L_of (hX : X.size = 6 * N) (k l : Fin N) : diff2L c X (k : ℕ) (l : ℕ) = some (diff2Fl c (vec N X) k l) := by
  have := k.2
  have := l.2
  unfold diff2L
  rw [forUp_three, Buf.rd_in (by omega), Buf.rd_in (by omega), Option.bind_some, Option.map_some,
    Option.bind_some, Buf.rd_in (by omega), Buf.rd_in (by omega), Option.bind_some, Option.map_some,
    Option.bind_some, Buf.rd_in (by omega), Buf.rd_in (by omega), Option.bind_some, Option.map_some]
  unfold diff2Fl
  rw [show List.finRange 3 = [0, 1, 2] from rfl]
  simp only [List.foldl_cons, List.foldl_nil, posF_vec]
  rfl

/-- one row of `dp` -/
theorem addRowL_of (hX : X.size = 6 * N) {l a b : ℤ} {g w : F.T}
    (ha : 0 ≤ a ∧ a < N) (hb : 0 ≤ b ∧ b < N) (h0 : 0 ≤ dp + 3 * l) (h1 : dp + 3 * l + 3 ≤ Y.size) :
    ∃ Y', addRowL c X dp l a b g w Y = some Y' ∧ Y'.size = Y.size ∧
      (∀ s, 0 ≤ s → s < 3 → Y'.cell (dp + (3 * l + s)) =
        Y.cell (dp + (3 * l + s)) + termL c g w (X.cell (3 * a + s)) (X.cell (3 * b + s))) ∧
      ∀ k, k < dp + 3 * l ∨ dp + 3 * l + 3 ≤ k → Y'.cell k = Y.cell k := by
  unfold addRowL
  rw [forUp_three]
  simp only [Buf.rd_in (b := X) (i := 3 * a + 0) (by omega), Buf.rd_in (b := X) (i := 3 * b + 0) (by omega),
    Buf.rd_in (b := X) (i := 3 * a + 1) (by omega), Buf.rd_in (b := X) (i := 3 * b + 1) (by omega),
    Buf.rd_in (b := X) (i := 3 * a + 2) (by omega), Buf.rd_in (b := X) (i := 3 * b + 2) (by omega),
    Option.bind_some]
  rw [Buf.rd_in (by omega), Option.bind_some, Buf.wr_in _ (by omega), Option.bind_some,
    Buf.rd_in (by simp only; omega), Option.bind_some, Buf.wr_in _ (by simp only; omega), Option.bind_some,
    Buf.rd_in (by simp only; omega), Option.bind_some, Buf.wr_in _ (by simp only; omega)]
  refine ⟨_, rfl, rfl, ?_, ?_⟩
  · intro s hs hs'
    interval_cases s <;> simp
  · intro k hk
    simp only
    rw [Function.update_of_ne (by omega), Function.update_of_ne (by omega), Function.update_of_ne (by omega)]

/-- the terms, by number -/
noncomputable def t1 (c : PlanetsFl F N) (X : Buf F.T) (l j : ℕ) (s : ℤ) : F.T :=
  if h : l < N ∧ j < N then termL c (c.G * c.masses ⟨l, h.1⟩ * c.masses ⟨j, h.2⟩) (cubeFl c (vec N X) ⟨l, h.1⟩ ⟨j, h.2⟩)
    (X.cell (3 * l + s)) (X.cell (3 * j + s)) else 0

noncomputable def t2 (c : PlanetsFl F N) (X : Buf F.T) (l j : ℕ) (s : ℤ) : F.T :=
  if h : l < N ∧ j < N then termL c (negG c * c.masses ⟨j, h.2⟩ * c.masses ⟨l, h.1⟩) (cubeFl c (vec N X) ⟨j, h.2⟩ ⟨l, h.1⟩)
    (X.cell (3 * j + s)) (X.cell (3 * l + s)) else 0

theorem t1_eq (l j : Fin N) (s : Fin 3) : t1 c X l j (s : ℕ) = term1Fl c (vec N X) l j s := by
  unfold t1 term1Fl
  rw [dif_pos ⟨l.2, j.2⟩, posF_vec, posF_vec]
  rfl

theorem t2_eq (l j : Fin N) (s : Fin 3) : t2 c X l j (s : ℕ) = term2Fl c (vec N X) l j s := by
  unfold t2 term2Fl
  rw [dif_pos ⟨l.2, j.2⟩, posF_vec, posF_vec]
  rfl

theorem pair1_of (hX : X.size = 6 * N) (h0 : 0 ≤ dp) : Pair N dp (fun l j Y => pair1 c X dp l j Y) (t1 c X) := by
  intro l j Y hl hj hY
  dsimp only
  unfold pair1
  rw [mass_rd (by omega), Option.bind_some, mass_rd (by omega), Option.bind_some]
  have e := diff2L_of (c := c) hX ⟨l, hl⟩ ⟨j, hj⟩
  simp only at e
  rw [e, Option.bind_some]
  obtain ⟨Y', a1, a2, a3, a4⟩ := addRowL_of (c := c) (Y := Y) (dp := dp) (l := l) (a := l) (b := j) hX (by omega) (by omega) (by omega) (by omega)
  refine ⟨Y', a1, a2, fun s hs hs' => ?_, a4⟩
  rw [a3 s hs hs', t1, dif_pos ⟨hl, hj⟩]
  rfl

theorem pair2_of (hX : X.size = 6 * N) (h0 : 0 ≤ dp) : Pair N dp (fun l j Y => pair2 c X dp l j Y) (t2 c X) := by
  intro l j Y hl hj hY
  dsimp only
  unfold pair2
  rw [mass_rd (by omega), Option.bind_some, mass_rd (by omega), Option.bind_some]
  have e := diff2L_of (c := c) hX ⟨j, hj⟩ ⟨l, hl⟩
  simp only at e
  rw [e, Option.bind_some]
  obtain ⟨Y', a1, a2, a3, a4⟩ := addRowL_of (c := c) (Y := Y) (dp := dp) (l := l) (a := j) (b := l) hX (by omega) (by omega) (by omega) (by omega)
  refine ⟨Y', a1, a2, fun s hs hs' => ?_, a4⟩
  rw [a3 s hs hs', t2, dif_pos ⟨hl, hj⟩]
  rfl

theorem addUp_fin (t : ℕ → F.T) (p : ℕ → Bool) (d : F.T) :
    ((List.finRange N).filter (fun j : Fin N => p (j : ℕ))).foldl (fun d (j : Fin N) => d + t (j : ℕ)) d = addUp t ((List.range N).filter p) d := by
  unfold addUp
  rw [← List.map_coe_finRange_eq_range, List.filter_map, List.foldl_map]
  rfl

theorem range_filter {l : ℕ} (h : l ≤ N) : (List.range N).filter (fun j => j < l) = List.range l := by
  obtain ⟨m, rfl⟩ := Nat.exists_eq_add_of_le h
  rw [List.range_add, List.filter_append, List.filter_eq_self.2, List.filter_eq_nil_iff.2, List.append_nil]
  · intro a ha
    obtain ⟨b, -, rfl⟩ := List.mem_map.1 ha
    simp
  · intro a ha
    simpa using ha

/-- the loops compute `dpdtFl` -/
theorem dpdt_fold (l : Fin N) (s : Fin 3) :
    addUp (fun j => t2 c X l j (s : ℕ)) ((List.range N).filter (fun j => (l : ℕ) < j))
      (addUp (fun j => t1 c X l j (s : ℕ)) (List.range l) 0) = dpdtFl c (vec N X) l s := by
  unfold dpdtFl
  rw [← range_filter l.2.le, ← addUp_fin, ← addUp_fin]
  simp only [t1_eq, t2_eq, Fin.lt_def]

theorem zeroL_of (h0 : 0 ≤ dp) (h1 : dp + 18 * N ≤ Y.size) :
    ∃ Y', zeroL N dp Y = some Y' ∧ Y'.size = Y.size ∧ (∀ k, dp ≤ k → k < dp + 18 * N → Y'.cell k = 0) ∧
      ∀ k, k < dp ∨ dp + 18 * N ≤ k → Y'.cell k = Y.cell k := by
  obtain ⟨Y', h2, h3⟩ := forUp_inv (lo := 0) (hi := 3 * (6 * (N : ℤ)) - 1) (s := Y)
    (body := fun i Y => Y.wr (dp + i) 0)
    (fun i Y' => Y'.size = Y.size ∧ (∀ k, dp ≤ k → k < dp + i → Y'.cell k = 0) ∧
      ∀ k, k < dp ∨ dp + i ≤ k → Y'.cell k = Y.cell k)
    (by omega) ⟨rfl, fun k _ _ => by omega, fun _ _ => rfl⟩ (by
      intro i Y1 hi hi' ⟨p1, p2, p3⟩
      refine ⟨_, Buf.wr_in _ (by omega), p1, fun k hk hk' => ?_, fun k hk => ?_⟩
      · by_cases e : k = dp + i
        · subst e; simp
        · simp only
          rw [Function.update_of_ne e]
          exact p2 k hk (by omega)
      · simp only
        rw [Function.update_of_ne (by omega)]
        exact p3 k (by omega))
  refine ⟨Y', h2, h3.1, fun k hk hk' => h3.2.1 k hk (by omega), fun k hk => h3.2.2 k (by omega)⟩

theorem dqdtL_of (hX : X.size = 6 * N) {off : ℤ} (h0 : 0 ≤ off) (h1 : off + 3 * N ≤ Y.size) :
    ∃ Y', dqdtL c X off Y = some Y' ∧ Y'.size = Y.size ∧
      (∀ (l : Fin N) (s : Fin 3), Y'.cell (off + (3 * (l : ℕ) + (s : ℕ))) = dqdtFl c (vec N X) l s) ∧
      ∀ k, k < off ∨ off + 3 * N ≤ k → Y'.cell k = Y.cell k := by
  obtain ⟨Y', h2, h3⟩ := forUp_nat (s := N) (st := Y)
    (body := fun i Y => ((massBuf c).rd i).bind fun mi =>
      forUp 0 2 (fun j Y => (X.rd (3 * N + (3 * i + j))).bind fun p => Y.wr (off + (3 * i + j)) (quotL c p mi)) Y)
    (fun i Y' => Y'.size = Y.size ∧
      (∀ (l : Fin N) (s : ℤ), (l : ℕ) < i → 0 ≤ s → s < 3 → Y'.cell (off + (3 * (l : ℕ) + s)) =
        quotL c (X.cell (3 * N + (3 * (l : ℕ) + s))) (c.masses l)) ∧
      ∀ k, k < off ∨ off + 3 * N ≤ k → Y'.cell k = Y.cell k)
    ⟨rfl, fun l s hl => by omega, fun _ _ => rfl⟩ (by
      intro i Y1 hi ⟨p1, p2, p3⟩
      rw [mass_rd (by omega), Option.bind_some, forUp_three]
      rw [Buf.rd_in (by omega), Option.bind_some, Buf.wr_in _ (by omega), Option.bind_some,
        Buf.rd_in (by omega), Option.bind_some, Buf.wr_in _ (by simp only; omega), Option.bind_some,
        Buf.rd_in (by omega), Option.bind_some, Buf.wr_in _ (by simp only; omega)]
      refine ⟨_, rfl, p1, fun l s hl hs hs' => ?_, fun k hk => ?_⟩
      · by_cases e : (l : ℕ) = i
        · subst e
          interval_cases s <;> simp
        · simp only
          rw [Function.update_of_ne (by omega), Function.update_of_ne (by omega),
            Function.update_of_ne (by omega)]
          exact p2 l s (by omega) hs hs'
      · simp only
        rw [Function.update_of_ne (by omega), Function.update_of_ne (by omega),
          Function.update_of_ne (by omega)]
        exact p3 k hk)
  refine ⟨Y', h2, h3.1, fun l s => ?_, h3.2.2⟩
  rw [h3.2.1 l (s : ℕ) l.2 (by omega) (by have := s.2; omega)]
  unfold quotL dqdtFl momF vec
  push_cast
  rfl

/-- C126: **the loops of operator(), rounded**: given 21 elements per body after the result, the result is `planetsFl` and 15 elements per
body behind it are set to zero. -/
theorem rhsL_of (h1 : 1 ≤ N) (hX : X.size = 6 * N) {off : ℤ} (h0 : 0 ≤ off) (hY : off + 21 * N ≤ Y.size) :
    ∃ Y', rhsL c X off Y = some Y' ∧ Y'.size = Y.size ∧
      (∀ k : Fin (6 * N), Y'.cell (off + (k : ℕ)) = planetsFl c (vec N X) k) ∧
      (∀ k, off + 6 * N ≤ k → k < off + 21 * N → Y'.cell k = 0) ∧
      ∀ k, k < off ∨ off + 21 * N ≤ k → Y'.cell k = Y.cell k := by
  obtain ⟨Y1, a1, a2, a3, a4⟩ := dqdtL_of (c := c) (Y := Y) hX h0 (by omega)
  obtain ⟨Y2, b1, b2, b3, b4⟩ := zeroL_of (N := N) (Y := Y1) (dp := off + 3 * N) (by omega) (by omega)
  obtain ⟨Y3, c1, c2⟩ := lower_rows (Y := Y2) (pair1_of (c := c) (dp := off + 3 * N) hX (by omega)) h1 (by omega)
  obtain ⟨Y4, d1, d2⟩ := upper_rows (Y := Y3) (pair2_of (c := c) (dp := off + 3 * N) hX (by omega)) h1 (by rw [c2.size]; omega)
  refine ⟨Y4, ?_, by rw [d2.size, c2.size, b2, a2], fun k => ?_, ?_, ?_⟩
  · rw [rhsL, a1, Option.bind_some, dpdtL, b1, Option.bind_some, lowerL, c1, Option.bind_some, upperL, d1]
  · have hk := k.2
    unfold planetsFl
    split_ifs with h
    · rw [d2.out _ (by omega), c2.out _ (by omega), b4 _ (by omega), ← a3]
      congr 2
      simp only
      omega
    · obtain ⟨q, hq⟩ : ∃ q : ℕ, q = k - 3 * N := ⟨_, rfl⟩
      have e : off + ((k : ℕ) : ℤ) = off + 3 * N + (3 * ((q / 3 : ℕ) : ℤ) + ((q % 3 : ℕ) : ℤ)) := by omega
      rw [e, d2.row _ _ (by omega) (by omega) (by omega), c2.row _ _ (by omega) (by omega) (by omega), b3 _ (by omega) (by omega)]
      subst hq
      exact dpdt_fold (c := c) (X := X) ⟨(k - 3 * N) / 3, by omega⟩ ⟨(k - 3 * N) % 3, by omega⟩
  · intro k hk hk'
    rw [d2.out _ (by omega), c2.out _ (by omega), b3 _ (by omega) (by omega)]
  · intro k hk
    rw [d2.out _ (by omega), c2.out _ (by omega), b4 _ (by omega), a4 _ (by omega)]

/-- two loops side by side -/
theorem forUp_sim {σ τ : Type} {f : ℤ → σ → Option σ} {g : ℤ → τ → Option τ} (R : ℕ → σ → τ → Prop) (s : ℕ) {a : σ} {b : τ} (h0 : R 0 a b)
    (hstep : ∀ j a b, j < s → R j a b → ∃ a' b', f (j : ℤ) a = some a' ∧ g (j : ℤ) b = some b' ∧ R (j + 1) a' b') :
    ∃ a' b', forUp 0 ((s : ℤ) - 1) f a = some a' ∧ forUp 0 ((s : ℤ) - 1) g b = some b' ∧ R s a' b' := by
  unfold forUp
  rw [show ((s : ℤ) - 1 + 1 - 0).toNat = s by omega]
  suffices ∀ (k j : ℕ) (a : σ) (b : τ), j + k = s → R j a b →
      ∃ a' b', loopUp f k (j : ℤ) a = some a' ∧ loopUp g k (j : ℤ) b = some b' ∧ R s a' b' from this s 0 a b (by omega) h0
  intro k
  induction k with
  | zero => intro j a b hj hR; exact ⟨a, b, rfl, rfl, by rwa [← show j = s by omega]⟩
  | succ k ih =>
    intro j a b hj hR
    obtain ⟨a1, b1, e1, e2, hR1⟩ := hstep j a b (by omega) hR
    obtain ⟨a2, b2, e3, e4, hR2⟩ := ih (j + 1) a1 b1 (by omega) hR1
    refine ⟨a2, b2, ?_, ?_, hR2⟩
    · rw [loopUp, e1, Option.bind_some]; exact_mod_cast e3
    · rw [loopUp, e2, Option.bind_some]; exact_mod_cast e4

/-- the members `v, Y, Y1, delta, e, a` of SymplecticRK in one block of memory, `6*N` components, `s` stages -/
structure Rep (N s : ℕ) (mem : Buf F.T) (st : St F.T (6 * N)) : Prop where
  size : mem.size = 6 * N * (2 * s + 4)
  sizeY : st.Y.size = (6 * N : ℕ) * s
  sizeY1 : st.Y1.size = (6 * N : ℕ) * s
  v : ∀ k : Fin (6 * N), mem.cell (k : ℕ) = st.v k
  Y : ∀ i, i < s → ∀ k : Fin (6 * N), mem.cell (6 * N * (i + 1) + (k : ℕ)) = row st.Y i k
  Y1 : ∀ i, i < s → ∀ k : Fin (6 * N), mem.cell (6 * N * (s + 1 + i) + (k : ℕ)) = row st.Y1 i k
  delta : ∀ k : Fin (6 * N), mem.cell (6 * N * (2 * s + 1) + (k : ℕ)) = st.delta k
  e : ∀ k : Fin (6 * N), mem.cell (6 * N * (2 * s + 2) + (k : ℕ)) = st.e k
  a : ∀ k : Fin (6 * N), mem.cell (6 * N * (2 * s + 3) + (k : ℕ)) = st.a k

/-- what is left in `a`: the first half is set to zero -/
noncomputable def halfA (N : ℕ) (st : St F.T (6 * N)) (k : Fin (6 * N)) : F.T := if (k : ℕ) < 3 * N then 0 else st.a k

/-- C126: **one iteration in memory**: the evaluations with the loops of Outer.hpp on the block of memory are those of `evalsZ` -/
theorem evalsL_evalsZ (h1 : 1 ≤ N) {cf : Cfg F.T (6 * N)} {s : ℕ} (ecf : cf.s = s) (hs : 1 ≤ s) (hf : cf.f = planetsFl c) {mem : Buf F.T}
    {st : St F.T (6 * N)} (hR : Rep N s mem st) :
    ∃ mem' st', evalsL c s mem = some mem' ∧ evalsZ cf (halfA N) st = some st' ∧ Rep N s mem' st' := by
  have hnb : (1 : ℤ) ≤ N := by exact_mod_cast h1
  obtain ⟨B, hB⟩ : ∃ B : ℤ, B = 6 * N := ⟨_, rfl⟩
  have hB1 : 6 ≤ B := by omega
  obtain ⟨mem', st', a1, a2, a3, a4, a5, a6, a7, a8, a9, a10, a11⟩ := forUp_sim (s := s) (a := mem) (b := st)
    (f := fun i mem =>
      (forUp 0 (6 * N - 1) (fun j mem => (mem.rd (6 * N + (i * (6 * N) + j))).bind fun y => mem.wr j y) mem).bind fun mem =>
      rhsL c ⟨6 * N, mem.cell⟩ (6 * N + s * (6 * N) + i * (6 * N)) mem)
    (g := fun i st => (rdN (n := 6 * N) st.Y (i * (6 * N : ℕ))).bind fun v =>
      (wrN st.Y1 (i * (6 * N : ℕ)) (cf.f v)).map fun Y1 => { st with v := v, Y1 := Y1, calls := st.calls + 1 })
    (fun i m st' => m.size = mem.size ∧ st'.Y = st.Y ∧ st'.a = st.a ∧ st'.Y1.size = ((6 * N : ℕ) : ℤ) * s ∧
      (∀ k, B ≤ k → k < B * (s + 1) → m.cell k = mem.cell k) ∧
      (∀ j, j < i → ∀ k : Fin (6 * N), m.cell (B * (s + 1 + j) + (k : ℕ)) = row st'.Y1 j k) ∧
      (1 ≤ i → ∀ k : Fin (6 * N), m.cell (k : ℕ) = st'.v k) ∧
      (1 ≤ i → ∀ k, B * (s + 1 + i) ≤ k → k < B * (s + 1 + i) + 15 * N → m.cell k = 0) ∧
      (∀ k, B * (s + 1 + i) + 15 * N ≤ k → m.cell k = mem.cell k))
    ⟨rfl, rfl, rfl, hR.sizeY1, fun _ _ _ => rfl, fun j hj => by omega, fun hi => by omega, fun hi => by omega, fun _ _ => rfl⟩ (by
      intro i m1 st1 hi ⟨p1, pY, pa, pY1, p2, p3, _, p4, p5⟩
      have q1 : B * (i + 1) ≤ B * s := mul_le_mul_of_nonneg_left (by omega) (by omega)
      have q2 : 0 ≤ B * (i : ℤ) := by positivity
      have q3 : m1.size = 2 * (B * s) + 4 * B := by rw [p1, hR.size, hB]; ring
      -- the copy
      obtain ⟨m2, b1, b2, b3, b4⟩ := forUp_nat (s := 6 * N) (st := m1)
        (body := fun j mem => (mem.rd (6 * N + ((i : ℤ) * (6 * N) + j))).bind fun y => mem.wr j y)
        (fun j m2 => m2.size = m1.size ∧
          (∀ k : ℤ, 0 ≤ k → k < j → m2.cell k = m1.cell (B * (i + 1) + k)) ∧
          ∀ k : ℤ, (k < 0 ∨ (j : ℤ) ≤ k) → m2.cell k = m1.cell k)
        ⟨rfl, fun k _ _ => by omega, fun _ _ => rfl⟩ (by
          intro j m2 hj ⟨r1, r2, r3⟩
          have e : 6 * (N : ℤ) + ((i : ℤ) * (6 * N) + j) = B * i + B + j := by rw [hB]; ring
          rw [mul_add_one] at q1
          rw [e, Buf.rd_in (by omega), Option.bind_some, Buf.wr_in _ (by omega)]
          refine ⟨_, rfl, r1, fun k hk hk' => ?_, fun k hk => ?_⟩
          · simp only
            by_cases e' : k = j
            · subst e'
              rw [Function.update_self, r3 _ (by omega), mul_add_one]
            · rw [Function.update_of_ne e']
              exact r2 k hk (by omega)
          · simp only
            rw [Function.update_of_ne (by omega)]
            exact r3 k (by omega))
      push_cast at b1
      rw [b1, Option.bind_some]
      have eo : 6 * (N : ℤ) + s * (6 * N) + i * (6 * N) = B * (s + 1 + i) := by rw [hB]; ring
      rw [eo]
      have q4 : B * (s + 1 + i) = B * s + B + B * i := by ring
      have q9 : B * (s + 1 + ((i + 1 : ℕ) : ℤ)) = B * (s + 1 + i) + B := by push_cast; ring
      rw [mul_add_one] at q1
      obtain ⟨m3, c1, c2, c3, c4, c5⟩ := rhsL_of (c := c) (X := ⟨6 * N, m2.cell⟩) (Y := m2) h1 rfl (off := B * (s + 1 + i))
        (by positivity) (by omega)
      rw [pY, rdN_in hR.sizeY hi, Option.bind_some, wrN_in pY1 hi]
      have hv : vec N (⟨6 * N, m2.cell⟩ : Buf F.T) = row st.Y i := by
        funext k
        have := k.2
        show m2.cell (k : ℕ) = _
        rw [b3 _ (by omega) (by omega), p2 _ (by rw [mul_add_one]; omega) (by rw [mul_add_one, mul_add_one]; omega), ← hR.Y i hi k, hB]
      refine ⟨m3, _, c1, rfl, by omega, rfl, pa, pY1, fun k hk hk' => ?_, fun j hj k => ?_, fun _ k => ?_, fun _ k hk hk' => ?_, fun k hk => ?_⟩
      · rw [mul_add_one] at hk'
        rw [c5 k (Or.inl (by omega)), b4 k (Or.inr (by push_cast; omega)), p2 k hk (by rw [mul_add_one]; omega)]
      · simp only
        rw [row_setRow]
        by_cases e' : j = i
        · subst e'
          rw [c3 k, if_pos rfl, hv, hf]
        · have q5 : B * (j + 1) ≤ B * i := mul_le_mul_of_nonneg_left (by omega) (by omega)
          have q6 : 0 ≤ B * (j : ℤ) := by positivity
          have q7 : 0 ≤ B * (s : ℤ) := by positivity
          have q8 : B * (s + 1 + j) = B * s + B + B * (j : ℤ) := by ring
          have := k.2
          rw [mul_add_one] at q5
          rw [if_neg e', c5 _ (Or.inl (by omega)), b4 _ (Or.inr (by push_cast; omega)), p3 j (by omega) k]
      · have := k.2
        rw [c5 _ (Or.inl (by omega))]
        exact congrFun hv k
      · exact c4 k (by omega) (by omega)
      · rw [c5 k (Or.inr (by omega)), b4 k (Or.inr (by push_cast; omega)), p5 k (by omega)])
  have eB : B * (s + 1 + s) = 6 * N * (2 * s + 1) := by rw [hB]; ring
  have eB2 : 6 * (N : ℤ) * (2 * s + 2) = 6 * N * (2 * s + 1) + 6 * N := by ring
  have eB3 : 6 * (N : ℤ) * (2 * s + 3) = 6 * N * (2 * s + 1) + 12 * N := by ring
  refine ⟨mem', { st' with delta := fun _ => 0, e := fun _ => 0, a := halfA N st' }, a1, ?_, ?_⟩
  · unfold evalsZ Symp.evals
    rw [ecf, a2, Option.map_some]
  · refine ⟨a3.trans hR.size, by rw [a4]; exact hR.sizeY, a6, a9 hs, fun i hi k => ?_, fun i hi k => ?_, fun k => ?_, fun k => ?_, fun k => ?_⟩
    · have := k.2
      have q1 : B * (i + 1) ≤ B * s := mul_le_mul_of_nonneg_left (by omega) (by omega)
      have q2 : 0 ≤ B * (i : ℤ) := by positivity
      have q3 : 6 * (N : ℤ) * (i + 1) = B * i + B := by rw [hB]; ring
      rw [mul_add_one] at q1
      have q4 : B * ((s : ℤ) + 1) = B * s + B := by ring
      rw [a7 _ (by omega) (by omega), hR.Y i hi k]
      show _ = row st'.Y i k
      rw [a4]
    · rw [← hB]
      exact a8 i hi k
    · have := k.2
      exact a10 hs _ (by omega) (by omega)
    · have := k.2
      exact a10 hs _ (by omega) (by omega)
    · have := k.2
      show _ = halfA N st' k
      unfold halfA
      split_ifs with h
      · exact a10 hs _ (by omega) (by omega)
      · rw [a11 _ (by omega), hR.a k, a5]

/-- every block of memory of the right size holds a state: here for the six bodies and eight stages of test/main.cc. -/
example (mem : Buf F.T) (h : mem.size = 6 * (6 : ℕ) * (2 * (8 : ℕ) + 4)) (ga gb q : Buf F.T) (x : F.T) : ∃ st, Rep 6 8 mem st := by
  refine ⟨⟨fun k => mem.cell (k : ℕ), ⟨288, fun k => mem.cell (36 + k)⟩, ⟨288, fun k => mem.cell (324 + k)⟩, fun k => mem.cell (612 + (k : ℕ)),
    fun k => mem.cell (648 + (k : ℕ)), fun k => mem.cell (684 + (k : ℕ)), 0, x, ga, gb, q, x, x, 0⟩, h, by norm_num, by norm_num, fun _ => rfl,
    fun i hi k => ?_, fun i hi k => ?_, fun k => by norm_num, fun k => by norm_num, fun k => by norm_num⟩
  · show mem.cell _ = mem.cell _
    congr 1; push_cast; ring
  · show mem.cell _ = mem.cell _
    congr 1; push_cast; ring

end Odes.Symp.Test
