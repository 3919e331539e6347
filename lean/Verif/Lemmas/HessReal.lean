import Verif.Model.Hessenberg
import Verif.Lemmas.HessElim
import Mathlib.Algebra.Order.Ring.Abs

/-! `dech` and `solh` refine the abstract elimination. -/

namespace Odes.Hess

open Odes.Mem

variable {K σ : Type}

theorem forUp_single {body : ℤ → σ → Option σ} (a : ℤ) (s : σ) : forUp a a body s = body a s := by
  unfold forUp
  rw [show (a + 1 - a).toNat = 1 by omega]
  simp only [loopUp]
  cases body a s <;> rfl

theorem get_in {n : ℤ} {A : ℤ → ℤ → K} {i j : ℤ} (h : (1 ≤ i ∧ i ≤ n) ∧ 1 ≤ j ∧ j ≤ n) :
    get n A i j = some (A i j) := by unfold get; rw [if_pos h]

theorem set_in {n : ℤ} {A : ℤ → ℤ → K} {i j : ℤ} (v : K) (h : (1 ≤ i ∧ i ≤ n) ∧ 1 ≤ j ∧ j ≤ n) :
    set n A i j v = some fun i' j' => if i' = i ∧ j' = j then v else A i' j' := by
  unfold set; rw [if_pos h]

theorem vget_in {n : ℤ} {B : ℤ → K} {i : ℤ} (h : 1 ≤ i ∧ i ≤ n) : vget n B i = some (B i) := by
  unfold vget; rw [if_pos h]

theorem vset_in {n : ℤ} {B : ℤ → K} {i : ℤ} (v : K) (h : 1 ≤ i ∧ i ≤ n) :
    vset n B i v = some (Function.update B i v) := by unfold vset; rw [if_pos h]

theorem iget_in {n : ℤ} {ip : ℤ → ℤ} {k : ℤ} (h : 0 ≤ k ∧ k < n) : iget n ip k = some (ip k) := by
  unfold iget; rw [if_pos h]

theorem iset_in {n : ℤ} {ip : ℤ → ℤ} {k : ℤ} (m : ℤ) (h : 0 ≤ k ∧ k < n) :
    iset n ip k m = some (Function.update ip k m) := by unfold iset; rw [if_pos h]

/-- rule for loops with `break`. -/
theorem forBrk_inv {body : ℤ → σ → Option (Bool × σ)} (P : ℤ → σ → Prop) (Q : σ → Prop) {lo hi : ℤ}
    {s : σ} (hlo : lo ≤ hi + 1) (h0 : P lo s)
    (hstep : ∀ j s, lo ≤ j → j ≤ hi → P j s →
      ∃ s', (body j s = some (false, s') ∧ P (j + 1) s') ∨ (body j s = some (true, s') ∧ Q s')) :
    ∃ s', forBrk lo hi body s = some s' ∧ (P (hi + 1) s' ∨ Q s') := by
  obtain ⟨d, hd⟩ : ∃ d : ℕ, (hi + 1 - lo).toNat = d := ⟨_, rfl⟩
  unfold forBrk
  rw [hd]
  induction d generalizing lo s with
  | zero =>
    refine ⟨s, rfl, .inl ?_⟩
    rwa [show hi + 1 = lo by omega]
  | succ d ih =>
    obtain ⟨s', ⟨h1, h2⟩ | ⟨h1, h2⟩⟩ := hstep lo s le_rfl (by omega) h0
    · obtain ⟨s'', g1, g2⟩ := ih (lo := lo + 1) (s := s') (by omega) h2
        (fun j s a b => hstep j s (by omega) b) (by omega)
      exact ⟨s'', by rw [loopBrk, h1, Option.bind_some]; simpa using g1, g2⟩
    · exact ⟨s', by rw [loopBrk, h1, Option.bind_some]; rfl, .inr h2⟩

section gen

variable [Zero K] [One K] [Add K] [Neg K] [Mul K] [Div K] [LE K] [LT K]
  [DecidableEq K] [DecidableLE K] [DecidableLT K]

/-- pivot row chosen in column `k`. -/
def pivot (A : ℤ → ℤ → K) (k : ℤ) : ℤ := if ABS (A (k + 1) k) > ABS (A k k) then k + 1 else k

omit [One K] [Add K] [Mul K] [Div K] [DecidableEq K] in
theorem pivot_or (A : ℤ → ℤ → K) (k : ℤ) : pivot A k = k ∨ pivot A k = k + 1 := by
  unfold pivot; split_ifs <;> simp

/-- pivots after step `k`. -/
def ipAfter (n k m : ℤ) (ip : ℤ → ℤ) : ℤ → ℤ :=
  if m = k then Function.update ip (k - 1) m else
    Function.update (Function.update ip (k - 1) m) (n - 1)
      (-(Function.update ip (k - 1) m (n - 1)))

theorem ipAfter_at {n k m : ℤ} (hkn : k < n) (ip : ℤ → ℤ) : ipAfter n k m ip (k - 1) = m := by
  unfold ipAfter
  split_ifs
  · rw [Function.update_self]
  · rw [Function.update_of_ne (by omega), Function.update_self]

theorem ipAfter_before {n k m : ℤ} (hkn : k < n) (ip : ℤ → ℤ) (j : ℤ) (hj : j < k - 1) :
    ipAfter n k m ip j = ip j := by
  unfold ipAfter
  split_ifs
  · rw [Function.update_of_ne (by omega)]
  · rw [Function.update_of_ne (by omega), Function.update_of_ne (by omega)]

/-- closed form of one iteration. -/
theorem dechBody_spec {n k : ℤ} (hz : ∀ a c : K, a + c * 0 = a) (hk : 1 ≤ k) (hkn : k < n)
    (s : St K) :
    (s.A (pivot s.A k) k = 0 → ∃ s', dechBody n k s = some (true, s') ∧ s'.ret = k) ∧
    (s.A (pivot s.A k) k ≠ 0 → ∃ A', dechBody n k s =
      some (false, ⟨A', ipAfter n k (pivot s.A k) s.ip, s.ret⟩) ∧
      ∀ i j, A' i j = elim n k (pivot s.A k) s.A i j) := by
  have hna : min n (1 + k) = k + 1 := by omega
  have hp : (forUp (k + 1) (k + 1) (fun i m => (get n s.A i k).bind fun a =>
      (get n s.A m k).bind fun b => some (if ABS a > ABS b then i else m)) k) =
      some (pivot s.A k) := by
    rw [forUp_single, get_in ⟨⟨by omega, by omega⟩, by omega, by omega⟩, Option.bind_some,
      get_in ⟨⟨by omega, by omega⟩, by omega, by omega⟩, Option.bind_some]
    rfl
  have hm := pivot_or s.A k
  generalize hpm : pivot s.A k = m at hp hm
  have hswap : (if m ≠ k then
      (iget n (Function.update s.ip (k - 1) m) (n - 1)).bind fun q =>
      (iset n (Function.update s.ip (k - 1) m) (n - 1) (-q)).bind fun ip =>
      (get n s.A k k).bind fun a => (set n s.A m k a).bind fun A =>
      (set n A k k (s.A m k)).bind fun A => some (A, ip)
      else some (s.A, Function.update s.ip (k - 1) m)) =
      some ((fun i j => if j = k then if i = k then s.A m k else if i = k + 1 then
        s.A (2 * k + 1 - m) k else s.A i k else s.A i j), ipAfter n k m s.ip) := by
    by_cases e : m = k
    · rw [if_neg (by simpa using e), ipAfter, if_pos e]
      congr 2
      funext i j
      subst e
      split_ifs with h1 h2 h3
      · rw [h1, h2]
      · rw [h1, h3]; congr 1; ring_nf
      · rw [h1]
      · rfl
    · rw [if_pos e, iget_in ⟨by omega, by omega⟩, Option.bind_some, iset_in _ ⟨by omega, by omega⟩,
        Option.bind_some, get_in ⟨⟨by omega, by omega⟩, by omega, by omega⟩, Option.bind_some,
        set_in _ ⟨⟨by omega, by omega⟩, by omega, by omega⟩, Option.bind_some,
        set_in _ ⟨⟨by omega, by omega⟩, by omega, by omega⟩, Option.bind_some, ipAfter, if_neg e]
      congr 2
      have e' : m = k + 1 := by omega
      subst e'
      funext i j
      by_cases h1 : j = k
      · subst h1
        by_cases h2 : i = j
        · simp [h2]
        · by_cases h3 : i = j + 1
          · simp only [h3]; simp
            congr 1; ring_nf
          · simp [h2, h3]
      · simp [h1]
  unfold dechBody
  simp only [hna]
  rw [hp, Option.bind_some, iset_in _ ⟨by omega, by omega⟩, Option.bind_some,
    get_in ⟨⟨by omega, by omega⟩, by omega, by omega⟩, Option.bind_some]
  simp only [hswap, Option.bind_some]
  constructor
  · intro h0
    rw [if_pos h0]
    exact ⟨_, rfl, rfl⟩
  · intro h0
    rw [if_neg h0, forUp_single, get_in ⟨⟨by omega, by omega⟩, by omega, by omega⟩,
      Option.bind_some, set_in _ ⟨⟨by omega, by omega⟩, by omega, by omega⟩, Option.bind_some]
    beta_reduce
    generalize hA1 : (fun i' j' => if i' = k + 1 ∧ j' = k then
      (if k = k then if k + 1 = k then s.A m k else if k + 1 = k + 1 then s.A (2 * k + 1 - m) k
        else s.A (k + 1) k else s.A (k + 1) k) * (-1 / s.A m k) else
      if j' = k then if i' = k then s.A m k else if i' = k + 1 then s.A (2 * k + 1 - m) k
        else s.A i' k else s.A i' j') = A1
    simp only [forUp_single]
    have c1 : ∀ i j, j ≠ k → A1 i j = s.A i j := by
      intro i j hj; rw [← hA1]; simp [hj]
    have c2 : ∀ i, A1 i k = if i = k then s.A m k else if i = k + 1 then
        s.A (2 * k + 1 - m) k * (-1 / s.A m k) else s.A i k := by
      intro i; rw [← hA1]
      by_cases h1 : i = k + 1
      · simp [h1]
      · simp [h1]
    obtain ⟨A', g1, g2⟩ := forUp_inv
      (P := fun j (A : ℤ → ℤ → K) => ∀ i' j', A i' j' =
        if k < j' ∧ j' < j then rho k m (A1 (k + 1) k) (fun i => A1 i j') i' else A1 i' j')
      (body := fun j A =>
        (get n A m j).bind fun t => (get n A k j).bind fun a => (set n A m j a).bind fun A =>
        (set n A k j t).bind fun A =>
        if t ≠ 0 then
          (get n A (k + 1) j).bind fun u => (get n A (k + 1) k).bind fun v =>
            set n A (k + 1) j (u + v * t)
        else some A) (lo := k + 1) (hi := n) (s := A1) (by omega)
      (by intro i' j'; rw [if_neg (by omega)]) (by
        intro j A hj hj' hA
        rw [get_in ⟨⟨by omega, by omega⟩, by omega, by omega⟩, Option.bind_some,
          get_in ⟨⟨by omega, by omega⟩, by omega, by omega⟩, Option.bind_some,
          set_in _ ⟨⟨by omega, by omega⟩, by omega, by omega⟩, Option.bind_some,
          set_in _ ⟨⟨by omega, by omega⟩, by omega, by omega⟩, Option.bind_some]
        have a1 : ∀ i, A i j = A1 i j := by intro i; rw [hA, if_neg (by omega)]
        have a2 : ∀ i, A i k = A1 i k := by intro i; rw [hA, if_neg (by omega)]
        have fin : ∀ A2 : ℤ → ℤ → K, (∀ i, A2 i j = rho k m (A1 (k + 1) k) (fun i => A1 i j) i) →
            (∀ i j', j' ≠ j → A2 i j' = A i j') → ∀ i' j', A2 i' j' =
            if k < j' ∧ j' < j + 1 then rho k m (A1 (k + 1) k) (fun i => A1 i j') i'
              else A1 i' j' := by
          intro A2 q1 q2 i' j'
          by_cases e : j' = j
          · subst e; rw [q1, if_pos (by omega)]
          · rw [q2 _ _ e, hA]
            by_cases e2 : k < j' ∧ j' < j
            · rw [if_pos e2, if_pos (by omega)]
            · rw [if_neg e2, if_neg (by omega)]
        by_cases ht : A m j = 0
        · rw [if_neg (by simpa using ht)]
          refine ⟨_, rfl, fin _ ?_ ?_⟩
          · intro i
            have ht' : A1 m j = 0 := by rw [← a1, ht]
            unfold rho
            rcases hm with e | e
            · subst e
              by_cases h1 : i = m
              · subst h1; simp [a1]
              · by_cases h2 : i = m + 1
                · subst h2; simp [a1, ht', hz]; congr 1; ring_nf
                · simp [h1, h2, a1]
            · subst e
              by_cases h1 : i = k
              · subst h1; simp [a1]
              · by_cases h2 : i = k + 1
                · subst h2; simp [a1, ht', hz]; congr 1; ring_nf
                · simp [h1, h2, a1]
          · intro i j' hj'; simp [hj']
        · rw [if_pos ht, get_in ⟨⟨by omega, by omega⟩, by omega, by omega⟩, Option.bind_some,
            get_in ⟨⟨by omega, by omega⟩, by omega, by omega⟩, Option.bind_some,
            set_in _ ⟨⟨by omega, by omega⟩, by omega, by omega⟩]
          have hkj : k ≠ j := by omega
          refine ⟨_, rfl, fin _ ?_ ?_⟩
          · intro i
            unfold rho
            rcases hm with e | e
            · subst e
              by_cases h1 : i = m
              · subst h1; simp [a1]
              · by_cases h2 : i = m + 1
                · subst h2; simp [a1, a2, hkj]; congr 1; ring_nf
                · simp [h1, h2, a1]
            · subst e
              by_cases h1 : i = k
              · subst h1; simp [a1]
              · by_cases h2 : i = k + 1
                · subst h2; simp [a1, a2, hkj]; congr 1; ring_nf
                · simp [h1, h2, a1]
          · intro i j' hj'; simp [hj'])
    rw [g1, Option.bind_some]
    refine ⟨A', rfl, ?_⟩
    intro i j
    rw [g2]
    unfold elim
    by_cases h1 : j = k
    · subst h1
      rw [if_neg (by omega), if_pos rfl, c2]
    · rw [if_neg h1]
      by_cases h2 : k < j ∧ j ≤ n
      · rw [if_pos (by omega), if_pos h2]
        have : A1 (k + 1) k = s.A (2 * k + 1 - m) k * (-1 / s.A m k) := by
          rw [c2, if_neg (by omega), if_pos rfl]
        rw [this]
        congr 1
        funext i; exact c1 i j h1
      · rw [if_neg (by omega), if_neg h2]; exact c1 i j h1

/-- the matrices before the steps `1..k` of `dech`. -/
def Chain (n k : ℤ) (A0 A : ℤ → ℤ → K) (ip : ℤ → ℤ) : Prop :=
  ∃ Q : ℤ → ℤ → ℤ → K, Q 1 = A0 ∧ Q k = A ∧ ∀ j, 1 ≤ j → j < k →
    Q j (pivot (Q j) j) j ≠ 0 ∧ ip (j - 1) = pivot (Q j) j ∧ Q (j + 1) = elim n j (pivot (Q j) j) (Q j)

/-- `dech` is never undefined; when it returns 0 it has done `n-1` eliminations, otherwise it has met
a pivot which is 0. -/
theorem dech_chain (hz : ∀ a c : K, a + c * 0 = a) {n : ℤ} (hn : 1 ≤ n) (A : ℤ → ℤ → K)
    (ip : ℤ → ℤ) :
    ∃ s, dech n A ip = some s ∧ (s.ret = 0 → Chain n n A s.A s.ip ∧ s.A n n ≠ 0) ∧
      (s.ret ≠ 0 → ∃ k A' ip', 1 ≤ k ∧ k ≤ n ∧ Chain n k A A' ip' ∧
        A' (if k = n then n else pivot A' k) k = 0) := by
  unfold dech
  rw [iset_in _ ⟨by omega, by omega⟩, Option.bind_some]
  have hloop : ∃ s, (if n ≠ 1 then forBrk 1 (n - 1) (dechBody n)
      (⟨A, Function.update ip (n - 1) 1, 0⟩ : St K) else
      some ⟨A, Function.update ip (n - 1) 1, 0⟩) = some s ∧
      ((s.ret = 0 ∧ Chain n n A s.A s.ip) ∨ (s.ret ≠ 0 ∧ ∃ k A' ip', 1 ≤ k ∧ k ≤ n ∧
        Chain n k A A' ip' ∧ A' (if k = n then n else pivot A' k) k = 0)) := by
    by_cases h1 : n = 1
    · rw [if_neg (by simpa using h1)]
      refine ⟨_, rfl, .inl ⟨rfl, fun _ => A, rfl, rfl, fun j a b => by omega⟩⟩
    · rw [if_pos h1]
      obtain ⟨s, g1, g2⟩ := forBrk_inv (body := dechBody n)
        (P := fun k s => s.ret = 0 ∧ Chain n k A s.A s.ip)
        (Q := fun s => s.ret ≠ 0 ∧ ∃ k A' ip', 1 ≤ k ∧ k ≤ n ∧
          Chain n k A A' ip' ∧ A' (if k = n then n else pivot A' k) k = 0)
        (lo := 1) (hi := n - 1) (s := ⟨A, Function.update ip (n - 1) 1, 0⟩) (by omega)
        ⟨rfl, fun _ => A, rfl, rfl, fun j a b => by omega⟩ (by
          rintro k s hk hk' ⟨i1, Q, q1, q2, q3⟩
          obtain ⟨b1, b2⟩ := dechBody_spec hz hk (show k < n by omega) s
          by_cases h0 : s.A (pivot s.A k) k = 0
          · obtain ⟨s', c1, c2⟩ := b1 h0
            exact ⟨s', .inr ⟨c1, by omega, k, s.A, s.ip, hk, by omega, ⟨Q, q1, q2, q3⟩,
              by rwa [if_neg (by omega)]⟩⟩
          · obtain ⟨A', c1, c2⟩ := b2 h0
            refine ⟨_, .inl ⟨c1, i1, Function.update Q (k + 1) A', ?_, ?_, ?_⟩⟩
            · rw [Function.update_of_ne (by omega), q1]
            · rw [Function.update_self]
            · intro j hj hjk
              rw [Function.update_of_ne (by omega)]
              by_cases e : j = k
              · subst e
                rw [q2, Function.update_self]
                refine ⟨h0, ipAfter_at (by omega) _, ?_⟩
                funext i j; exact c2 i j
              · obtain ⟨r1, r2, r3⟩ := q3 j hj (by omega)
                refine ⟨r1, ?_, ?_⟩
                · exact (ipAfter_before (by omega) _ _ (by omega)).trans r2
                · rw [Function.update_of_ne (by omega), r3])
      refine ⟨s, g1, ?_⟩
      rwa [show n - 1 + 1 = n by ring] at g2
  obtain ⟨s, g1, g2⟩ := hloop
  rw [g1, Option.bind_some, get_in ⟨⟨by omega, by omega⟩, by omega, by omega⟩, Option.bind_some]
  refine ⟨_, rfl, ?_⟩
  by_cases h0 : s.A n n = 0
  · rw [if_pos h0]
    refine ⟨fun h => by dsimp only at h; omega, fun _ => ?_⟩
    rcases g2 with ⟨-, g2⟩ | g2
    · exact ⟨n, s.A, s.ip, hn, le_rfl, g2, by rwa [if_pos rfl]⟩
    · exact g2.2
  · rw [if_neg h0]
    rcases g2 with ⟨g3, g2⟩ | g2
    · exact ⟨fun _ => ⟨g2, h0⟩, fun h => absurd g3 h⟩
    · exact ⟨fun h => absurd h g2.1, fun _ => g2.2⟩

/-- column `k` of the back substitution. -/
def bstep (A : ℤ → ℤ → K) (k : ℤ) (C : ℤ → K) (r : ℤ) : K :=
  if r = k then C k / A k k else if 1 ≤ r ∧ r < k then C r + A r k * (-(C k / A k k)) else C r

/-- the first `q` columns of the back substitution, from column `n` downwards. -/
def bwd (A : ℤ → ℤ → K) (n : ℤ) : ℕ → (ℤ → K) → ℤ → K
  | 0, c => c
  | q + 1, c => bstep A (n - q) (bwd A n q c)

/-- closed form of `solh`. -/
theorem solh_closed {n : ℤ} (hn : 1 ≤ n) {A : ℤ → ℤ → K} {ip : ℤ → ℤ}
    (hF : ∀ j, 1 ≤ j → j < n → ip (j - 1) = j ∨ ip (j - 1) = j + 1) (B : ℤ → K) :
    solh n A ip B = some (bwd A n n.toNat (fwd A ip (n - 1).toNat B)) := by
  have hloops : (if n ≠ 1 then
      (forUp 1 (n - 1) (solhFwd n A ip) B).bind fun B => forUp 1 (n - 1) (solhBwd n A) B
      else some B) = some (bwd A n (n - 1).toNat (fwd A ip (n - 1).toNat B)) := by
    by_cases h1 : n = 1
    · subst h1
      rw [if_neg (by simp)]
      rfl
    · rw [if_pos h1]
      obtain ⟨F, f1, f2⟩ := forUp_inv (body := solhFwd n A ip)
        (P := fun k C => C = fwd A ip (k - 1).toNat B) (lo := 1) (hi := n - 1) (s := B)
        (by omega) rfl (by
          rintro k C' hk hk' hC'
          refine ⟨rho k (ip (k - 1)) (A (k + 1) k) C', ?_, ?_⟩
          · unfold solhFwd
            have hm := hF k hk (by omega)
            rw [iget_in ⟨by omega, by omega⟩, Option.bind_some]
            generalize ip (k - 1) = m at hm
            rw [vget_in ⟨by omega, by omega⟩, Option.bind_some, vget_in ⟨by omega, by omega⟩,
              Option.bind_some, vset_in _ ⟨by omega, by omega⟩, Option.bind_some,
              vset_in _ ⟨by omega, by omega⟩, Option.bind_some]
            simp only
            rw [show min n (k + 1) = k + 1 by omega, forUp_single, vget_in ⟨by omega, by omega⟩,
              Option.bind_some, get_in ⟨⟨by omega, by omega⟩, by omega, by omega⟩,
              Option.bind_some, vset_in _ ⟨by omega, by omega⟩]
            congr 1
            funext i
            unfold rho
            rcases hm with e | e
            · subst e
              by_cases q1 : i = m
              · subst q1; simp [Function.update_apply]
              · by_cases q2 : i = m + 1
                · subst q2; simp [Function.update_apply]; congr 1; ring_nf
                · simp [q1, q2, Function.update_apply]
            · subst e
              by_cases q1 : i = k
              · subst q1; simp [Function.update_apply]
              · by_cases q2 : i = k + 1
                · subst q2; simp [Function.update_apply]; congr 1; ring_nf
                · simp [q1, q2, Function.update_apply]
          · obtain ⟨q, hq⟩ : ∃ q : ℕ, (k - 1).toNat = q := ⟨_, rfl⟩
            rw [show (k + 1 - 1).toNat = q + 1 by omega, fwd, hC', hq,
              show (q : ℤ) + 1 = k by omega, show (q : ℤ) + 2 = k + 1 by omega,
              show (q : ℤ) = k - 1 by omega])
      rw [show n - 1 + 1 - 1 = n - 1 by ring] at f2
      rw [f1, Option.bind_some, f2]
      generalize fwd A ip (n - 1).toNat B = c
      obtain ⟨C, g1, g2⟩ := forUp_inv (body := solhBwd n A)
        (P := fun kb C => C = bwd A n (kb - 1).toNat c) (lo := 1) (hi := n - 1) (s := c)
        (by omega) rfl (by
          intro kb C hkb hkb' hC
          unfold solhBwd
          obtain ⟨k, hk⟩ : ∃ k, n - kb + 1 = k := ⟨_, rfl⟩
          simp only [hk]
          rw [show n - kb = k - 1 by omega]
          rw [vget_in ⟨by omega, by omega⟩, Option.bind_some,
            get_in ⟨⟨by omega, by omega⟩, by omega, by omega⟩, Option.bind_some,
            vset_in _ ⟨by omega, by omega⟩, Option.bind_some, vget_in ⟨by omega, by omega⟩,
            Option.bind_some, Function.update_self]
          obtain ⟨D, d1, d2⟩ := forUp_inv
            (P := fun i D => ∀ r, D r = if r = k then C k / A k k else if 1 ≤ r ∧ r < i then
              C r + A r k * (-(C k / A k k)) else C r)
            (body := fun i B => (vget n B i).bind fun u => (get n A i k).bind fun v =>
              vset n B i (u + v * (-(C k / A k k)))) (lo := 1) (hi := k - 1)
            (s := Function.update C k (C k / A k k)) (by omega)
            (by intro r
                by_cases e : r = k
                · simp [e]
                · rw [Function.update_of_ne e, if_neg e, if_neg (by omega)]) (by
              intro i D hi hi' hD
              rw [vget_in ⟨by omega, by omega⟩, Option.bind_some,
                get_in ⟨⟨by omega, by omega⟩, by omega, by omega⟩, Option.bind_some,
                vset_in _ ⟨by omega, by omega⟩]
              refine ⟨_, rfl, ?_⟩
              intro r
              by_cases e : r = i
              · subst e
                rw [Function.update_self, hD, if_neg (by omega), if_neg (by omega),
                  if_neg (by omega), if_pos (by omega)]
              · rw [Function.update_of_ne e, hD]
                by_cases e2 : r = k
                · rw [if_pos e2, if_pos e2]
                · rw [if_neg e2, if_neg e2]
                  by_cases e3 : 1 ≤ r ∧ r < i
                  · rw [if_pos e3, if_pos (by omega)]
                  · rw [if_neg e3, if_neg (by omega)])
          refine ⟨D, d1, ?_⟩
          obtain ⟨q, hq⟩ : ∃ q : ℕ, (kb - 1).toNat = q := ⟨_, rfl⟩
          rw [show (kb + 1 - 1).toNat = q + 1 by omega, bwd, ← hq, ← hC, hq,
            show n - (q : ℤ) = k by omega]
          funext i
          rw [d2 i, show k - 1 + 1 = k by ring, bstep])
      rw [g1, g2, show n - 1 + 1 - 1 = n - 1 by ring]
  unfold solh
  rw [hloops, Option.bind_some, vget_in ⟨by omega, by omega⟩, Option.bind_some,
    get_in ⟨⟨by omega, by omega⟩, by omega, by omega⟩, Option.bind_some,
    vset_in _ ⟨by omega, by omega⟩]
  congr 1
  obtain ⟨q, hq⟩ : ∃ q : ℕ, (n - 1).toNat = q := ⟨_, rfl⟩
  rw [hq, show n.toNat = q + 1 by omega, bwd, show n - (q : ℤ) = 1 by omega]
  funext i
  unfold bstep
  by_cases e : i = 1
  · subst e; simp
  · rw [Function.update_of_ne e, if_neg e, if_neg (by omega)]

end gen

section real

variable [Field K] [LinearOrder K] [IsStrictOrderedRing K]

theorem ABS_eq (a : K) : ABS a = |a| := by
  unfold ABS
  split_ifs with h
  · rw [abs_of_nonneg h]
  · rw [abs_of_neg (lt_of_not_ge h)]

theorem pivot_zero {A : ℤ → ℤ → K} {k : ℤ} (h : A (pivot A k) k = 0) :
    A k k = 0 ∧ A (k + 1) k = 0 := by
  unfold pivot at h
  simp only [ABS_eq] at h
  split_ifs at h with h1
  · rw [h, abs_zero] at h1
    exact absurd h1 (not_lt.2 (abs_nonneg _))
  · rw [h, abs_zero] at h1
    refine ⟨h, ?_⟩
    rw [gt_iff_lt, not_lt] at h1
    exact abs_eq_zero.1 (le_antisymm h1 (abs_nonneg _))

/-- the result of `dech`. -/
theorem dech_spec {n : ℤ} (hn : 1 ≤ n) (A : ℤ → ℤ → K) (ip : ℤ → ℤ) :
    ∃ s, dech n A ip = some s ∧
      ((s.ret = 0 ∧ Factored n n (maskU 1 A) s.A s.ip ∧ s.A n n ≠ 0) ∨
       (s.ret ≠ 0 ∧ ∃ k x, (1 ≤ k ∧ k ≤ n) ∧ x k = 1 ∧
          ∀ i, 1 ≤ i → i ≤ n → S n (maskU 1 A) x i = 0)) := by
  unfold dech
  rw [iset_in _ ⟨by omega, by omega⟩, Option.bind_some]
  have hloop : ∃ s, (if n ≠ 1 then forBrk 1 (n - 1) (dechBody n)
      (⟨A, Function.update ip (n - 1) 1, 0⟩ : St K) else
      some ⟨A, Function.update ip (n - 1) 1, 0⟩) = some s ∧
      ((s.ret = 0 ∧ Factored n n (maskU 1 A) s.A s.ip) ∨ (s.ret ≠ 0 ∧ ∃ k x, (1 ≤ k ∧ k ≤ n) ∧
        x k = 1 ∧ ∀ i, 1 ≤ i → i ≤ n → S n (maskU 1 A) x i = 0)) := by
    by_cases h1 : n = 1
    · rw [if_neg (by simpa using h1)]
      refine ⟨_, rfl, .inl ⟨rfl, ?_⟩⟩
      subst h1
      exact Factored.init _ _
    · rw [if_pos h1]
      obtain ⟨s, g1, g2⟩ := forBrk_inv (body := dechBody n)
        (P := fun k s => s.ret = 0 ∧ Factored n k (maskU 1 A) s.A s.ip)
        (Q := fun s => s.ret ≠ 0 ∧ ∃ k x, (1 ≤ k ∧ k ≤ n) ∧ x k = 1 ∧
          ∀ i, 1 ≤ i → i ≤ n → S n (maskU 1 A) x i = 0)
        (lo := 1) (hi := n - 1) (s := ⟨A, Function.update ip (n - 1) 1, 0⟩) (by omega)
        ⟨rfl, Factored.init _ _⟩ (by
          rintro k s hk hk' ⟨i1, i2⟩
          obtain ⟨b1, b2⟩ := dechBody_spec (by simp) hk (show k < n by omega) s
          by_cases h0 : s.A (pivot s.A k) k = 0
          · obtain ⟨s', c1, c2⟩ := b1 h0
            refine ⟨s', .inr ⟨c1, by omega, k, ?_⟩⟩
            obtain ⟨x, x1, x2⟩ := i2.singular hk (by omega) (pivot_zero h0).1
              (fun _ => (pivot_zero h0).2)
            exact ⟨x, ⟨hk, by omega⟩, x1, x2⟩
          · obtain ⟨A', c1, c2⟩ := b2 h0
            refine ⟨_, .inl ⟨c1, i1, ?_⟩⟩
            exact i2.step hk (by omega) (pivot_or _ _) h0 c2
              (fun j _ b => ipAfter_before (by omega) _ _ b) (ipAfter_at (by omega) _))
      refine ⟨s, g1, ?_⟩
      rwa [show n - 1 + 1 = n by ring] at g2
  obtain ⟨s, g1, g2⟩ := hloop
  rw [g1, Option.bind_some, get_in ⟨⟨by omega, by omega⟩, by omega, by omega⟩, Option.bind_some]
  refine ⟨_, rfl, ?_⟩
  by_cases h0 : s.A n n = 0
  · rw [if_pos h0]
    right
    refine ⟨by dsimp only; omega, ?_⟩
    rcases g2 with ⟨-, g2⟩ | ⟨-, g2⟩
    · obtain ⟨x, x1, x2⟩ := g2.singular (by omega) le_rfl h0 (fun h => by omega)
      exact ⟨n, x, ⟨hn, le_rfl⟩, x1, x2⟩
    · exact g2
  · rw [if_neg h0]
    rcases g2 with ⟨g2, g3⟩ | g2
    · exact .inl ⟨g2, g3, h0⟩
    · exact .inr g2

/-- `solh` after a successful `dech`. -/
theorem solh_spec {n : ℤ} (hn : 1 ≤ n) {H A : ℤ → ℤ → K} {ip : ℤ → ℤ} (hF : Factored n n H A ip)
    (hd : A n n ≠ 0) (B : ℤ → K) :
    ∃ x, solh n A ip B = some x ∧ ∀ i, 1 ≤ i → i ≤ n → S n H x i = B i := by
  have hdiag : ∀ j, 1 ≤ j → j ≤ n → A j j ≠ 0 := by
    intro j a b
    by_cases e : j = n
    · rw [e]; exact hd
    · exact hF.diag j a (by omega)
  refine ⟨_, solh_closed hn hF.piv B, ?_⟩
  rw [← hF.sol]
  generalize fwd A ip (n - 1).toNat B = c
  have hb : ∀ q : ℕ, (q : ℤ) ≤ n → Back n (n - q) A c (bwd A n q c) := by
    intro q
    induction q with
    | zero => intro _; simpa [bwd] using Back.init n A c
    | succ q ih =>
      intro hq
      have := (ih (by omega)).step (B' := bwd A n (q + 1) c) (by omega) (by omega)
        (hdiag _ (by omega) (by omega)) (fun i => by rw [bwd, bstep])
      rwa [show n - ((q + 1 : ℕ) : ℤ) = n - q - 1 by push_cast; ring]
  have := hb n.toNat (by omega)
  rw [show n - (n.toNat : ℤ) = 0 by omega] at this
  exact Back.done this

end real

end Odes.Hess
