import Verif.Lemmas.Order4
import Mathlib.Algebra.Order.Field.Basic
import Mathlib.Tactic.FieldSimp
import Mathlib.Tactic.Positivity

/-!
# Exact evaluation of the weights of tabulated formulas

Integers with the scale `D = 10^19`: the weight of a tree with `k` nodes at exponent `e` is an
integer divided by `D^(k e)`.  `force` and `nforce` make the kernel evaluate a number before it
is used.  The recurrence uses natural numbers only (a negative intermediate result is reported as
failure).
-/

namespace Odes.Rock4Check

open Spec

/-- the scale of the tables (a variable in this file: the kernel must not unfold it). -/
def scale19 : ℕ := 10000000000000000000

variable (D : ℕ)

/-- evaluate, then continue. -/
def force {β : Type} (z : ℤ) (k : ℤ → β) : β :=
  match z with
  | .ofNat 0 => k 0
  | .ofNat (m + 1) => k (.ofNat (m + 1))
  | .negSucc 0 => k (-1)
  | .negSucc (m + 1) => k (.negSucc (m + 1))

theorem force_eq {β : Type} (z : ℤ) (k : ℤ → β) : force z k = k z := by
  unfold force
  split <;> rfl

@[inherit_doc force]
noncomputable def nforce {β : Type} (z : ℕ) (k : ℕ → β) : β :=
  Nat.rec (k 0) (fun m _ => k (Nat.succ m)) z

theorem nforce_eq {β : Type} (z : ℕ) (k : ℕ → β) : nforce z k = k z := by
  cases z <;> rfl

def forceW {β : Type} (w : W8 ℤ) (k : W8 ℤ → β) : β :=
  force w.t1 fun a => force w.t2 fun b => force w.t3 fun c => force w.t4 fun d =>
  force w.t5 fun e => force w.t6 fun f => force w.t7 fun g => force w.t8 fun h =>
    k ⟨a, b, c, d, e, f, g, h⟩

theorem forceW_eq {β : Type} (w : W8 ℤ) (k : W8 ℤ → β) : forceW w k = k w := by
  simp only [forceW, force_eq]

/-- `D^k` as an integer. -/
def pw (k : ℕ) : ℤ := Int.ofNat (Nat.pow D k)

/-- `(A/D) * G`: from exponent `e` to exponent `e'`. -/
def lin (e' e : ℕ) (A : ℤ) (G : W8 ℤ) : W8 ℤ :=
  let x := e' - e
  ⟨A * G.t1 * pw D (x - 1), A * G.t2 * pw D (2 * x - 1), A * G.t3 * pw D (3 * x - 1),
    A * G.t4 * pw D (3 * x - 1), A * G.t5 * pw D (4 * x - 1), A * G.t6 * pw D (4 * x - 1),
    A * G.t7 * pw D (4 * x - 1), A * G.t8 * pw D (4 * x - 1)⟩

/-- `(A/D) * F(G)`: from exponent `e` to exponent `e'`. -/
def appl (e' e : ℕ) (A : ℤ) (G : W8 ℤ) : W8 ℤ :=
  ⟨A * pw D (e' - 1), A * G.t1 * pw D (2 * e' - 1 - e), A * (G.t1 * G.t1) * pw D (3 * e' - 1 - 2 * e),
    A * G.t2 * pw D (3 * e' - 1 - 2 * e), A * (G.t1 * G.t1 * G.t1) * pw D (4 * e' - 1 - 3 * e),
    A * (G.t1 * G.t2) * pw D (4 * e' - 1 - 3 * e), A * G.t3 * pw D (4 * e' - 1 - 3 * e),
    A * G.t4 * pw D (4 * e' - 1 - 3 * e)⟩

/-- evaluate the eight numbers, then continue. -/
noncomputable def nforce8 (w : W8 ℕ) (k : W8 ℕ → Bool) : Bool :=
  nforce w.t1 fun a => nforce w.t2 fun b => nforce w.t3 fun c => nforce w.t4 fun d =>
  nforce w.t5 fun e => nforce w.t6 fun f => nforce w.t7 fun g => nforce w.t8 fun h =>
    k ⟨a, b, c, d, e, f, g, h⟩

theorem nforce8_eq (w : W8 ℕ) (k : W8 ℕ → Bool) : nforce8 w k = k w := by
  simp only [nforce8, nforce_eq]

/-- `M x P + s y Q` -/
def posi (M x P s y Q : ℕ) : ℕ := Nat.add (Nat.mul (Nat.mul M x) P) (Nat.mul (Nat.mul s y) Q)

/-- `K z Q` -/
def nega (K z Q : ℕ) : ℕ := Nat.mul (Nat.mul K z) Q

/-- positive part of the next weights, times a power of `D`. -/
def posW (M s P : ℕ) (g : W8 ℕ) : W8 ℕ :=
  ⟨posi M 1 P s g.t1 1,
   posi M g.t1 (Nat.mul P D) s g.t2 D,
   posi M (Nat.mul g.t1 g.t1) (Nat.mul P (Nat.pow D 2)) s g.t3 (Nat.pow D 2),
   posi M g.t2 (Nat.mul P (Nat.pow D 2)) s g.t4 (Nat.pow D 2),
   posi M (Nat.mul (Nat.mul g.t1 g.t1) g.t1) (Nat.mul P (Nat.pow D 3)) s g.t5 (Nat.pow D 3),
   posi M (Nat.mul g.t1 g.t2) (Nat.mul P (Nat.pow D 3)) s g.t6 (Nat.pow D 3),
   posi M g.t3 (Nat.mul P (Nat.pow D 3)) s g.t7 (Nat.pow D 3),
   posi M g.t4 (Nat.mul P (Nat.pow D 3)) s g.t8 (Nat.pow D 3)⟩

/-- negative part of the next weights. -/
def negW (K : ℕ) (o : W8 ℕ) : W8 ℕ :=
  ⟨nega K o.t1 D, nega K o.t2 (Nat.pow D 3), nega K o.t3 (Nat.pow D 5), nega K o.t4 (Nat.pow D 5),
   nega K o.t5 (Nat.pow D 7), nega K o.t6 (Nat.pow D 7), nega K o.t7 (Nat.pow D 7),
   nega K o.t8 (Nat.pow D 7)⟩

/-- `v <= w` -/
def ble8 (v w : W8 ℕ) : Bool :=
  Nat.ble v.t1 w.t1 && Nat.ble v.t2 w.t2 && Nat.ble v.t3 w.t3 && Nat.ble v.t4 w.t4
    && Nat.ble v.t5 w.t5 && Nat.ble v.t6 w.t6 && Nat.ble v.t7 w.t7 && Nat.ble v.t8 w.t8

/-- `w - v` -/
def sub8 (w v : W8 ℕ) : W8 ℕ :=
  ⟨Nat.sub w.t1 v.t1, Nat.sub w.t2 v.t2, Nat.sub w.t3 v.t3, Nat.sub w.t4 v.t4,
   Nat.sub w.t5 v.t5, Nat.sub w.t6 v.t6, Nat.sub w.t7 v.t7, Nat.sub w.t8 v.t8⟩

/-- the recurrence over the coefficients `l = mu_{j+1}, kappa_{j+1}, mu_{j+2}, ...`; `g1` has
the exponent `j`, `g0` the exponent `j-1`, `P = D^j`; `m` iterations remain. -/
noncomputable def recN (k : ℕ → W8 ℕ → Bool) (m : ℕ) :
    ℕ → ℕ → List ℤ → W8 ℕ → W8 ℕ → Bool :=
  Nat.rec (fun j _ _ _ g => k j g)
    (fun _ ih j P l o g =>
      match l with
      | .ofNat M :: .ofNat K :: l' =>
        nforce8 (posW D M (Nat.add D K) P g) fun p =>
        nforce8 (negW D K o) fun q =>
        Bool.rec false (nforce8 (sub8 p q) fun r => nforce (Nat.mul P D) fun P1 =>
          ih (Nat.succ j) P1 l' g r) (ble8 q p)
      | _ => false) m

/-- `|N/D^x - 1/c| <= 10^-14` -/
def near (N : ℤ) (x : ℕ) (c : ℤ) : Bool :=
  force (pw D x) fun P => force (c * N - P) fun d =>
    decide ((10 ^ 14 : ℤ) * d ≤ c * P) && decide (-(c * P) ≤ (10 ^ 14 : ℤ) * d)

/-- order four up to 10^-14. -/
def ok4 (e : ℕ) (w : W8 ℤ) : Bool :=
  near D w.t1 e 1 && near D w.t2 (2 * e) 2 && near D w.t3 (3 * e) 3 && near D w.t4 (3 * e) 6
    && near D w.t5 (4 * e) 4 && near D w.t6 (4 * e) 8 && near D w.t7 (4 * e) 12 && near D w.t8 (4 * e) 24

/-- order three up to 10^-14. -/
def ok3 (e : ℕ) (w : W8 ℤ) : Bool :=
  near D w.t1 e 1 && near D w.t2 (2 * e) 2 && near D w.t3 (3 * e) 3 && near D w.t4 (3 * e) 6

/-- weights of the new value and of the embedded value for rows of `fpa`, `fpb`, `fpbe`. -/
def finW {β : Type} (a b be : ℕ → ℤ) (e : ℕ) (g : W8 ℤ) (k : W8 ℤ → W8 ℤ → β) : β :=
  forceW ((lin D (e + 1) e D g).add (appl D (e + 1) e (a 1) g)) fun g2 =>
  forceW (((lin D (e + 2) e D g).add (appl D (e + 2) e (a 2) g)).add (appl D (e + 2) (e + 1) (a 3) g2))
    fun g3 =>
  forceW ((((lin D (e + 3) e D g).add (appl D (e + 3) e (a 4) g)).add
    (appl D (e + 3) (e + 1) (a 5) g2)).add (appl D (e + 3) (e + 2) (a 6) g3)) fun g4 =>
  forceW (((((lin D (e + 4) e D g).add (appl D (e + 4) e (b 1) g)).add
    (appl D (e + 4) (e + 1) (b 2) g2)).add (appl D (e + 4) (e + 2) (b 3) g3)).add
    (appl D (e + 4) (e + 3) (b 4) g4)) fun y =>
  forceW ((((((lin D (e + 5) e D g).add (appl D (e + 5) e (be 1) g)).add
    (appl D (e + 5) (e + 1) (be 2) g2)).add (appl D (e + 5) (e + 2) (be 3) g3)).add
    (appl D (e + 5) (e + 3) (be 4) g4)).add (appl D (e + 5) (e + 4) (be 5) y)) fun z =>
  k y z

/-- natural numbers as integers. -/
def up (g : W8 ℕ) : W8 ℤ :=
  ⟨.ofNat g.t1, .ofNat g.t2, .ofNat g.t3, .ofNat g.t4, .ofNat g.t5, .ofNat g.t6, .ofNat g.t7,
    .ofNat g.t8⟩

/-- the test of one formula. -/
noncomputable def formulaOk (deg : ℕ) (l : List ℤ) (a b be : ℕ → ℤ) : Bool :=
  match l with
  | .ofNat M :: l =>
    recN D (fun e g => finW D a b be e (up g) fun y z => ok4 D (e + 4) y && ok3 D (e + 5) z)
      (deg - 1) 1 D l ⟨0, 0, 0, 0, 0, 0, 0, 0⟩ ⟨M, 0, 0, 0, 0, 0, 0, 0⟩
  | _ => false

/-! ## Meaning -/

variable {D} in
theorem D_pos (hD : 0 < D) : (0 : ℝ) < D := by exact_mod_cast hD

/-- the real weights. -/
noncomputable def valW (e : ℕ) (G : W8 ℤ) : W8 ℝ :=
  ⟨G.t1 / (D : ℝ) ^ e, G.t2 / (D : ℝ) ^ (2 * e), G.t3 / (D : ℝ) ^ (3 * e),
    G.t4 / (D : ℝ) ^ (3 * e), G.t5 / (D : ℝ) ^ (4 * e), G.t6 / (D : ℝ) ^ (4 * e),
    G.t7 / (D : ℝ) ^ (4 * e), G.t8 / (D : ℝ) ^ (4 * e)⟩

theorem pw_val (k : ℕ) : ((pw D k : ℤ) : ℝ) = (D : ℝ) ^ k := by
  have : pw D k = ((D ^ k : ℕ) : ℤ) := rfl
  rw [this]; push_cast; rfl

variable {D} in
/-- `A X D^a / D^c = (A/D) (X / D^b)` -/
theorem scale (hD0 : 0 < D) (A X : ℝ) {a b c : ℕ} (h : a + 1 + b = c) :
    A * X * (D : ℝ) ^ a / (D : ℝ) ^ c = A / D * (X / (D : ℝ) ^ b) := by
  have := (D_pos hD0).ne'
  rw [← h, pow_add, pow_add, pow_one]
  field_simp

variable {D} in
theorem lin_val (hD0 : 0 < D) {e' e : ℕ} (h : e < e') (A : ℤ) (G : W8 ℤ) :
    valW D e' (lin D e' e A G) = (valW D e G).smul ((A : ℝ) / D) := by
  simp only [valW, lin, W8.smul, Int.cast_mul, pw_val]
  rw [scale hD0 (b := e) _ _ (by omega), scale hD0 (b := 2 * e) _ _ (by omega),
    scale hD0 (b := 3 * e) _ _ (by omega), scale hD0 (b := 3 * e) _ _ (by omega),
    scale hD0 (b := 4 * e) _ _ (by omega), scale hD0 (b := 4 * e) _ _ (by omega),
    scale hD0 (b := 4 * e) _ _ (by omega), scale hD0 (b := 4 * e) _ _ (by omega)]

variable {D} in
theorem appl_val (hD0 : 0 < D) {e' e : ℕ} (h : e < e') (A : ℤ) (G : W8 ℤ) :
    valW D e' (appl D e' e A G) = (valW D e G).app.smul ((A : ℝ) / D) := by
  simp only [valW, appl, W8.smul, W8.app, Int.cast_mul, pw_val]
  have h1 : (A : ℝ) * (D : ℝ) ^ (e' - 1) / (D : ℝ) ^ e' = A / D * 1 := by
    have := scale hD0 (b := 0) (A : ℝ) 1 (a := e' - 1) (c := e') (by omega)
    simpa using this
  rw [h1, scale hD0 (b := e) _ _ (by omega), scale hD0 (b := 2 * e) _ _ (by omega),
    scale hD0 (b := 2 * e) _ _ (by omega), scale hD0 (b := 3 * e) _ _ (by omega),
    scale hD0 (b := 3 * e) _ _ (by omega), scale hD0 (b := 3 * e) _ _ (by omega),
    scale hD0 (b := 3 * e) _ _ (by omega)]
  have hD := (D_pos hD0).ne'
  congr 1 <;> field_simp <;> ring

theorem add_val (e : ℕ) (G H : W8 ℤ) : valW D e (G.add H) = (valW D e G).add (valW D e H) := by
  simp only [valW, W8.add, Int.cast_add, add_div]

/-- the real weights of natural numbers. -/
noncomputable def valN (e : ℕ) (G : W8 ℕ) : W8 ℝ := valW D e (up G)

variable {D} in
/-- one component of the recurrence. -/
theorem comp (hD0 : 0 < D) (M K x y z P Q Q' : ℕ) {a1 a2 a3 b1 b2 b3 c : ℕ} (hP : P = D ^ a1) (hQ : Q = D ^ a2)
    (hQ' : Q' = D ^ a3) (h1 : a1 + 1 + b1 = c) (h2 : a2 + 1 + b2 = c) (h3 : a3 + 1 + b3 = c)
    (hle : nega K z Q' ≤ posi M x P (D + K) y Q) :
    ((Nat.sub (posi M x P (D + K) y Q) (nega K z Q') : ℕ) : ℝ) / (D : ℝ) ^ c
      = (M : ℝ) / D * (x / (D : ℝ) ^ b1) + (1 + (K : ℝ) / D) * (y / (D : ℝ) ^ b2)
        + -((K : ℝ) / D) * (z / (D : ℝ) ^ b3) := by
  have e : ((Nat.sub (posi M x P (D + K) y Q) (nega K z Q') : ℕ) : ℝ)
      = M * x * (D : ℝ) ^ a1 + (D + K) * y * (D : ℝ) ^ a2 - K * z * (D : ℝ) ^ a3 := by
    rw [Nat.sub_eq, Nat.cast_sub hle]
    subst hP hQ hQ'
    show (((M * x * D ^ a1 + (D + K) * y * D ^ a2 : ℕ) : ℝ) - ((K * z * D ^ a3 : ℕ) : ℝ)) = _
    push_cast
    ring
  have hD : ((D : ℝ) + K) / D = 1 + K / D := by
    have := (D_pos hD0).ne'
    field_simp
  rw [e, sub_div, add_div, scale hD0 _ _ h1, scale hD0 _ _ h2, scale hD0 _ _ h3, hD]
  ring

theorem nat_ble {a b : ℕ} (h : Nat.ble a b = true) : a ≤ b := Nat.le_of_ble_eq_true h

theorem npow (k : ℕ) : Nat.pow D k = D ^ k := rfl

theorem pmul1 (i : ℕ) : Nat.mul (D ^ (i + 1)) D = D ^ (i + 2) := by
  rw [Nat.mul_eq, ← pow_succ]

theorem pmul (i k : ℕ) : Nat.mul (D ^ (i + 1)) (Nat.pow D k) = D ^ (i + (k + 1)) := by
  rw [Nat.mul_eq, npow, ← pow_add]; congr 1; omega

variable {D} in
theorem next_val (hD0 : 0 < D) (mu kap : ℕ → ℝ) (i M K : ℕ) (o g : W8 ℕ)
    (hM : (M : ℝ) / D = mu (i + 2)) (hK : (K : ℝ) / D = kap (i + 2))
    (ho : valN D i o = wRec mu kap i) (hg : valN D (i + 1) g = wRec mu kap (i + 1))
    (hb : ble8 (negW D K o) (posW D M (D + K) (D ^ (i + 1)) g) = true) :
    valN D (i + 2) (sub8 (posW D M (D + K) (D ^ (i + 1)) g) (negW D K o)) = wRec mu kap (i + 2) := by
  simp only [ble8, Bool.and_eq_true, negW, posW] at hb
  obtain ⟨⟨⟨⟨⟨⟨⟨b1, b2⟩, b3⟩, b4⟩, b5⟩, b6⟩, b7⟩, b8⟩ := hb
  rw [wRec, ← ho, ← hg]
  simp only [valN, valW, up, sub8, posW, negW, W8.app, W8.smul, W8.add, ← hM, ← hK,
    Int.ofNat_eq_natCast, Int.cast_natCast]
  rw [comp hD0 M K 1 g.t1 o.t1 (D ^ (i + 1)) 1 D
      (a1 := i + 1) (a2 := 0) (a3 := 1) (b1 := 0) (b2 := i + 1) (b3 := i)
      rfl (pow_zero D).symm (pow_one D).symm (by omega) (by omega) (by omega) (nat_ble b1),
    comp hD0 M K g.t1 g.t2 o.t2 (Nat.mul (D ^ (i + 1)) D) D (Nat.pow D 3)
      (a1 := i + 2) (a2 := 1) (a3 := 3) (b1 := i + 1) (b2 := 2 * (i + 1)) (b3 := 2 * i)
      (pmul1 D i) (pow_one D).symm (npow D 3) (by omega) (by omega) (by omega) (nat_ble b2),
    comp hD0 M K (Nat.mul g.t1 g.t1) g.t3 o.t3 (Nat.mul (D ^ (i + 1)) (Nat.pow D 2)) (Nat.pow D 2) (Nat.pow D 5)
      (a1 := i + 3) (a2 := 2) (a3 := 5) (b1 := 2 * (i + 1)) (b2 := 3 * (i + 1)) (b3 := 3 * i)
      (pmul D i 2) (npow D 2) (npow D 5) (by omega) (by omega) (by omega) (nat_ble b3),
    comp hD0 M K g.t2 g.t4 o.t4 (Nat.mul (D ^ (i + 1)) (Nat.pow D 2)) (Nat.pow D 2) (Nat.pow D 5)
      (a1 := i + 3) (a2 := 2) (a3 := 5) (b1 := 2 * (i + 1)) (b2 := 3 * (i + 1)) (b3 := 3 * i)
      (pmul D i 2) (npow D 2) (npow D 5) (by omega) (by omega) (by omega) (nat_ble b4),
    comp hD0 M K (Nat.mul (Nat.mul g.t1 g.t1) g.t1) g.t5 o.t5 (Nat.mul (D ^ (i + 1)) (Nat.pow D 3)) (Nat.pow D 3) (Nat.pow D 7)
      (a1 := i + 4) (a2 := 3) (a3 := 7) (b1 := 3 * (i + 1)) (b2 := 4 * (i + 1)) (b3 := 4 * i)
      (pmul D i 3) (npow D 3) (npow D 7) (by omega) (by omega) (by omega) (nat_ble b5),
    comp hD0 M K (Nat.mul g.t1 g.t2) g.t6 o.t6 (Nat.mul (D ^ (i + 1)) (Nat.pow D 3)) (Nat.pow D 3) (Nat.pow D 7)
      (a1 := i + 4) (a2 := 3) (a3 := 7) (b1 := 3 * (i + 1)) (b2 := 4 * (i + 1)) (b3 := 4 * i)
      (pmul D i 3) (npow D 3) (npow D 7) (by omega) (by omega) (by omega) (nat_ble b6),
    comp hD0 M K g.t3 g.t7 o.t7 (Nat.mul (D ^ (i + 1)) (Nat.pow D 3)) (Nat.pow D 3) (Nat.pow D 7)
      (a1 := i + 4) (a2 := 3) (a3 := 7) (b1 := 3 * (i + 1)) (b2 := 4 * (i + 1)) (b3 := 4 * i)
      (pmul D i 3) (npow D 3) (npow D 7) (by omega) (by omega) (by omega) (nat_ble b7),
    comp hD0 M K g.t4 g.t8 o.t8 (Nat.mul (D ^ (i + 1)) (Nat.pow D 3)) (Nat.pow D 3) (Nat.pow D 7)
      (a1 := i + 4) (a2 := 3) (a3 := 7) (b1 := 3 * (i + 1)) (b2 := 4 * (i + 1)) (b3 := 4 * i)
      (pmul D i 3) (npow D 3) (npow D 7) (by omega) (by omega) (by omega) (nat_ble b8)]
  have hD := (D_pos hD0).ne'
  have e2 : (((Nat.mul g.t1 g.t1 : ℕ) : ℝ) / (D : ℝ) ^ (2 * (i + 1)))
      = g.t1 / (D : ℝ) ^ (i + 1) * (g.t1 / (D : ℝ) ^ (i + 1)) := by
    rw [Nat.mul_eq]; push_cast; rw [two_mul, pow_add]; field_simp
  have e3 : (((Nat.mul (Nat.mul g.t1 g.t1) g.t1 : ℕ) : ℝ) / (D : ℝ) ^ (3 * (i + 1)))
      = g.t1 / (D : ℝ) ^ (i + 1) * (g.t1 / (D : ℝ) ^ (i + 1)) * (g.t1 / (D : ℝ) ^ (i + 1)) := by
    rw [Nat.mul_eq, Nat.mul_eq]; push_cast
    rw [show 3 * (i + 1) = (i + 1) + (i + 1) + (i + 1) by ring, pow_add, pow_add]; field_simp
  have e4 : (((Nat.mul g.t1 g.t2 : ℕ) : ℝ) / (D : ℝ) ^ (3 * (i + 1)))
      = g.t1 / (D : ℝ) ^ (i + 1) * (g.t2 / (D : ℝ) ^ (2 * (i + 1))) := by
    rw [Nat.mul_eq]; push_cast
    rw [show 3 * (i + 1) = (i + 1) + 2 * (i + 1) by ring, pow_add]; field_simp
  rw [e2, e3, e4]
  simp

variable {D} in
/-- the recurrence computes the weights. -/
theorem recN_sound (hD0 : 0 < D) (mu kap : ℕ → ℝ) (k : ℕ → W8 ℕ → Bool) :
    ∀ (m i P : ℕ) (l : List ℤ) (o g : W8 ℕ), P = D ^ (i + 1) →
      (∀ q < m, ((l.getD (2 * q) 0 : ℤ) : ℝ) / D = mu (i + 2 + q) ∧
        ((l.getD (2 * q + 1) 0 : ℤ) : ℝ) / D = kap (i + 2 + q)) →
      valN D i o = wRec mu kap i → valN D (i + 1) g = wRec mu kap (i + 1) →
      recN D k m (i + 1) P l o g = true →
      ∃ G, k (i + 1 + m) G = true ∧ valN D (i + 1 + m) G = wRec mu kap (i + 1 + m)
  | 0, i, P, l, o, g, _, _, _, hg, h => ⟨g, h, hg⟩
  | m + 1, i, P, l, o, g, hP, hl, ho, hg, h => by
    match l, hl, h with
    | .ofNat M :: .ofNat K :: l', hl, h =>
      have h0 := hl 0 (by omega)
      have hM : (M : ℝ) / D = mu (i + 2) := by simpa using h0.1
      have hK : (K : ℝ) / D = kap (i + 2) := by simpa using h0.2
      have h' : (nforce8 (posW D M (Nat.add D K) P g) fun p => nforce8 (negW D K o) fun q =>
        Bool.rec false (nforce8 (sub8 p q) fun r => nforce (Nat.mul P D) fun P1 =>
          recN D k m (Nat.succ (i + 1)) P1 l' g r) (ble8 q p)) = true := h
      simp only [nforce8_eq, nforce_eq, Nat.add_eq, Nat.mul_eq, Nat.succ_eq_add_one] at h'
      cases hb : ble8 (negW D K o) (posW D M (D + K) P g) with
      | false => rw [hb] at h'; exact absurd h' (by simp)
      | true =>
        rw [hb] at h'
        subst hP
        have hn := next_val hD0 mu kap i M K o g hM hK ho hg hb
        obtain ⟨G, g1, g2⟩ := recN_sound hD0 mu kap k m (i + 1) (D ^ (i + 1) * D) l' g _ (by ring)
          (fun q hq => by
            have := hl (q + 1) (by omega)
            rw [show 2 * (q + 1) = 2 * q + 1 + 1 by ring, show i + 2 + (q + 1) = i + 1 + 2 + q by ring,
              List.getD_cons_succ, List.getD_cons_succ, List.getD_cons_succ,
              List.getD_cons_succ] at this
            exact this) hg hn h'
        refine ⟨G, ?_, ?_⟩
        · rw [← g1]; congr 1; ring
        · rw [show i + 1 + (m + 1) = i + 1 + 1 + m by ring]; exact g2
    | [], _, h => exact absurd h (by simp [recN])
    | [_], _, h => exact absurd h (by simp [recN])
    | .negSucc _ :: _ :: _, _, h => exact absurd h (by simp [recN])
    | .ofNat _ :: .negSucc _ :: _, _, h => exact absurd h (by simp [recN])

variable {D} in
theorem near_sound (hD0 : 0 < D) {N : ℤ} {x : ℕ} {c : ℤ} (hc : 0 < c) (h : near D N x c = true) :
    |(N : ℝ) / (D : ℝ) ^ x - 1 / c| ≤ 1e-14 := by
  simp only [near, force_eq, Bool.and_eq_true, decide_eq_true_eq] at h
  obtain ⟨h1, h2⟩ := h
  have g1 : ((10 : ℝ) ^ 14) * (c * N - (D : ℝ) ^ x) ≤ c * (D : ℝ) ^ x := by
    rw [← pw_val]; exact_mod_cast h1
  have g2 : -(c * (D : ℝ) ^ x) ≤ ((10 : ℝ) ^ 14) * (c * N - (D : ℝ) ^ x) := by
    rw [← pw_val]; exact_mod_cast h2
  have hP : (0 : ℝ) < (D : ℝ) ^ x := pow_pos (D_pos hD0) x
  have hc' : (0 : ℝ) < c := by exact_mod_cast hc
  have e : (N : ℝ) / (D : ℝ) ^ x - 1 / c = (c * N - (D : ℝ) ^ x) / (c * (D : ℝ) ^ x) := by
    field_simp
  have hcP := mul_pos hc' hP
  rw [e, abs_le, le_div_iff₀ hcP, div_le_iff₀ hcP]
  constructor <;> norm_num at * <;> linarith

/-- the weights agree with those of the exact solution on the trees with at most three nodes. -/
def Near3 (w : W8 ℝ) : Prop :=
  |w.t1 - 1| ≤ 1e-14 ∧ |w.t2 - 1 / 2| ≤ 1e-14 ∧ |w.t3 - 1 / 3| ≤ 1e-14 ∧ |w.t4 - 1 / 6| ≤ 1e-14

/-- the weights agree with those of the exact solution on the trees with at most four nodes. -/
def Near4 (w : W8 ℝ) : Prop :=
  Near3 w ∧ |w.t5 - 1 / 4| ≤ 1e-14 ∧ |w.t6 - 1 / 8| ≤ 1e-14 ∧ |w.t7 - 1 / 12| ≤ 1e-14
    ∧ |w.t8 - 1 / 24| ≤ 1e-14

variable {D} in
theorem ok3_sound (hD0 : 0 < D) {e : ℕ} {w : W8 ℤ} (h : ok3 D e w = true) : Near3 (valW D e w) := by
  simp only [ok3, Bool.and_eq_true] at h
  obtain ⟨⟨⟨h1, h2⟩, h3⟩, h4⟩ := h
  have a1 := near_sound hD0 (by norm_num) h1
  have a2 := near_sound hD0 (by norm_num) h2
  have a3 := near_sound hD0 (by norm_num) h3
  have a4 := near_sound hD0 (by norm_num) h4
  norm_num at a1 a2 a3 a4
  refine ⟨?_, ?_, ?_, ?_⟩ <;> simp only [valW] <;> norm_num <;> assumption

variable {D} in
theorem ok4_sound (hD0 : 0 < D) {e : ℕ} {w : W8 ℤ} (h : ok4 D e w = true) : Near4 (valW D e w) := by
  simp only [ok4, Bool.and_eq_true] at h
  obtain ⟨⟨⟨⟨⟨⟨⟨h1, h2⟩, h3⟩, h4⟩, h5⟩, h6⟩, h7⟩, h8⟩ := h
  have a5 := near_sound hD0 (by norm_num) h5
  have a6 := near_sound hD0 (by norm_num) h6
  have a7 := near_sound hD0 (by norm_num) h7
  have a8 := near_sound hD0 (by norm_num) h8
  norm_num at a5 a6 a7 a8
  refine ⟨ok3_sound hD0 (by simp only [ok3, h1, h2, h3, h4, Bool.and_self]), ?_, ?_, ?_, ?_⟩ <;>
    simp only [valW] <;> norm_num <;> assumption

theorem W8.smul_one (w : W8 ℝ) : w.smul 1 = w := by simp [W8.smul]

variable {D} in
/-- **The test is sound**: if it succeeds then the formula with the coefficients tested has
order four up to `10^-14` and the embedded formula has order three. -/
theorem formulaOk_sound (hD0 : 0 < D) (l : List ℤ) (a b be : ℕ → ℤ) (R : Gen.Formula ℝ)
    (be' : Fin 5 → ℝ) (hdeg : 1 ≤ R.deg)
    (h1 : ((l.getD 0 0 : ℤ) : ℝ) / D = R.mu 1)
    (hl : ∀ q < R.deg - 1, ((l.getD (2 * q + 1) 0 : ℤ) : ℝ) / D = R.mu (q + 2) ∧
        ((l.getD (2 * q + 2) 0 : ℤ) : ℝ) / D = R.kap (q + 2))
    (ha1 : (a 1 : ℝ) / D = R.a21) (ha2 : (a 2 : ℝ) / D = R.a31) (ha3 : (a 3 : ℝ) / D = R.a32)
    (ha4 : (a 4 : ℝ) / D = R.a41) (ha5 : (a 5 : ℝ) / D = R.a42) (ha6 : (a 6 : ℝ) / D = R.a43)
    (hb : ∀ j : Fin 4, (b (j + 1) : ℝ) / D = R.b j)
    (hbe : ∀ j : Fin 5, (be (j + 1) : ℝ) / D = be' j)
    (h : formulaOk D R.deg l a b be = true) : Near4 (wStep R) ∧ Near3 (wEmb R be') := by
  match l, h1, hl, h with
  | .ofNat M :: l, h1, hl, h =>
    have hD := (D_pos hD0).ne'
    have hM : (M : ℝ) / D = R.mu 1 := by simpa using h1
    have h' : recN D (fun e g => finW D a b be e (up g) fun y z =>
        ok4 D (e + 4) y && ok3 D (e + 5) z) (R.deg - 1) (0 + 1) D l ⟨0, 0, 0, 0, 0, 0, 0, 0⟩
        ⟨M, 0, 0, 0, 0, 0, 0, 0⟩ = true := h
    obtain ⟨G, hG, hw⟩ := recN_sound hD0 R.mu R.kap _ (R.deg - 1) 0 D l _ _ (by simp)
      (fun q hq => by
        have := hl q hq
        rw [List.getD_cons_succ, List.getD_cons_succ] at this
        rw [zero_add, add_comm 2 q]; exact this)
      (by simp [valN, valW, up, wRec, W8.zero])
      (by simp [valN, valW, up, wRec, W8.zero, W8.app, W8.smul, ← hM]) h'
    rw [show 0 + 1 + (R.deg - 1) = R.deg by omega] at hG hw
    simp only [finW, forceW_eq, Bool.and_eq_true] at hG
    obtain ⟨g4, g3⟩ := hG
    have k4 := ok4_sound hD0 g4
    have k3 := ok3_sound hD0 g3
    have hDD : ((D : ℤ) : ℝ) / D = 1 := by
      rw [Int.cast_natCast]; field_simp
    have l1 : ∀ m, 0 < m → valW D (R.deg + m) (lin D (R.deg + m) R.deg (D : ℤ) (up G))
        = wRec R.mu R.kap R.deg := by
      intro m hm
      rw [lin_val hD0 (by omega), hDD, W8.smul_one]; exact hw
    have a1 : ∀ m A, 0 < m → valW D (R.deg + m) (appl D (R.deg + m) R.deg A (up G))
        = (wRec R.mu R.kap R.deg).app.smul ((A : ℝ) / D) := by
      intro m A hm
      rw [appl_val hD0 (by omega)]; rw [← hw]; rfl
    have b0 := hb 0
    have b1 := hb 1
    have b2 := hb 2
    have b3 := hb 3
    have c0 := hbe 0
    have c1 := hbe 1
    have c2 := hbe 2
    have c3 := hbe 3
    have c4 := hbe 4
    norm_num at b0 b1 b2 b3 c0 c1 c2 c3 c4
    simp only [add_val, l1 _ (by norm_num : 0 < 5), l1 _ (by norm_num : 0 < 4),
      l1 _ (by norm_num : 0 < 3), l1 _ (by norm_num : 0 < 2), l1 _ (by norm_num : 0 < 1),
      a1 5 _ (by norm_num), a1 4 _ (by norm_num), a1 3 _ (by norm_num), a1 2 _ (by norm_num),
      a1 1 _ (by norm_num),
      appl_val hD0 (show R.deg + 1 < R.deg + 2 by omega),
      appl_val hD0 (show R.deg + 1 < R.deg + 3 by omega),
      appl_val hD0 (show R.deg + 1 < R.deg + 4 by omega),
      appl_val hD0 (show R.deg + 1 < R.deg + 5 by omega),
      appl_val hD0 (show R.deg + 2 < R.deg + 3 by omega),
      appl_val hD0 (show R.deg + 2 < R.deg + 4 by omega),
      appl_val hD0 (show R.deg + 2 < R.deg + 5 by omega),
      appl_val hD0 (show R.deg + 3 < R.deg + 4 by omega),
      appl_val hD0 (show R.deg + 3 < R.deg + 5 by omega),
      appl_val hD0 (show R.deg + 4 < R.deg + 5 by omega),
      ha1, ha2, ha3, ha4, ha5, ha6, b0, b1, b2, b3, c0, c1, c2, c3, c4] at k4 k3
    exact ⟨k4, k3⟩
  | [], _, _, h => exact absurd h (by simp [formulaOk])
  | .negSucc _ :: _, _, _, h => exact absurd h (by simp [formulaOk])

end Odes.Rock4Check
