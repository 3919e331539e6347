import Verif.Lemmas.Rock4Check

/-!
# Test of the stability of a tabulated formula: the computation

Natural numbers only.  The polynomial `q_m(t) = P_m(-t)` of the three-term recurrence has
alternating signs: `E^m q_m(t) = c_0 - c_1 t + c_2 t^2 - ...` with natural `c_i` (a negative
intermediate result is reported as failure).
-/

namespace Odes.StabCheck

open Rock4Check (nforce nforce_eq)

/-- a number and its remainder.  (The kernel hashes a literal by its 64 low bits, and the numbers
below are multiples of high powers of two.) -/
def enc (x : ℕ) : ℕ := Nat.add (Nat.mul x 18446744073709551616) (Nat.mod x 2305843009213693951)

def dec (x : ℕ) : ℕ := Nat.div x 18446744073709551616

theorem dec_enc (x : ℕ) : dec (enc x) = x := by
  show (x * 18446744073709551616 + x % 2305843009213693951) / 18446744073709551616 = x
  omega

/-- evaluate, then continue. -/
noncomputable def kforce {β : Type} (x : ℕ) (k : ℕ → β) : β := nforce (enc x) fun y => k (dec y)

theorem kforce_eq {β : Type} (x : ℕ) (k : ℕ → β) : kforce x k = k x := by
  rw [kforce, nforce_eq, dec_enc]

/-- one step of the recurrence on the coefficients:
`K a_i + M a_{i-1} - B b_i`. -/
noncomputable def nx (K M B : ℕ) (a : List ℕ) : ℕ → List ℕ → (List ℕ → Bool) → Bool :=
  List.rec (fun prev _ k => kforce (Nat.mul M prev) fun x => k [x])
    (fun a _ ih prev b k =>
      match b with
      | [] => kforce (Nat.add (Nat.mul K a) (Nat.mul M prev)) fun x => ih a [] fun r => k (x :: r)
      | b :: bs =>
        kforce (Nat.add (Nat.mul K a) (Nat.mul M prev)) fun x =>
        kforce (Nat.mul B b) fun y =>
          Bool.rec false (kforce (Nat.sub x y) fun z => ih a bs fun r => k (z :: r)) (Nat.ble y x)) a

/-- the recurrence over `l = mu_2, kappa_2, mu_3, ...` with `m` steps left. -/
noncomputable def rec (E : ℕ) (k : List ℕ → Bool) (m : ℕ) : List ℤ → List ℕ → List ℕ → Bool :=
  Nat.rec (fun _ _ a => k a)
    (fun _ ih l b a =>
      match l with
      | .ofNat M :: .ofNat K :: l' =>
        kforce (Nat.add E K) fun K1 => kforce (Nat.mul E K) fun B =>
          nx K1 M B a 0 b fun c => ih l' a c
      | _ => false) m

/-- `c_i D^(n-i)`, separated in even and odd indices. -/
noncomputable def spl (D : ℕ) (l : List ℕ) : ℕ → (List ℕ → List ℕ → Bool) → Bool :=
  List.rec (fun _ k => k [] [])
    (fun c _ ih n k => kforce (Nat.mul c (Nat.pow D n)) fun x => ih (Nat.pred n) fun e o => k (x :: o) e) l

/-- Horner -/
noncomputable def hor (q : ℕ) (l : List ℕ) : ℕ :=
  List.rec 0 (fun c _ ih => Nat.add c (Nat.mul q ih)) l

/-- a point and the value there: `t = p/D`, `q(t) = ± g/S`. -/
structure V where
  p : ℕ
  s : Bool
  g : ℕ

/-- values at the points, given in decreasing order; the result is in increasing order. -/
noncomputable def evals (e o : List ℕ) (k : List V → Bool) (l : List ℕ) : List V → Bool :=
  List.rec (fun acc => k acc)
    (fun p _ ih acc =>
      Bool.rec
        (kforce (Nat.sub (Nat.mul p (hor (Nat.mul p p) o)) (hor (Nat.mul p p) e)) fun g =>
          ih (⟨p, false, g⟩ :: acc))
        (kforce (Nat.sub (hor (Nat.mul p p) e) (Nat.mul p (hor (Nat.mul p p) o))) fun g =>
          ih (⟨p, true, g⟩ :: acc))
        (Nat.ble (Nat.mul p (hor (Nat.mul p p) o)) (hor (Nat.mul p p) e))) l

/-- `b && r`, `r` not evaluated if `b` is false (a constant, to limit the depth of the recursion
of the kernel). -/
noncomputable def guard (b r : Bool) : Bool := Bool.rec false r b

/-- `n + 1` or `n` -/
noncomputable def bump (b : Bool) (n : ℕ) : ℕ := Bool.rec n (Nat.succ n) b

/-- number of sign changes in `x :: l`. -/
noncomputable def count (l : List V) : V → ℕ :=
  List.rec (fun _ => 0)
    (fun y _ ih x => bump (Bool.xor x.s y.s) (ih y)) l

/-- `|x - y|` -/
def dist (x y : ℕ) : ℕ := Nat.add (Nat.sub x y) (Nat.sub y x)

/-- bound of `|1 - c_1 t + c_2 t^2 - c_3 t^3 + c_4 t^4|`, times `1000 c_0 (2D)^4`, between `b/D` and
`c/D`: Taylor at the midpoint `U/(2D)`, `R` half the width in the same unit. -/
def wbound (D c0 c1 c2 c3 c4 b c : ℕ) : ℕ :=
  let V := 2 * D
  let U := b + c
  let R := c - b
  1000 * (dist (c0 * V ^ 4 + c2 * U ^ 2 * V ^ 2 + c4 * U ^ 4) (c1 * U * V ^ 3 + c3 * U ^ 3 * V)
    + R * dist (c1 * V ^ 3 + 3 * c3 * U ^ 2 * V) (2 * c2 * U * V ^ 2 + 4 * c4 * U ^ 3)
    + R ^ 2 * dist (c2 * V ^ 2 + 6 * c4 * U ^ 2) (3 * c3 * U * V)
    + R ^ 3 * dist (4 * c4 * U) (c3 * V)
    + R ^ 4 * c4)

/-- test of the cell between `b` and `c`, with neighbours `a` and `d`; `W/T` bounds `|w|`. -/
def cell (S W T : ℕ) (a b c d : V) : Bool :=
  bif Bool.xor b.s c.s then
    !(Bool.xor a.s b.s) && !(Bool.xor c.s d.s) && Nat.ble b.g a.g && Nat.ble c.g d.g
      && Nat.ble (b.g * W) (S * T) && Nat.ble (c.g * W) (S * T)
  else
    (!(Bool.xor a.s b.s) && Nat.ble b.g a.g && Nat.ble (b.g * W) (S * T))
    || (!(Bool.xor a.s b.s) && Nat.ble (c.p + a.p) (b.p + b.p) && Nat.ble (b.g * b.g * W) (S * T * a.g)
        && Nat.ble (b.g * W) (S * T))
    || (!(Bool.xor c.s d.s) && Nat.ble c.g d.g && Nat.ble (c.g * W) (S * T))
    || (!(Bool.xor c.s d.s) && Nat.ble (c.p + c.p) (d.p + b.p) && Nat.ble (c.g * c.g * W) (S * T * d.g)
        && Nat.ble (c.g * W) (S * T))

/-- test of the cells of `a :: b :: c :: l` which begin at `b` or later and before `L/D`. -/
noncomputable def cells (S T L : ℕ) (wb : ℕ → ℕ → ℕ) (l : List V) : V → V → V → Bool :=
  List.rec (fun _ _ _ => false)
    (fun d _ ih a b c =>
      Bool.rec (kforce (wb b.p c.p) fun W => guard (cell S W T a b c d) (ih b c d)) true
        (Nat.ble L b.p)) l

/-- `x :: l` increasing, no zero. -/
noncomputable def sorted (l : List V) : V → Bool :=
  List.rec (fun x => Nat.blt 0 x.g)
    (fun y _ ih x => guard (Nat.blt x.p y.p) (guard (Nat.blt 0 x.g) (ih y))) l

/-- the values pass: first point `0`, `m` sign changes, first cell (which ends at `t = 1` or
before), cells. -/
noncomputable def valsOk (D S m L β c0 c1 c2 c3 c4 : ℕ) (l : List V) : Bool :=
  match l with
  | x :: y :: z :: l =>
    Nat.beq x.p 0 && x.s && y.s && sorted (y :: z :: l) x && Nat.beq (count (y :: z :: l) x) m
      && Nat.ble (c2 * y.p * D ^ 2 + c4 * y.p ^ 3) (c1 * D ^ 3)
      && Nat.ble (c1 * y.p * D ^ 2 + c3 * y.p ^ 3) (2 * c0 * D ^ 3)
      && Nat.ble y.p D
      && cells S (c0 * (2 * D) ^ 4 * β) L (wbound D c0 c1 c2 c3 c4) l x y z
  | _ => false

/-- `z` as a natural number, evaluated; failure if it is negative. -/
noncomputable def pos (z : ℤ) (k : ℕ → Bool) : Bool :=
  match z with
  | .ofNat x => kforce x k
  | _ => false

/-- the coefficients of `w`, times `E^4`. -/
noncomputable def wcoef (E : ℕ) (a b : ℕ → ℤ) (k : ℕ → ℕ → ℕ → ℕ → ℕ → Bool) : Bool :=
  kforce (Nat.pow E 4) fun c0 =>
  pos ((b 1 + b 2 + b 3 + b 4) * (E : ℤ) ^ 3) fun c1 =>
  pos ((a 1 * b 2 + (a 2 + a 3) * b 3 + (a 4 + a 5 + a 6) * b 4) * (E : ℤ) ^ 2) fun c2 =>
  pos ((a 1 * a 3 * b 3 + a 1 * a 5 * b 4 + (a 2 + a 3) * a 6 * b 4) * (E : ℤ)) fun c3 =>
  pos (a 1 * a 3 * a 6 * b 4) fun c4 =>
    k c0 c1 c2 c3 c4

/-- the test of one formula: degree `m`, coefficients `mu`, `kappa`, `a`, `b` with denominator
`E`, points with denominator `D` in decreasing order, test of the bound 1 on the
first cell and `β/1000` up to `t = L/D`. -/
noncomputable def formulaStable (E D : ℕ) (m : ℕ) (l : List ℤ) (a b : ℕ → ℤ) (L β : ℕ) (pts : List ℕ) :
    Bool :=
  match l with
  | .ofNat M :: l =>
    wcoef E a b fun c0 c1 c2 c3 c4 =>
    kforce (Nat.pow (Nat.mul E D) m) fun S =>
    rec E (fun c => spl D c m fun e o => evals e o (valsOk D S m L β c0 c1 c2 c3 c4) pts [])
      (m - 1) l [1] [E, M]
  | _ => false

end Odes.StabCheck
