import Verif.Props.RadauConsts
import Verif.Lemmas.RadauExact
import Mathlib.LinearAlgebra.Matrix.ToLin
import Mathlib.LinearAlgebra.FiniteDimensional.Lemmas

/-! C34: the simplified Newton iteration of Radau5 on linear systems, in exact arithmetic. -/

namespace Odes.Spec

/-- `Z` are the stage increments of the Runge-Kutta method with matrix `A` and nodes `c` for
`y' = f(x,y)`, step `h` from `(x, Y)`: `Z i = h Σⱼ aᵢⱼ f(x + cⱼ h, Y + Z j)`. -/
def RKStages {K : Type} [Field K] {s n : ℕ} (A : Matrix (Fin s) (Fin s) K) (c : Fin s → K)
    (f : K → (Fin n → K) → (Fin n → K)) (x h : K) (Y : Fin n → K) (Z : Fin s → Fin n → K) : Prop :=
  ∀ i k, Z i k = h * ∑ j, A i j * f (x + c j * h) (fun l => Y l + Z j l) k

end Odes.Spec

namespace Odes.Radau

open Spec Matrix

section field

variable {K : Type} [Field K] {n : ℕ}

/-- three vectors as the rows of a matrix. -/
def Tri.mat (t : Tri K n) : Matrix (Fin 3) (Fin n) K := of ![t.v1, t.v2, t.v3]

/-- contract of the linear algebra of Matrices.hpp: `R J s` = the object `s` holds the matrix `J`;
`decomr`, `decomc` succeed only with factors with which the solvers solve the systems. -/
structure LinSpec (L : Lin K n) (Shape : Matrix (Fin n) (Fin n) K → Prop) where
  R : Matrix (Fin n) (Fin n) K → L.σ → Prop
  /-- the factors held by the object are those of `fac*I - J` and `(a+ib)*I - J` -/
  real : K → Matrix (Fin n) (Fin n) K → L.σ → Prop
  cplx : K → K → Matrix (Fin n) (Fin n) K → L.σ → Prop
  load : ∀ J s, Shape J → R J (L.load J s)
  decomr : ∀ J s fac s', R J s → L.decomr fac s = some s' → R J s' ∧ real fac J s'
  decomc : ∀ J s a b s' fac, R J s → real fac J s → L.decomc a b s = some s' →
    R J s' ∧ real fac J s' ∧ cplx a b J s'
  solvereal : ∀ J fac s r, real fac J s → (fac • (1 : Matrix (Fin n) (Fin n) K) - J).mulVec
    (L.solvereal s r) = r
  solvecomplex : ∀ J a b s r2 r3, cplx a b J s →
    (a • (1 : Matrix (Fin n) (Fin n) K) - J).mulVec (L.solvecomplex s r2 r3).1
      - b • (L.solvecomplex s r2 r3).2 = r2 ∧
    (a • (1 : Matrix (Fin n) (Fin n) K) - J).mulVec (L.solvecomplex s r2 r3).2
      + b • (L.solvecomplex s r2 r3).1 = r3

theorem back_mat (c : Consts K) (F : Tri K n) : (back c F).mat = Tm c * F.mat := by
  ext i k
  rw [mul_apply, Fin.sum_univ_three]
  fin_cases i <;> simp [Tri.mat, back, Tm]

theorem forth_mat (c : Consts K) (F : Tri K n) : (forth c F).mat = TIm c * F.mat := by
  ext i k
  rw [mul_apply, Fin.sum_univ_three]
  fin_cases i <;> simp [Tri.mat, forth, TIm]

theorem addTri_mat (F Z : Tri K n) : (addTri F Z).mat = F.mat + Z.mat := by
  ext i k
  rw [Matrix.add_apply]
  fin_cases i <;> simp [Tri.mat, addTri]

/-- right hand side at the three stages. -/
def stageF (P : Prob K n) (c : Consts K) (x xph h : K) (Y : Fin n → K) (Z : Tri K n) :
    Matrix (Fin 3) (Fin n) K :=
  of ![P.F (x + c.C1 * h) (fun i => Y i + Z.v1 i), P.F (x + c.C2 * h) (fun i => Y i + Z.v2 i),
    P.F xph (fun i => Y i + Z.v3 i)]

/-- the increments solve the transformed Newton system. -/
theorem increment_solves {L : Lin K n} {Shape : Matrix (Fin n) (Fin n) K → Prop}
    (S : LinSpec L Shape) {P : Prob K n} {c : Consts K} {x xph h : K} {Y : Fin n → K} {s s' : L.σ}
    {J : Matrix (Fin n) (Fin n) K} (hR : S.R J s) (hd : newtonMatrices L c h s = some s')
    (Z F : Tri K n) :
    (1 / h) • (Lam c * (increment L P c x xph h Y s' Z F).mat)
        - (increment L P c x xph h Y s' Z F).mat * Jᵀ
      = TIm c * stageF P c x xph h Y Z - (1 / h) • (Lam c * F.mat) := by
  have hd' : ∃ s1, L.decomr (c.U1 / h) s = some s1 ∧ L.decomc (c.ALPH / h) (c.BETA / h) s1
      = some s' := by
    unfold newtonMatrices at hd
    cases e : L.decomr (c.U1 / h) s with
    | none => rw [e] at hd; simp at hd
    | some s1 => rw [e] at hd; exact ⟨s1, rfl, hd⟩
  obtain ⟨s1, h1, h2⟩ := hd'
  obtain ⟨hR1, hr1⟩ := S.decomr _ _ _ _ hR h1
  obtain ⟨_, hr, hc⟩ := S.decomc _ _ _ _ _ _ hR1 hr1 h2
  have k1 := fun r => S.solvereal J _ s' r hr
  have k2 := fun r2 r3 => (S.solvecomplex J _ _ s' r2 r3 hc).1
  have k3 := fun r2 r3 => (S.solvecomplex J _ _ s' r2 r3 hc).2
  unfold increment slvrad
  dsimp only
  ext i k
  fin_cases i
  · have := congrFun (k1 (fun i => c.TI11 * P.F (x + c.C1 * h) (fun i => Y i + Z.v1 i) i
      + c.TI12 * P.F (x + c.C2 * h) (fun i => Y i + Z.v2 i) i
      + c.TI13 * P.F xph (fun i => Y i + Z.v3 i) i - c.U1 / h * F.v1 i)) k
    generalize L.solvereal s' _ = w1 at this ⊢
    generalize (L.solvecomplex s' _ _) = w at this ⊢
    simp [sub_mulVec, smul_mulVec] at this
    simp [vecMul_transpose, Fin.sum_univ_three, Tri.mat, Lam, TIm, stageF]
    linear_combination this
  · have := congrFun (k2 (fun i => c.TI21 * P.F (x + c.C1 * h) (fun i => Y i + Z.v1 i) i
      + c.TI22 * P.F (x + c.C2 * h) (fun i => Y i + Z.v2 i) i
      + c.TI23 * P.F xph (fun i => Y i + Z.v3 i) i
        + (-(F.v2 i) * (c.ALPH / h) - -(F.v3 i) * (c.BETA / h)))
      (fun i => c.TI31 * P.F (x + c.C1 * h) (fun i => Y i + Z.v1 i) i
      + c.TI32 * P.F (x + c.C2 * h) (fun i => Y i + Z.v2 i) i
      + c.TI33 * P.F xph (fun i => Y i + Z.v3 i) i
        + -(F.v3 i) * (c.ALPH / h) + -(F.v2 i) * (c.BETA / h))) k
    generalize L.solvereal s' _ = w1 at this ⊢
    generalize (L.solvecomplex s' _ _) = w at this ⊢
    simp [sub_mulVec, smul_mulVec] at this
    simp [vecMul_transpose, Fin.sum_univ_three, Tri.mat, Lam, TIm, stageF]
    linear_combination this
  · have := congrFun (k3 (fun i => c.TI21 * P.F (x + c.C1 * h) (fun i => Y i + Z.v1 i) i
      + c.TI22 * P.F (x + c.C2 * h) (fun i => Y i + Z.v2 i) i
      + c.TI23 * P.F xph (fun i => Y i + Z.v3 i) i
        + (-(F.v2 i) * (c.ALPH / h) - -(F.v3 i) * (c.BETA / h)))
      (fun i => c.TI31 * P.F (x + c.C1 * h) (fun i => Y i + Z.v1 i) i
      + c.TI32 * P.F (x + c.C2 * h) (fun i => Y i + Z.v2 i) i
      + c.TI33 * P.F xph (fun i => Y i + Z.v3 i) i
        + -(F.v3 i) * (c.ALPH / h) + -(F.v2 i) * (c.BETA / h))) k
    generalize L.solvereal s' _ = w1 at this ⊢
    generalize (L.solvecomplex s' _ _) = w at this ⊢
    simp [sub_mulVec, smul_mulVec] at this
    simp [vecMul_transpose, Fin.sum_univ_three, Tri.mat, Lam, TIm, stageF]
    linear_combination this

/-- change of the right hand side at the stages, for a linear system. -/
theorem stageF_linear {P : Prob K n} {J : Matrix (Fin n) (Fin n) K} {g : K → Fin n → K}
    (hF : ∀ x y, P.F x y = J.mulVec y + g x) (c : Consts K) (x xph h : K) (Y : Fin n → K)
    (Z Z' : Tri K n) :
    stageF P c x xph h Y Z' = stageF P c x xph h Y Z + (Z'.mat - Z.mat) * Jᵀ := by
  ext i k
  rw [Matrix.add_apply, mul_apply]
  have e : ∀ u v : Fin n → K, ∀ t, P.F t (fun i => Y i + v i) k = P.F t (fun i => Y i + u i) k
      + ∑ j, (v j - u j) * J k j := by
    intro u v t
    rw [hF, hF]
    simp only [Pi.add_apply, mulVec, dotProduct]
    have : ∑ j, J k j * (Y j + v j) = ∑ j, J k j * (Y j + u j) + ∑ j, (v j - u j) * J k j := by
      rw [← Finset.sum_add_distrib]
      exact Finset.sum_congr rfl fun j _ => by ring
    rw [this]; ring
  fin_cases i
  · simpa [stageF, Tri.mat] using e Z.v1 Z'.v1 _
  · simpa [stageF, Tri.mat] using e Z.v2 Z'.v2 _
  · simpa [stageF, Tri.mat] using e Z.v3 Z'.v3 _

/-- one Newton iteration (Radau5cc.hpp 187-221) from the starting values `Z`, with the transformed
variables as set in 530-532 or kept from the previous iteration. -/
def newtonOnce (L : Lin K n) (P : Prob K n) (c : Consts K) (x xph h : K) (Y : Fin n → K) (s : L.σ)
    (Z F : Tri K n) : Tri K n := back c (addTri F (increment L P c x xph h Y s Z F))

/-- constants with which the transformation is exact, for the Runge-Kutta matrix `A`. -/
structure Exact (c : Consts K) (A : Matrix (Fin 3) (Fin 3) K) : Prop where
  inv : Tm c * TIm c = 1
  diag : Tm c * Lam c * TIm c * A = 1

theorem newton_transformed {L : Lin K n} {Shape : Matrix (Fin n) (Fin n) K → Prop}
    (S : LinSpec L Shape) {P : Prob K n} {c : Consts K} {x xph h : K} {Y : Fin n → K} {s s' : L.σ}
    {J : Matrix (Fin n) (Fin n) K} {g : K → Fin n → K} (hF : ∀ x y, P.F x y = J.mulVec y + g x)
    (hR : S.R J s) (hd : newtonMatrices L c h s = some s') (hT : TIm c * Tm c = 1)
    (Z F : Tri K n) (hZ : F.mat = TIm c * Z.mat) :
    TIm c * stageF P c x xph h Y (newtonOnce L P c x xph h Y s' Z F) =
      (1 / h) • (Lam c * (addTri F (increment L P c x xph h Y s' Z F)).mat) := by
  have k := increment_solves S (P := P) (x := x) (xph := xph) (Y := Y) hR hd Z F
  rw [stageF_linear hF c x xph h Y Z]
  unfold newtonOnce
  rw [back_mat, addTri_mat]
  generalize (increment L P c x xph h Y s' Z F).mat = D at *
  generalize stageF P c x xph h Y Z = Φ at *
  have e : TIm c * (Φ + (Tm c * (F.mat + D) - Z.mat) * Jᵀ) = TIm c * Φ + D * Jᵀ := by
    rw [Matrix.mul_add, ← Matrix.mul_assoc (TIm c), Matrix.mul_sub, ← Matrix.mul_assoc (TIm c), hT,
      Matrix.one_mul, hZ, add_sub_cancel_left]
  rw [e, Matrix.mul_add, smul_add]
  rw [sub_eq_iff_eq_add] at k
  rw [k]
  abel

/-- C34: for `y' = J y + g(x)` with the exact Jacobian, one iteration from any starting values gives
the stages of the Runge-Kutta method. -/
theorem radau_newton_linear {L : Lin K n} {Shape : Matrix (Fin n) (Fin n) K → Prop}
    (S : LinSpec L Shape) {P : Prob K n} {c : Consts K} {A : Matrix (Fin 3) (Fin 3) K}
    (hc : Exact c A) {x h : K} (hh : h ≠ 0) {Y : Fin n → K} {s s' : L.σ}
    {J : Matrix (Fin n) (Fin n) K} {g : K → Fin n → K} (hF : ∀ x y, P.F x y = J.mulVec y + g x)
    (hR : S.R J s) (hd : newtonMatrices L c h s = some s') (Z : Tri K n) :
    RKStages A ![c.C1, c.C2, 1] P.F x h Y
      (newtonOnce L P c x (x + h) h Y s' Z (forth c Z)).mat := by
  have hT : TIm c * Tm c = 1 := mul_eq_one_comm.1 hc.inv
  have k := newton_transformed S hF (x := x) (xph := x + h) (Y := Y) hR hd hT Z (forth c Z)
    (forth_mat c Z)
  have kz : (newtonOnce L P c x (x + h) h Y s' Z (forth c Z)).mat
      = Tm c * (addTri (forth c Z) (increment L P c x (x + h) h Y s' Z (forth c Z))).mat := by
    unfold newtonOnce; rw [back_mat]
  generalize newtonOnce L P c x (x + h) h Y s' Z (forth c Z) = Z' at *
  generalize (addTri (forth c Z) (increment L P c x (x + h) h Y s' Z (forth c Z))).mat = F' at *
  have hA : A * (Tm c * Lam c * TIm c) = 1 := mul_eq_one_comm.1 hc.diag
  have e : Z'.mat = h • (A * stageF P c x (x + h) h Y Z') := by
    have k2 := congrArg (fun M => h • (A * (Tm c * M))) k
    rw [← Matrix.mul_assoc (Tm c) (TIm c), hc.inv, Matrix.one_mul, Matrix.mul_smul, Matrix.mul_smul,
      smul_smul, mul_one_div_cancel hh, one_smul] at k2
    rw [k2]
    have k3 : F' = TIm c * Z'.mat := by rw [kz, ← Matrix.mul_assoc, hT, Matrix.one_mul]
    rw [k3, ← Matrix.mul_assoc (Lam c), ← Matrix.mul_assoc (Tm c), ← Matrix.mul_assoc (Tm c),
      ← Matrix.mul_assoc A, hA, Matrix.one_mul]
  intro i k
  have e1 := congrFun (congrFun e i) k
  refine e1.trans ?_
  rw [Matrix.smul_apply, mul_apply, smul_eq_mul]
  refine congrArg (h * ·) ?_
  rw [Fin.sum_univ_three, Fin.sum_univ_three]
  simp [stageF, Tri.mat]

/-- and the increments of a second iteration are zero. -/
theorem radau_newton_stops {L : Lin K n} {Shape : Matrix (Fin n) (Fin n) K → Prop}
    (S : LinSpec L Shape) {P : Prob K n} {c : Consts K} {A : Matrix (Fin 3) (Fin 3) K}
    (hc : Exact c A) {x h : K} {Y : Fin n → K} {s s' : L.σ}
    {J : Matrix (Fin n) (Fin n) K} {g : K → Fin n → K} (hF : ∀ x y, P.F x y = J.mulVec y + g x)
    (hR : S.R J s) (hd : newtonMatrices L c h s = some s') (Z F1 Z1 D : Tri K n)
    (hF1 : F1 = addTri (forth c Z) (increment L P c x (x + h) h Y s' Z (forth c Z)))
    (hZ1 : Z1 = back c F1) (hD : D = increment L P c x (x + h) h Y s' Z1 F1) :
    D.v1 = 0 ∧ D.v2 = 0 ∧ D.v3 = 0 := by
  have hT : TIm c * Tm c = 1 := mul_eq_one_comm.1 hc.inv
  have k := newton_transformed S hF (x := x) (xph := x + h) (Y := Y) hR hd hT Z (forth c Z)
    (forth_mat c Z)
  have hZ1' : newtonOnce L P c x (x + h) h Y s' Z (forth c Z) = Z1 := by
    rw [hZ1, hF1]; rfl
  rw [hZ1', ← hF1] at k
  have k2 := increment_solves S (P := P) (x := x) (xph := x + h) (Y := Y) hR hd Z1 F1
  rw [k, sub_self, ← hD] at k2
  obtain ⟨s1, h1, h2⟩ : ∃ s1, L.decomr (c.U1 / h) s = some s1 ∧ L.decomc (c.ALPH / h) (c.BETA / h) s1
      = some s' := by
    unfold newtonMatrices at hd
    cases e : L.decomr (c.U1 / h) s with
    | none => rw [e] at hd; simp at hd
    | some s1 => rw [e] at hd; exact ⟨s1, rfl, hd⟩
  obtain ⟨hR1, hr1⟩ := S.decomr _ _ _ _ hR h1
  obtain ⟨_, hr, hcx⟩ := S.decomc _ _ _ _ _ _ hR1 hr1 h2
  have r0 : ∀ k, c.U1 / h * D.v1 k - (J.mulVec D.v1) k = 0 := by
    intro k
    have := congrFun (congrFun k2 0) k
    simp [vecMul_transpose, Fin.sum_univ_three, Tri.mat, Lam] at this
    linear_combination this
  have r1 : ∀ k, c.ALPH / h * D.v2 k - c.BETA / h * D.v3 k - (J.mulVec D.v2) k = 0 := by
    intro k
    have := congrFun (congrFun k2 1) k
    simp [vecMul_transpose, Fin.sum_univ_three, Tri.mat, Lam] at this
    linear_combination this
  have r2 : ∀ k, c.ALPH / h * D.v3 k + c.BETA / h * D.v2 k - (J.mulVec D.v3) k = 0 := by
    intro k
    have := congrFun (congrFun k2 2) k
    simp [vecMul_transpose, Fin.sum_univ_three, Tri.mat, Lam] at this
    linear_combination this
  constructor
  · let f : (Fin n → K) →ₗ[K] (Fin n → K) :=
      Matrix.mulVecLin ((c.U1 / h) • (1 : Matrix (Fin n) (Fin n) K) - J)
    have hs : Function.Surjective f := fun r => ⟨L.solvereal s' r, S.solvereal J _ s' r hr⟩
    apply LinearMap.injective_iff_surjective.2 hs
    rw [map_zero]
    funext k
    show (((c.U1 / h) • (1 : Matrix (Fin n) (Fin n) K) - J).mulVec D.v1) k = 0
    simp [sub_mulVec, smul_mulVec]
    exact r0 k
  · let M : (Fin n → K) →ₗ[K] (Fin n → K) :=
      Matrix.mulVecLin ((c.ALPH / h) • (1 : Matrix (Fin n) (Fin n) K) - J)
    let f : ((Fin n → K) × (Fin n → K)) →ₗ[K] ((Fin n → K) × (Fin n → K)) :=
      LinearMap.prod (M ∘ₗ LinearMap.fst K _ _ - (c.BETA / h) • LinearMap.snd K _ _)
        (M ∘ₗ LinearMap.snd K _ _ + (c.BETA / h) • LinearMap.fst K _ _)
    have hs : Function.Surjective f := by
      rintro ⟨q2, q3⟩
      refine ⟨L.solvecomplex s' q2 q3, ?_⟩
      have := S.solvecomplex J _ _ s' q2 q3 hcx
      exact Prod.ext this.1 this.2
    have h0 : (D.v2, D.v3) = (0 : (Fin n → K) × (Fin n → K)) := by
      apply LinearMap.injective_iff_surjective.2 hs
      rw [map_zero]
      refine Prod.ext ?_ ?_
      · funext k
        show (((c.ALPH / h) • (1 : Matrix (Fin n) (Fin n) K) - J).mulVec D.v2) k
          - c.BETA / h * D.v3 k = 0
        simp [sub_mulVec, smul_mulVec]
        linear_combination r1 k
      · funext k
        show (((c.ALPH / h) • (1 : Matrix (Fin n) (Fin n) K) - J).mulVec D.v3) k
          + c.BETA / h * D.v2 k = 0
        simp [sub_mulVec, smul_mulVec]
        linear_combination r2 k
    exact ⟨congrArg Prod.fst h0, congrArg Prod.snd h0⟩

end field

/-- the exact constants exist: the matrices `T`, `TI` which the printed ones approximate. -/
theorem radau_exact_constants {A : Matrix (Fin 3) (Fin 3) ℝ} (hA : Collocation nodes A) :
    ∃ c : Consts ℝ, Exact c A ∧ c.C1 = consts.C1 ∧ c.C2 = consts.C2 ∧ c.U1 = consts.U1 ∧
      c.ALPH = consts.ALPH ∧ c.BETA = consts.BETA := by
  obtain ⟨c, h1, h2, h3, h4, h5, h6, h7⟩ := exact_T
  refine ⟨c, ⟨h6, ?_⟩, h1, h2, h3, h4, h5⟩
  rw [h7, radauA_unique hA, ← radauA_mul_inv]
  exact (mul_eq_one_comm.1 radauA_mul_inv).trans radauA_mul_inv.symm

section printed

variable {n : ℕ}

theorem mul_bound {m k : ℕ} {M : Matrix (Fin 3) (Fin m) ℝ} {N : Matrix (Fin m) (Fin k) ℝ} {a b : ℝ}
    (hM : ∀ i, ∑ j, |M i j| ≤ a) (hN : ∀ i j, |N i j| ≤ b) (hb : 0 ≤ b) (i : Fin 3) (j : Fin k) :
    |(M * N) i j| ≤ a * b := by
  rw [mul_apply]
  refine (Finset.abs_sum_le_sum_abs _ _).trans ?_
  refine le_trans (b := ∑ l, |M i l| * b) (Finset.sum_le_sum fun l _ => ?_) ?_
  · rw [abs_mul]
    exact mul_le_mul_of_nonneg_left (hN _ _) (abs_nonneg _)
  · rw [← Finset.sum_mul]
    exact mul_le_mul_of_nonneg_right (hM i) hb

/-- C34 with the printed constants: the residual of the stage equations `A⁻¹ Z = h F(Y + Z)` after
one iteration, relative to the transformed stages `W` (bounded by `w`), the Jacobian (row sums
bounded by `N`) and the right hand side (bounded by `φ`), is below the rounding of the constants. -/
theorem radau_newton_printed {L : Lin ℝ n} {Shape : Matrix (Fin n) (Fin n) ℝ → Prop}
    (S : LinSpec L Shape) {P : Prob ℝ n} {A : Matrix (Fin 3) (Fin 3) ℝ} (hA : Collocation nodes A)
    {x h : ℝ} (hh : h ≠ 0) {Y : Fin n → ℝ} {s s' : L.σ} {J : Matrix (Fin n) (Fin n) ℝ}
    {g : ℝ → Fin n → ℝ} (hF : ∀ x y, P.F x y = J.mulVec y + g x)
    (hR : S.R J s) (hd : newtonMatrices L consts h s = some s') (Z W Z' : Tri ℝ n)
    (hW : W = addTri (forth consts Z) (increment L P consts x (x + h) h Y s' Z (forth consts Z)))
    (hZ' : Z' = back consts W) {w N φ : ℝ} (hw : ∀ b k, |W.mat b k| ≤ w)
    (hN : ∀ k, ∑ j, |J k j| ≤ N) (hφ : ∀ b k, |stageF P consts x (x + h) h Y Z' b k| ≤ φ)
    (i : Fin 3) (k : Fin n) :
    |(A⁻¹ * Z'.mat) i k - h * stageF P consts x (x + h) h Y Z' i k|
      ≤ 1e-18 * (w + |h| * N * w + |h| * φ) := by
  have tr := radau_transformation hA
  have key : TIm consts * stageF P consts x (x + h) h Y Z' = (1 / h) • (Lam consts * W.mat)
      + (TIm consts * Tm consts - 1) * (W.mat * Jᵀ) := by
    have k := increment_solves S (P := P) (x := x) (xph := x + h) (Y := Y) hR hd Z (forth consts Z)
    rw [stageF_linear hF consts x (x + h) h Y Z Z', hZ', back_mat, hW, addTri_mat]
    rw [forth_mat] at *
    generalize (increment L P consts x (x + h) h Y s' Z (forth consts Z)).mat = D at *
    generalize stageF P consts x (x + h) h Y Z = Φ at *
    rw [sub_eq_iff_eq_add] at k
    rw [Matrix.mul_add (Lam consts), smul_add, k]
    simp only [Matrix.mul_add, Matrix.mul_sub, Matrix.sub_mul, Matrix.add_mul, Matrix.mul_assoc,
      Matrix.one_mul]
    abel
  have kz : Z'.mat = Tm consts * W.mat := by rw [hZ', back_mat]
  generalize stageF P consts x (x + h) h Y Z' = Φ at *
  have id1 : A⁻¹ * Z'.mat - h • Φ = (A⁻¹ * Tm consts - Tm consts * Lam consts) * W.mat
      - h • (Tm consts * ((TIm consts * Tm consts - 1) * (W.mat * Jᵀ)))
      + h • ((Tm consts * TIm consts - 1) * Φ) := by
    have e : h • (Tm consts * (TIm consts * Φ)) = Tm consts * (Lam consts * W.mat)
        + h • (Tm consts * ((TIm consts * Tm consts - 1) * (W.mat * Jᵀ))) := by
      rw [key, Matrix.mul_add, Matrix.mul_smul, smul_add, smul_smul, mul_one_div_cancel hh, one_smul]
    rw [Matrix.sub_mul (Tm consts * TIm consts), Matrix.mul_assoc (Tm consts) (TIm consts), smul_sub,
      e, kz, Matrix.sub_mul, Matrix.one_mul, Matrix.mul_assoc, Matrix.mul_assoc (Tm consts) (Lam consts)]
    abel
  have hw0 : 0 ≤ w := (abs_nonneg _).trans (hw i k)
  have hN0 : 0 ≤ N := (Finset.sum_nonneg fun j _ => abs_nonneg _).trans (hN k)
  have hφ0 : 0 ≤ φ := (abs_nonneg _).trans (hφ i k)
  have row : ∀ M : Matrix (Fin 3) (Fin 3) ℝ, (∀ a b, |M a b| ≤ 1e-19) → ∀ a, ∑ b, |M a b| ≤ 3e-19 := by
    intro M hM a
    rw [Fin.sum_univ_three]
    have := hM a 0
    have := hM a 1
    have := hM a 2
    linarith
  have b1 := mul_bound (row _ fun a b => (tr a b).2.2.1) hw hw0 i k
  have b2 : ∀ a b, |(W.mat * Jᵀ) a b| ≤ N * w := by
    intro a b
    rw [mul_apply]
    refine (Finset.abs_sum_le_sum_abs _ _).trans ?_
    refine le_trans (b := ∑ l, |J b l| * w) (Finset.sum_le_sum fun l _ => ?_) ?_
    · rw [abs_mul, mul_comm]
      exact mul_le_mul_of_nonneg_left (hw _ _) (abs_nonneg _)
    · rw [← Finset.sum_mul]
      exact mul_le_mul_of_nonneg_right (hN b) hw0
  have b3 := mul_bound (row _ fun a b => (tr a b).2.1) b2 (mul_nonneg hN0 hw0)
  have hTrow : ∀ a, ∑ b, |Tm consts a b| ≤ 2 := by
    have hT : Tm consts = !![9.1232394870892942792e-02, -0.14125529502095420843,
      -3.0029194105147424492e-02; 0.24171793270710701896, 0.20412935229379993199,
      0.38294211275726193779; 0.96604818261509293619, 1, 0] := rfl
    rw [hT]
    intro a
    rw [Fin.sum_univ_three]
    fin_cases a <;> simp [abs_of_pos] <;> norm_num [abs_of_pos]
  have b4 := mul_bound hTrow b3 (by positivity) i k
  have b5 := mul_bound (row _ fun a b => (tr a b).1) hφ hφ0 i k
  have id2 := congrFun (congrFun id1 i) k
  rw [Matrix.sub_apply, Matrix.smul_apply, Matrix.add_apply, Matrix.sub_apply, Matrix.smul_apply,
    Matrix.smul_apply, smul_eq_mul, smul_eq_mul, smul_eq_mul] at id2
  rw [id2]
  generalize (A⁻¹ * Tm consts - Tm consts * Lam consts) * W.mat = M1 at *
  generalize Tm consts * ((TIm consts * Tm consts - 1) * (W.mat * Jᵀ)) = M2 at *
  generalize (Tm consts * TIm consts - 1) * Φ = M3 at *
  have t1 := abs_add_le (M1 i k - h * M2 i k) (h * M3 i k)
  have t2 := abs_sub (M1 i k) (h * M2 i k)
  rw [abs_mul] at t1 t2
  have t3 := mul_le_mul_of_nonneg_left b4 (abs_nonneg h)
  have t4 := mul_le_mul_of_nonneg_left b5 (abs_nonneg h)
  have p1 : 0 ≤ |h| * (N * w) := by positivity
  have p2 : 0 ≤ |h| * φ := by positivity
  nlinarith

end printed

end Odes.Radau
