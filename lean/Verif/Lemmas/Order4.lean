import Verif.Spec.Order4

/-!
# Weights of the elementary differentials in a ROCK4 step
-/

namespace Odes.Spec

noncomputable section

variable {n : ℕ} {J : Type} [CommRing J] [Algebra ℝ J]

namespace W8

variable {α : Type}

/-- the weights of `h F(g)` when `g` has the weights `w`. -/
def app [Mul α] [OfNat α 1] (w : W8 α) : W8 α :=
  ⟨1, w.t1, w.t1 * w.t1, w.t2, w.t1 * w.t1 * w.t1, w.t1 * w.t2, w.t3, w.t4⟩

def zero [OfNat α 0] : W8 α := ⟨0, 0, 0, 0, 0, 0, 0, 0⟩

def add [Add α] (v w : W8 α) : W8 α :=
  ⟨v.t1 + w.t1, v.t2 + w.t2, v.t3 + w.t3, v.t4 + w.t4, v.t5 + w.t5, v.t6 + w.t6, v.t7 + w.t7,
    v.t8 + w.t8⟩

def smul [Mul α] (a : α) (w : W8 α) : W8 α :=
  ⟨a * w.t1, a * w.t2, a * w.t3, a * w.t4, a * w.t5, a * w.t6, a * w.t7, a * w.t8⟩

end W8

namespace Taylor

variable {ε : J} {F : (Fin n → J) → Fin n → J} {y : Fin n → J} (D : Taylor ε F y)

theorem add2' (u v w : Fin n → J) : D.f2 u (v + w) = D.f2 u v + D.f2 u w := by
  rw [D.symm2, D.add2, D.symm2 v, D.symm2 w]

theorem smul2' (a : J) (u v : Fin n → J) : D.f2 u (a • v) = a • D.f2 u v := by
  rw [D.symm2, D.smul2, D.symm2 v]

theorem add3' (u v w x : Fin n → J) : D.f3 u (v + w) x = D.f3 u v x + D.f3 u w x := by
  rw [D.symm3, D.add3, D.symm3 v, D.symm3 w]

theorem smul3' (a : J) (u v w : Fin n → J) : D.f3 u (a • v) w = a • D.f3 u v w := by
  rw [D.symm3, D.smul3, D.symm3 v]

theorem add3'' (u v w x : Fin n → J) : D.f3 u v (w + x) = D.f3 u v w + D.f3 u v x := by
  rw [D.symm3', D.add3', D.symm3' u w, D.symm3' u x]

theorem smul3'' (a : J) (u v w : Fin n → J) : D.f3 u v (a • w) = a • D.f3 u v w := by
  rw [D.symm3', D.smul3', D.symm3' u w]

theorem ser_add (v w : W8 J) : D.ser (v.add w) = D.ser v + D.ser w := by
  simp only [ser, W8.add]; module

theorem ser_smul (a : J) (w : W8 J) : D.ser (w.smul a) = a • D.ser w := by
  simp only [ser, W8.smul]; module

theorem ser_zero : D.ser W8.zero = 0 := by
  simp only [ser, W8.zero]; module

/-- evaluation of the field at a point with weights `w`. -/
theorem app_ser (hε : ε ^ 5 = 0) (w : W8 J) :
    ε • F (y + ε • D.ser w) = ε • D.ser w.app := by
  have h2 : (2 : J) * cst (1 / 2 : ℝ) = 1 := by
    rw [cst, ← map_ofNat (algebraMap ℝ J) 2, ← map_mul]; norm_num
  obtain ⟨d, hd⟩ : ∃ d, d = (w.t5 * cst (1 / 6)) • D.f3 D.f D.f D.f + w.t6 • D.f2 D.f (D.f1 D.f)
      + (w.t7 * cst (1 / 2)) • D.f1 (D.f2 D.f D.f) + w.t8 • D.f1 (D.f1 (D.f1 D.f)) := ⟨_, rfl⟩
  obtain ⟨c, hc⟩ : ∃ c, c = (w.t3 * cst (1 / 2)) • D.f2 D.f D.f + w.t4 • D.f1 (D.f1 D.f)
    + ε • d := ⟨_, rfl⟩
  obtain ⟨a, ha⟩ : ∃ a, a = w.t2 • D.f1 D.f + ε • c := ⟨_, rfl⟩
  have e0 : D.ser w = w.t1 • D.f + ε • a := by
    rw [ha, hc, hd]; simp only [ser]; module
  have e1 : D.f1 (D.ser w) = w.t1 • D.f1 D.f + (ε * w.t2) • D.f1 (D.f1 D.f)
      + ε ^ 2 • ((w.t3 * cst (1 / 2)) • D.f1 (D.f2 D.f D.f) + w.t4 • D.f1 (D.f1 (D.f1 D.f)))
      + ε ^ 3 • D.f1 d := by
    rw [e0, ha, hc]; simp only [D.add1, D.smul1]; module
  have e2 : D.f2 (D.ser w) (D.ser w) = (w.t1 * w.t1) • D.f2 D.f D.f
      + (2 * ε * w.t1 * w.t2) • D.f2 D.f (D.f1 D.f)
      + ε ^ 2 • ((2 * w.t1) • D.f2 D.f c + D.f2 a a) := by
    rw [e0]; simp only [D.add2, D.smul2, D.add2', D.smul2', D.symm2 a D.f]
    have : D.f2 D.f a = w.t2 • D.f2 D.f (D.f1 D.f) + ε • D.f2 D.f c := by
      rw [ha, D.add2', D.smul2', D.smul2']
    rw [this]; module
  have e3 : D.f3 (D.ser w) (D.ser w) (D.ser w) = (w.t1 * w.t1 * w.t1) • D.f3 D.f D.f D.f
      + ε • ((3 * w.t1 ^ 2) • D.f3 D.f D.f a + (3 * ε * w.t1) • D.f3 D.f a a
        + ε ^ 2 • D.f3 a a a) := by
    rw [e0]
    simp only [D.add3, D.smul3, D.add3', D.smul3', D.add3'', D.smul3'', D.symm3 a D.f,
      D.symm3' D.f a D.f, D.symm3' a a D.f]
    module
  obtain ⟨r, e⟩ := D.expand (D.ser w)
  obtain ⟨q2, hq2⟩ : ∃ q, q = (2 * w.t1) • D.f2 D.f c + D.f2 a a := ⟨_, rfl⟩
  obtain ⟨q3, hq3⟩ : ∃ q, q = (3 * w.t1 ^ 2) • D.f3 D.f D.f a + (3 * ε * w.t1) • D.f3 D.f a a
        + ε ^ 2 • D.f3 a a a := ⟨_, rfl⟩
  rw [← hq2] at e2
  rw [← hq3] at e3
  rw [e, e1, e2, e3]
  simp only [ser, W8.app]
  clear * - h2 hε
  generalize (cst (1 / 2) : J) = hf at *
  generalize (cst (1 / 6) : J) = sx at *
  match_scalars <;>
    first
    | ring1
    | linear_combination (ε ^ 4 * w.t1 * w.t2) * h2
    | linear_combination hε
    | linear_combination hf * hε
    | linear_combination sx * hε

end Taylor

section weights

variable {α : Type} [Add α] [Mul α] [Neg α] [OfNat α 0] [OfNat α 1]

/-- weights of the values of the recurrence. -/
def wRec (mu kap : ℕ → α) : ℕ → W8 α
  | 0 => W8.zero
  | 1 => (W8.app W8.zero).smul (mu 1)
  | (j + 2) => (((wRec mu kap (j + 1)).app.smul (mu (j + 2))).add
      ((wRec mu kap (j + 1)).smul (1 + kap (j + 2)))).add ((wRec mu kap j).smul (-kap (j + 2)))

/-- weights of the arguments of the four stages. -/
def wArg (R : Gen.Formula α) (g : W8 α) : W8 α × W8 α × W8 α :=
  let g2 := g.add (g.app.smul R.a21)
  let g3 := (g.add (g.app.smul R.a31)).add (g2.app.smul R.a32)
  let g4 := ((g.add (g.app.smul R.a41)).add (g2.app.smul R.a42)).add (g3.app.smul R.a43)
  (g2, g3, g4)

/-- weights of the value after a step. -/
def wStep (R : Gen.Formula α) : W8 α :=
  let g := wRec R.mu R.kap R.deg
  let a := wArg R g
  (((g.add (g.app.smul (R.b 0))).add (a.1.app.smul (R.b 1))).add
    (a.2.1.app.smul (R.b 2))).add (a.2.2.app.smul (R.b 3))

/-- weights of the embedded value. -/
def wEmb (R : Gen.Formula α) (be : Fin 5 → α) : W8 α :=
  let g := wRec R.mu R.kap R.deg
  let a := wArg R g
  ((((g.add (g.app.smul (be 0))).add (a.1.app.smul (be 1))).add
    (a.2.1.app.smul (be 2))).add (a.2.2.app.smul (be 3))).add ((wStep R).app.smul (be 4))

end weights

namespace Taylor

variable {ε : J} {F : (Fin n → J) → Fin n → J} {y : Fin n → J} (D : Taylor ε F y)

theorem app_apply (hε : ε ^ 5 = 0) (a : J) (w : W8 J) (i : Fin n) :
    ε * a * F (y + ε • D.ser w) i = (ε • D.ser (w.app.smul a)) i := by
  have h := congrFun (D.app_ser hε w) i
  rw [D.ser_smul]
  simp only [Pi.smul_apply, smul_eq_mul] at h ⊢
  linear_combination a * h

theorem gRec_ser (hε : ε ^ 5 = 0) (mu kap : ℕ → J) :
    ∀ j, Gen.gRec F mu kap ε y j = y + ε • D.ser (wRec mu kap j)
  | 0 => by simp [Gen.gRec, wRec, D.ser_zero]
  | 1 => by
    funext i
    have h := D.app_apply hε (mu 1) W8.zero i
    rw [D.ser_zero, smul_zero, add_zero] at h
    rw [Gen.gRec]; beta_reduce; rw [h]; rfl
  | (j + 2) => by
    funext i
    have h1 := gRec_ser hε mu kap (j + 1)
    have h0 := gRec_ser hε mu kap j
    rw [Gen.gRec, h1, h0]
    beta_reduce
    rw [D.app_apply hε, wRec, D.ser_add, D.ser_add, D.ser_smul _ (wRec mu kap j),
      D.ser_smul (1 + kap (j + 2))]
    simp only [Pi.add_apply, Pi.smul_apply, smul_eq_mul]
    ring

theorem arg2 (hε : ε ^ 5 = 0) (a : J) (g : W8 J) :
    (fun i => (y + ε • D.ser g) i + ε * a * F (y + ε • D.ser g) i)
      = y + ε • D.ser (g.add (g.app.smul a)) := by
  funext i
  rw [D.app_apply hε, D.ser_add, smul_add]
  simp only [Pi.add_apply]; ring

theorem args (hε : ε ^ 5 = 0) (g : W8 J) (G : Fin n → J) (hG : G = y + ε • D.ser g) (a : J)
    (w : W8 J) :
    (fun i => G i + ε * a * F (y + ε • D.ser w) i) = y + ε • D.ser (g.add (w.app.smul a)) := by
  funext i
  rw [D.app_apply hε, D.ser_add, smul_add, hG]
  simp only [Pi.add_apply]; ring

theorem step_ser (hε : ε ^ 5 = 0) (R : Gen.Formula J) :
    Gen.step R F ε y = y + ε • D.ser (wStep R) := by
  have hg := D.gRec_ser hε R.mu R.kap R.deg
  simp only [Gen.step, Gen.finishing, hg]
  have e2 := D.args hε (wRec R.mu R.kap R.deg) _ rfl R.a21 (wRec R.mu R.kap R.deg)
  have e3 := fun a b w => D.args hε _ _ (D.args hε (wRec R.mu R.kap R.deg) _ rfl a
    (wRec R.mu R.kap R.deg)) b w
  have e4 := fun a b c w x => D.args hε _ _ (e3 a b w) c x
  have e5 := fun a b c d w x z => D.args hε _ _ (e4 a b c w x) d z
  rw [e2, e3, e4, e5]
  rfl

theorem embedded_ser (hε : ε ^ 5 = 0) (R : Gen.Formula J) (be : Fin 5 → J) :
    Gen.embedded R be F ε y = y + ε • D.ser (wEmb R be) := by
  have hs := D.step_ser hε R
  have hg := D.gRec_ser hε R.mu R.kap R.deg
  simp only [Gen.embedded, hs, hg]
  have e2 := D.args hε (wRec R.mu R.kap R.deg) _ rfl R.a21 (wRec R.mu R.kap R.deg)
  have e3 := fun a b w => D.args hε _ _ (D.args hε (wRec R.mu R.kap R.deg) _ rfl a
    (wRec R.mu R.kap R.deg)) b w
  have e4 := fun a b c w x => D.args hε _ _ (e3 a b w) c x
  have e5 := fun a b c d w x z => D.args hε _ _ (e4 a b c w x) d z
  have e6 := fun a b c d e w x z t => D.args hε _ _ (e5 a b c d w x z) e t
  rw [e2, e3, e4, e6]
  rfl

/-- the weights of the exact solution: one over the density of the tree. -/
def exact8 : W8 ℝ := ⟨1, 1 / 2, 1 / 3, 1 / 6, 1 / 4, 1 / 8, 1 / 12, 1 / 24⟩

theorem flow_ser : D.flow = y + ε • D.ser (exact8.map cst) := by
  simp only [flow, v1, v2, v3, v4, ser, W8.map, exact8]
  have h3 : (cst (1 / 3) * cst (1 / 2) : J) = cst (1 / 6) := by rw [← map_mul]; norm_num
  have h4 : (cst (1 / 4) * cst (1 / 6) : J) = cst (1 / 24) := by rw [← map_mul]; norm_num
  have h5 : (cst (1 / 12) * cst (1 / 2) : J) = cst (1 / 24) := by rw [← map_mul]; norm_num
  have h6 : (cst (1 / 24) * cst 3 : J) = cst (1 / 8) := by rw [← map_mul]; norm_num
  have h1 : (cst 1 : J) = 1 := map_one _
  rw [h3, h4, h5, ← h6, h1]
  generalize (cst (1 / 2) : J) = c2
  generalize (cst (1 / 6) : J) = c6
  generalize (cst (1 / 24) : J) = c24
  generalize (cst 3 : J) = c3
  module

/-- **The exact solution satisfies the differential equation** up to terms in `ε^5`:
`ε φ'(ε) = ε F(φ(ε))`. -/
theorem flow_exact (hε : ε ^ 5 = 0) :
    ε • D.v1 + (2 * ε ^ 2) • D.v2 + (3 * ε ^ 3) • D.v3 + (4 * ε ^ 4) • D.v4 = ε • F D.flow := by
  rw [flow_ser, D.app_ser hε]
  simp only [v1, v2, v3, v4, ser, W8.map, W8.app, exact8]
  have h1 : (cst 1 : J) = 1 := map_one _
  have a1 : (2 * cst (1 / 2) : J) = 1 := by
    rw [← map_ofNat (algebraMap ℝ J) 2, ← map_mul]; norm_num
  have a2 : (3 * cst (1 / 6) : J) = cst (1 / 2) := by
    rw [← map_ofNat (algebraMap ℝ J) 3, ← map_mul]; norm_num
  have a3 : (4 * cst (1 / 24) : J) = cst (1 / 6) := by
    rw [← map_ofNat (algebraMap ℝ J) 4, ← map_mul]; norm_num
  have a4 : (cst 3 : J) = 3 := map_ofNat _ 3
  have a5 : (cst (1 / 3) * cst (1 / 2) : J) = cst (1 / 6) := by rw [← map_mul]; norm_num
  rw [h1, a4, a5]
  generalize (cst (1 / 2) : J) = c2 at *
  generalize (cst (1 / 6) : J) = c6 at *
  generalize (cst (1 / 24) : J) = c24 at *
  match_scalars <;>
    first
    | ring1
    | linear_combination ε ^ 2 * a1
    | linear_combination ε ^ 3 * a2
    | linear_combination ε ^ 4 * a3
    | linear_combination 3 * ε ^ 4 * a3 + ε ^ 4 * a2

end Taylor

/-! ## Change of scalars -/

section map

variable {α β : Type} [CommRing α] [CommRing β] (φ : α →+* β)

theorem W8.map_app (w : W8 α) : (w.map φ).app = w.app.map φ := by
  simp [W8.map, W8.app]

theorem W8.map_add (v w : W8 α) : (v.map φ).add (w.map φ) = (v.add w).map φ := by
  simp [W8.map, W8.add]

theorem W8.map_smul (a : α) (w : W8 α) : (w.map φ).smul (φ a) = (w.smul a).map φ := by
  simp [W8.map, W8.smul]

theorem W8.map_zero : (W8.zero : W8 α).map φ = W8.zero := by
  simp [W8.map, W8.zero]

theorem wRec_map (mu kap : ℕ → α) :
    ∀ j, wRec (fun j => φ (mu j)) (fun j => φ (kap j)) j = (wRec mu kap j).map φ
  | 0 => (W8.map_zero φ).symm
  | 1 => by rw [wRec, wRec, ← W8.map_zero φ, W8.map_app, W8.map_smul]
  | (j + 2) => by
    rw [wRec, wRec, wRec_map mu kap (j + 1), wRec_map mu kap j, W8.map_app, W8.map_smul,
      ← map_neg φ, W8.map_smul, ← map_one φ, ← map_add φ, W8.map_smul, W8.map_add, W8.map_add]

theorem wStep_map (R : Gen.Formula α) : wStep (R.map φ) = (wStep R).map φ := by
  simp only [wStep, wArg, Gen.Formula.map, wRec_map, W8.map_app, W8.map_smul, W8.map_add]

theorem wEmb_map (R : Gen.Formula α) (be : Fin 5 → α) :
    wEmb (R.map φ) (fun j => φ (be j)) = (wEmb R be).map φ := by
  rw [wEmb, wStep_map, wEmb]
  simp only [wArg, Gen.Formula.map, wRec_map, W8.map_app, W8.map_smul, W8.map_add]

end map

namespace Taylor

variable {ε : J} {F : (Fin n → J) → Fin n → J} {y : Fin n → J} (D : Taylor ε F y)

/-- the defects of the weights are the defects of the value. -/
theorem defect (w : W8 ℝ) : y + ε • D.ser (w.map cst)
    = D.flow + ε • D.ser ((w.add (exact8.smul (-1))).map cst) := by
  have e : (w.map (cst (J := J))) = (exact8.map cst).add ((w.add (exact8.smul (-1))).map cst) := by
    simp only [W8.map, W8.add, W8.smul, ← map_add]
    congr 1 <;> · congr 1; ring
  rw [e, D.ser_add, smul_add, D.flow_ser, add_assoc]

end Taylor

end

end Odes.Spec
