import Verif.Spec.Rock4

/-!
# The ROCK4 step over any scalar type

The same reference formula as `Spec/Rock4.lean`, for a type of scalars with the operations it
needs.  `step_X` shows that over the extended reals it is the formula of `Spec/Rock4.lean`.
-/

namespace Odes.Spec.Gen

variable {α : Type} [Add α] [Mul α] [Sub α] [OfNat α 1] {n : ℕ}

/-- `g_0 = y`, `g_1 = y + h mu_1 F(y)`,
`g_j = h mu_j F(g_{j-1}) + (1+kappa_j) g_{j-1} - kappa_j g_{j-2}`. -/
def gRec (F : (Fin n → α) → Fin n → α) (mu kap : ℕ → α) (h : α) (y : Fin n → α) :
    ℕ → Fin n → α
  | 0 => y
  | 1 => fun i => y i + h * mu 1 * F y i
  | (j + 2) => fun i => h * mu (j + 2) * F (gRec F mu kap h y (j + 1)) i
      + (1 + kap (j + 2)) * gRec F mu kap h y (j + 1) i
      - kap (j + 2) * gRec F mu kap h y j i

/-- coefficients of one formula. -/
structure Formula (α : Type) where
  deg : ℕ
  mu : ℕ → α
  kap : ℕ → α
  a21 : α
  a31 : α
  a32 : α
  a41 : α
  a42 : α
  a43 : α
  b : Fin 4 → α

/-- the same formula over other scalars. -/
def Formula.map {β : Type} (φ : α → β) (R : Formula α) : Formula β where
  deg := R.deg
  mu := fun j => φ (R.mu j)
  kap := fun j => φ (R.kap j)
  a21 := φ R.a21
  a31 := φ R.a31
  a32 := φ R.a32
  a41 := φ R.a41
  a42 := φ R.a42
  a43 := φ R.a43
  b := fun j => φ (R.b j)

/-- four-stage method of step `h` started at `g`. -/
def finishing (R : Formula α) (F : (Fin n → α) → Fin n → α) (h : α) (g : Fin n → α) :
    Fin n → α :=
  let k1 := F g
  let k2 := F (fun i => g i + h * R.a21 * k1 i)
  let k3 := F (fun i => g i + h * R.a31 * k1 i + h * R.a32 * k2 i)
  let k4 := F (fun i => g i + h * R.a41 * k1 i + h * R.a42 * k2 i + h * R.a43 * k3 i)
  fun i => g i + h * R.b 0 * k1 i + h * R.b 1 * k2 i + h * R.b 2 * k3 i + h * R.b 3 * k4 i

/-- one step of the formula for `y' = F(y)`. -/
def step (R : Formula α) (F : (Fin n → α) → Fin n → α) (h : α) (y : Fin n → α) : Fin n → α :=
  finishing R F h (gRec F R.mu R.kap h y R.deg)

/-- the embedded value: same stages, other weights, and the slope at the new value as a fifth
stage. -/
def embedded (R : Formula α) (be : Fin 5 → α) (F : (Fin n → α) → Fin n → α) (h : α)
    (y : Fin n → α) : Fin n → α :=
  let g := gRec F R.mu R.kap h y R.deg
  let k1 := F g
  let k2 := F (fun i => g i + h * R.a21 * k1 i)
  let k3 := F (fun i => g i + h * R.a31 * k1 i + h * R.a32 * k2 i)
  let k4 := F (fun i => g i + h * R.a41 * k1 i + h * R.a42 * k2 i + h * R.a43 * k3 i)
  let k5 := F (step R F h y)
  fun i => g i + h * be 0 * k1 i + h * be 1 * k2 i + h * be 2 * k3 i + h * be 3 * k4 i
    + h * be 4 * k5 i

theorem gRec_X (F : (Fin n → X) → Fin n → X) (mu kap : ℕ → X) (h : X) (y : Fin n → X) :
    ∀ j, gRec F mu kap h y j = Spec.gRec F mu kap h y j
  | 0 => rfl
  | 1 => rfl
  | (j + 2) => by
    simp only [gRec, Spec.gRec, gRec_X F mu kap h y (j + 1), gRec_X F mu kap h y j]

theorem step_X (R : Spec.Formula) (F : (Fin n → X) → Fin n → X) (h : X) (y : Fin n → X) :
    step ⟨R.deg, R.mu, R.kap, R.a21, R.a31, R.a32, R.a41, R.a42, R.a43, R.b⟩ F h y
      = (Spec.stages R F h y).ynew := by
  simp only [step, finishing, Spec.stages, gRec_X]

end Odes.Spec.Gen
