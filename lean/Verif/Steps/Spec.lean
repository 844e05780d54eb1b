/-
What the time-stepping properties mean, independent of the drivers.
-/
import Mathlib.Algebra.Module.LinearMap.Defs
import Mathlib.Algebra.Module.Prod
import Mathlib.Algebra.BigOperators.Group.List.Basic
import Verif.Steps.Model

namespace Verif.Steps

variable {K D : Type*}

/-- The exact linear-space operations. -/
def modOps (K : Type*) {V : Type*} [Semiring K] [AddCommMonoid V] [Module K V] : Ops K V :=
  ⟨0, fun x c => c • x, fun x y c => x + c • y⟩

/-- `Σ c_i • x_i` (up to the end of the shorter list). -/
def dot [Semiring K] [AddCommMonoid D] [Module K D] (c : List K) (x : List D) : D :=
  (List.zipWith (fun a y => a • y) c x).sum

/-- A pair of Runge-Kutta methods coupled to each other: `F` is evaluated at explicit stages, `G` at implicit
ones; rows list the coefficients of the evaluations of `F` and `G` (missing entries are zero). -/
structure Tableau (K : Type*) where
  EE : List (List K)
  EI : List (List K)
  IE : List (List K)
  II : List (List K)
  bE : List K
  bI : List K

/-- `u'` is the result of one step of length `dt` with tableau `T` from `u`: `k_i` are the evaluations of `F`,
`l_i` those of `G`, each at the stage value its row prescribes. -/
def IsStep [Semiring K] [AddCommMonoid D] [Module K D] (T : Tableau K) (F G : D → D) (dt : K) (u u' : D) : Prop :=
  ∃ k l : List D, k.length = T.EE.length ∧ l.length = T.II.length ∧
    (∀ i : Nat, ∀ re ∈ T.EE[i]?, ∀ ri ∈ T.EI[i]?, k[i]? = some (F (u + dt • (dot re k + dot ri l)))) ∧
    (∀ i : Nat, ∀ re ∈ T.IE[i]?, ∀ ri ∈ T.II[i]?, l[i]? = some (G (u + dt • (dot re k + dot ri l)))) ∧
    u' = u + dt • (dot T.bE k + dot T.bI l)

/-- Shape of a tableau. -/
def Tableau.Shape (T : Tableau K) : Prop :=
  T.EI.length = T.EE.length ∧ T.IE.length = T.II.length ∧ T.bE.length = T.EE.length ∧ T.bI.length = T.II.length

/-- An explicit Runge-Kutta step with matrix rows `A` and weights `b`. -/
def IsRK [Semiring K] [AddCommMonoid D] [Module K D] (A : List (List K)) (b : List K) (F : D → D) (dt : K)
    (u u' : D) : Prop :=
  ∃ k : List D, k.length = A.length ∧ (∀ i : Nat, ∀ r ∈ A[i]?, k[i]? = some (F (u + dt • dot r k))) ∧
    u' = u + dt • dot b k

section Order
variable [Semiring K]

/-- `Σ a_i b_i`. -/
def dp (a b : List K) : K := (List.zipWith (· * ·) a b).sum
/-- Row sums. -/
def rs (A : List (List K)) : List K := A.map List.sum
/-- Matrix times vector. -/
def mv (A : List (List K)) (c : List K) : List K := A.map fun r => dp r c
/-- Entrywise product. -/
def had (a b : List K) : List K := List.zipWith (· * ·) a b

end Order

/-- Butcher's conditions for orders 1 to 4 of an explicit method. -/
def RKOrder [Field K] (A : List (List K)) (b : List K) (p : Nat) : Prop :=
  let c := rs A
  (1 ≤ p → b.sum = 1) ∧
  (2 ≤ p → dp b c = 1 / 2) ∧
  (3 ≤ p → dp b (had c c) = 1 / 3 ∧ dp b (mv A c) = 1 / 6) ∧
  (4 ≤ p → dp b (had c (had c c)) = 1 / 4 ∧ dp b (had c (mv A c)) = 1 / 8 ∧
    dp b (mv A (had c c)) = 1 / 12 ∧ dp b (mv A (mv A c)) = 1 / 24)

/-- The conditions for orders 1 and 2 of a coupled pair (all couplings). -/
def Tableau.Order2 [Field K] (T : Tableau K) : Prop :=
  T.bE.sum = 1 ∧ T.bI.sum = 1 ∧
  dp T.bE (rs T.EE) = 1 / 2 ∧ dp T.bE (rs T.EI) = 1 / 2 ∧
  dp T.bI (rs T.IE) = 1 / 2 ∧ dp T.bI (rs T.II) = 1 / 2

/-- The fourteen conditions for order 3 of a coupled pair, as the list of their left-hand sides with the values
they must take. -/
def Tableau.order3Terms [Field K] (T : Tableau K) : List (K × K) :=
  let cEE := rs T.EE; let cEI := rs T.EI; let cIE := rs T.IE; let cII := rs T.II
  [(dp T.bE (had cEE cEE), 1 / 3), (dp T.bE (had cEE cEI), 1 / 3), (dp T.bE (had cEI cEI), 1 / 3),
   (dp T.bI (had cIE cIE), 1 / 3), (dp T.bI (had cIE cII), 1 / 3), (dp T.bI (had cII cII), 1 / 3),
   (dp T.bE (mv T.EE cEE), 1 / 6), (dp T.bE (mv T.EE cEI), 1 / 6),
   (dp T.bE (mv T.EI cIE), 1 / 6), (dp T.bE (mv T.EI cII), 1 / 6),
   (dp T.bI (mv T.IE cEE), 1 / 6), (dp T.bI (mv T.IE cEI), 1 / 6),
   (dp T.bI (mv T.II cIE), 1 / 6), (dp T.bI (mv T.II cII), 1 / 6)]

/-- Order 3. -/
def Tableau.Order3 [Field K] (T : Tableau K) : Prop :=
  T.Order2 ∧ ∀ p ∈ T.order3Terms, p.1 = p.2

/-- What the explicit dynamics are assumed to do in the order theorems: `P` is the post-processing (averaging
shared points) and `F` the tendency of the explicit sub-step `ex` after post-processing.  An explicit sub-step of
length `c` adds `c • F(argument)` to a field that post-processing does not change. -/
structure SolvesE [Semiring K] {V W : Type*} [AddCommMonoid V] [Module K V] [AddCommMonoid W] [Module K W]
    (Dy : Dyn K V W) (ex : K → V × W → V × W → V × W) (P : V × W →ₗ[K] V × W) (F : V × W → V × W) : Prop where
  post : ∀ x, (Dy.postS x.1, Dy.postT x.2) = P x
  expl : ∀ c x y, P y = y → P (ex c x y) = y + c • F x
  fixF : ∀ x, P (F x) = F x

/-- What the implicit dynamics are assumed to do in a solve of length `c`: from a field `x` that post-processing
does not change, it returns a solution of `y = x + c • G y`; the horizontal part does nothing. -/
structure SolvesI [Semiring K] {V W : Type*} [AddCommMonoid V] [Module K V] [AddCommMonoid W] [Module K W]
    (Dy : Dyn K V W) (P : V × W →ₗ[K] V × W) (G : V × W → V × W) (c : K) : Prop where
  impl : ∀ x, P x = x → Dy.vImp c x x = x + c • G (Dy.vImp c x x)
  fixG : ∀ x, P (G x) = G x
  hImp : ∀ x, Dy.hImp c x x = x

/-- The explicit sub-step of the drivers that use only the horizontal dynamics, both, or only the vertical. -/
def exH {V W : Type*} (Dy : Dyn K V W) : K → V × W → V × W → V × W := Dy.hExp
def exHV {V W : Type*} (Dy : Dyn K V W) : K → V × W → V × W → V × W := fun c x y => Dy.vExp c x (Dy.hExp c x y)
def exV {V W : Type*} (Dy : Dyn K V W) : K → V × W → V × W → V × W := Dy.vExp

/-- The patch has `n` slots of state and tracers and its current state is `u`; the other slots are arbitrary. -/
def Current {V W : Type*} (n : Nat) (d : Data V W) (u : V × W) : Prop :=
  d.st.length = n ∧ d.tr.length = n ∧ d.get 0 = some u

/-- The program `p` succeeds from `d` and the current state is then `u'` (exact arithmetic). -/
def StepsTo {V W : Type*} [Semiring K] [DecidableEq K] [AddCommMonoid V] [Module K V] [AddCommMonoid W]
    [Module K W] (Dy : Dyn K V W) (p : List (Cmd K)) (d : Data V W) (u' : V × W) : Prop :=
  ∃ d', run (modOps K) (modOps K) Dy p d = some d' ∧ d'.get 0 = some u'

end Verif.Steps
