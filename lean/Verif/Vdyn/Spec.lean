/-
Vocabulary for the equations of a column: a column of the prognostic variables, the vertical wind through the interfaces, fluxes,
kinetic energy, and the integral over the column.  The column operators and the metric are data.
-/
import Verif.Vdyn.Model
import Verif.Column.PenaltySpec
import Verif.Column.CorrectionSpec
import Verif.Column.FemSpec
import Verif.Interp.Spec
import Verif.Column.FluxSpec
import Verif.Column.Flux
import Mathlib.Algebra.BigOperators.Intervals

namespace Verif.Vdyn

open Verif.Column Verif.Interp Finset Polynomial

/-- A column: covariant horizontal velocity `u`, `v`, density times potential temperature `p` and density `r` on levels, and
covariant vertical velocity `w` on interfaces. -/
structure Column where
  u : Nat → ℝ
  v : Nat → ℝ
  p : Nat → ℝ
  w : Nat → ℝ
  r : Nat → ℝ

/-- The unknowns of the solver, three in a row for each level, with the horizontal velocity of the data. -/
def asColumn (D : Data) (x : Nat → ℝ) : Column :=
  ⟨D.node 0, D.node 1, fun k => x (3 * k), fun k => x (3 * k + 1), fun k => x (3 * k + 2)⟩

/-- Lorenz staggering: vertical velocity on interfaces, everything else on levels, and mass fluxes on interfaces. -/
def Lorenz (S : Setup) : Prop := S.wOnEdge = true ∧ S.pOnEdge = false ∧ S.massOnLevels = false

/-- The vertical part of the velocity through interface `k`; nothing moves through the bottom and the top. -/
noncomputable def verticalWind (S : Setup) (G : Metric) (C : Column) (k : Nat) : ℝ :=
  if k = 0 ∨ S.levels ≤ k then 0
  else G.conXiEdge k 0 * applyRow S.interpNE C.u k + G.conXiEdge k 1 * applyRow S.interpNE C.v k + G.conXiEdge k 2 * C.w k

/-- The flux through interface `k` of a quantity known on levels. -/
noncomputable def flux (S : Setup) (G : Metric) (C : Column) (q : Nat → ℝ) (k : Nat) : ℝ :=
  G.jacEdge k * applyRow S.interpNE q k * verticalWind S G C k

/-- Half the sum of contravariant times covariant velocity on level `k`. -/
noncomputable def kinetic (S : Setup) (G : Metric) (C : Column) (k : Nat) : ℝ :=
  let w := applyRow S.interpEN C.w k
  ((G.conA k 0 * C.u k + G.conA k 1 * C.v k + G.conA k 2 * w) * C.u k +
    (G.conB k 0 * C.u k + G.conB k 1 * C.v k + G.conB k 2 * w) * C.v k +
    (G.conXi k 0 * C.u k + G.conXi k 1 * C.v k + G.conXi k 2 * w) * w) / 2

/-- The Exner pressure on level `k`. -/
noncomputable def exner (S : Setup) (C : Column) (k : Nat) : ℝ :=
  S.phys.cp * Real.exp (S.phys.r / (S.phys.cp - S.phys.r) * Real.log (S.phys.r / S.phys.p0 * C.p k))

/-- Potential temperature on interface `k`. -/
noncomputable def theta (S : Setup) (C : Column) (k : Nat) : ℝ := applyRow S.interpNE C.p k / applyRow S.interpNE C.r k

/-- Horizontal wind on interface `k` times the vertical derivative of covariant horizontal velocity. -/
noncomputable def shear (S : Setup) (G : Metric) (C : Column) (k : Nat) : ℝ :=
  let u := applyRow S.interpNE C.u k
  let v := applyRow S.interpNE C.v k
  (G.conAEdge k 0 * u + G.conAEdge k 1 * v + G.conAEdge k 2 * C.w k) * applyRow S.diffNE C.u k +
    (G.conBEdge k 0 * u + G.conBEdge k 1 * v + G.conBEdge k 2 * C.w k) * applyRow S.diffNE C.v k

/-- Diffusion of vertical velocity on interface `k` from upwinding. -/
noncomputable def upwindW (S : Setup) (G : Metric) (C : Column) (k : Nat) : ℝ :=
  |verticalWind S G C k| / (2 * S.levels) * applyRow S.diffDiffEE C.w k

/-- Vertical diffusion with diffusivity `nu` (in length² per time) of the departure of `y` from `ref`. -/
noncomputable def diffuse (S : Setup) (A : Op) (nu : ℝ) (y ref : Nat → ℝ) (k : Nat) : ℝ :=
  if S.uniform = true then nu / S.ztop ^ 2 * (applyRow A y k - applyRow A ref k) else 0

/-- The discretisation by finite elements: `order` levels at the Gauss points and `order + 1` interfaces at the
Gauss-Lobatto points of each of `levels / order` elements, with the derivatives between them and the penalty of the jumps at
element edges as the library sets them up. -/
structure Elements (S : Setup) (node edge : Nat → ℝ) (gauss lob : List ℝ × List ℝ) : Prop where
  elements : S.volumes = false
  setup : ∃ solve, Solves solve ∧
    fluxInit solve .levels S.order S.levels (S.levels + 1) node edge (S.levels + 1) edge true = .ok S.diffNE ∧
    diffInterfaceInit .interfaces S.order S.levels (S.levels + 1) node edge S.levels node false = .ok S.diffEN ∧
    penaltyInit solve S.order S.levels (S.levels + 1) node edge = .ok S.penalty
  separated : Separated (fun b => edge (b * S.order)) (S.levels / S.order)
  apartNodes : ∀ b < S.levels / S.order, ApartNodes S.order (fun i => node (b * S.order + i))
  apartEdges : ∀ b < S.levels / S.order, ApartNodes (S.order + 1) (fun i => edge (b * S.order + i))
  gaussRule : GaussRule S.order gauss
  onGauss : OnGauss S.order (S.levels / S.order) node edge gauss
  lobattoRule : LobattoRule S.order lob
  onLobatto : OnLobatto S.order (S.levels / S.order) edge lob
  insideEdges : ∀ a < S.levels / S.order, ∀ j, 0 < j → j < S.order →
    InElement (fun b => edge (b * S.order)) (S.levels / S.order) a (edge (a * S.order + j))
  insideNodes : ∀ a < S.levels / S.order, ∀ i < S.order,
    InElement (fun b => edge (b * S.order)) (S.levels / S.order) a (node (a * S.order + i))

/-- The polynomials `p` of the elements take the values `y` on levels. -/
def Fits (S : Setup) (node : Nat → ℝ) (p : Nat → ℝ[X]) (y : Nat → ℝ) : Prop :=
  ∀ a < S.levels / S.order, (p a).degree < (S.order : ℕ) ∧ Through (p a) node y (a * S.order) S.order

/-- The integral over the column of a quantity on levels. -/
noncomputable def overLevels (S : Setup) (edge : Nat → ℝ) (gauss : List ℝ × List ℝ) (f : Nat → ℝ) : ℝ :=
  ∑ k ∈ range S.levels, levelWeight S.order edge gauss k * f k

/-- The integral over the column of a quantity on interfaces. -/
noncomputable def overInterfaces (S : Setup) (edge : Nat → ℝ) (lob : List ℝ × List ℝ) (f : Nat → ℝ) : ℝ :=
  ∑ k ∈ range (S.levels + 1), interfaceWeight S.order (S.levels / S.order) edge lob k * f k

/-- The sum over element edges of the speed of the vertical wind times the jumps of two quantities. -/
noncomputable def jumps (S : Setup) (G : Metric) (C : Column) (edge : Nat → ℝ) (p q : Nat → ℝ[X]) : ℝ :=
  ∑ a ∈ range (S.levels / S.order - 1), |verticalWind S G C ((a + 1) * S.order)| * (jump S.order edge p a * jump S.order edge q a)

end Verif.Vdyn
