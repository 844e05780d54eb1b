import Verif.Deep.Model
import Verif.Whole.Spec
import Verif.Vdyn.PatchSpec
import Verif.Vdyn.ImplicitSpec
import Verif.Vdyn.ImplicitLemmas

/-!
# What it means that a whole nonhydrostatic model conserves the mass of air

The mass is the sum over all nodes of all patches of volume times density.  Density is component 4; density times
potential temperature is component 2.
-/

namespace Verif.Deep

open Verif.Vdyn (Elements Stencils SecondOnLevels Lorenz Lapack Fits)
open Verif.Column (jump levelWeight)

variable (A : Atmos)

/-- The integral of component `c`, which lives on levels, over the whole grid: over all patches, their elements, levels and
nodes, Jacobian times weights and widths of the node in both directions times weight of the level times value.  It is the
mass of air for density, component 4. -/
noncomputable def Atmos.total (c : Nat) (v : A.W.Field) : ℝ :=
  ∑ n, ∑ a ∈ Finset.range (A.W.tile n).M.G.S.elemA, ∑ b ∈ Finset.range (A.W.tile n).M.G.S.elemB,
    ∑ k ∈ Finset.range A.W.levels, ∑ i ∈ Finset.range A.W.order, ∑ j ∈ Finset.range A.W.order,
      (A.W.tile n).M.jacNode (A.W.halo + a * A.W.order + i) (A.W.halo + b * A.W.order + j) k *
        A.W.weight i * (A.W.tile n).M.G.deltaA * A.W.weight j * (A.W.tile n).M.G.deltaB * A.W.level k *
        v n c (A.W.halo + a * A.W.order + i) (A.W.halo + b * A.W.order + j) k

/-- The equations: five components, each where the staggering puts it, and transforming velocities in the halo is about
the horizontal velocities only. -/
structure Atmos.Primitive : Prop where
  five : A.W.components = 5
  counted : ∀ i, (A.W.tile i).M.components = 5
  located : ∀ i c, (A.W.tile i).M.located c = if A.onEdge c then .redge else .node
  turn : ∀ i v c, 2 ≤ c → A.W.turn i v c = v c

/-- All elements have the widths `a` and `b`; the Jacobian of a patch at each of its nodes is `density` of level and place
(node `g` along alpha, `h` along beta of the panel), which is not zero and the same at all copies of a node. -/
structure Atmos.Measured (a b : ℝ) (density : Nat → Int → Int → ℝ) : Prop where
  width : ∀ i, (A.W.tile i).M.G.deltaA = a ∧ (A.W.tile i).M.G.deltaB = b
  jacobian : ∀ i iA iB k, Horiz.Interior (A.W.tile i).M.G.S iA iB → k < A.W.levels → (A.W.tile i).M.jacNode iA iB k =
    density k ((iA : Int) - A.W.halo + (A.W.tile i).eA * A.W.order) ((iB : Int) - A.W.halo + (A.W.tile i).eB * A.W.order)
  regular : ∀ k (g h : Int), k < A.W.levels → 0 ≤ g → g < A.W.order * A.W.elemA → 0 ≤ h → h < A.W.order * A.W.elemB →
    density k g h ≠ 0
  shared : ∀ k, k < A.W.levels → A.W.Shared (density k)

/-- The column that stands for the column at `(iA, iB)` of patch `i`: of the two columns at an element edge inside the
patch the one of the later element. -/
def Atmos.first (i : Fin A.W.count) (x : Vdyn.Place) : Vdyn.Place := (A.box i).owner A.W.order x

/-- The columns: finite elements of the library with the levels of the grid, whose weights are those of the volumes; the
vertical velocity is on interfaces and the rest on levels; LAPACK solves; the volume element does not jump over element
edges of a column; and columns at the same place of a patch have the same metric and reference state. -/
structure Atmos.Columnar (node edge sNode sEdge : Nat → ℝ) (gauss lob : List ℝ × List ℝ) : Prop where
  elements : Elements A.column node edge gauss lob
  stencils : Stencils A.column node edge sNode sEdge gauss lob
  second : SecondOnLevels A.column node edge gauss lob
  lorenz : Lorenz A.column
  ref : A.column.useRef = true
  lapack : Lapack A.solve
  levels : A.column.levels = A.W.levels
  weights : ∀ k, k < A.W.levels → A.W.level k = levelWeight A.column.order edge gauss k
  smooth : ∀ i iA iB, Horiz.Interior (A.W.tile i).M.G.S iA iB → ∃ p, Fits A.column node p ((A.W.tile i).M.jacNode iA iB) ∧
    ∀ a, a < A.column.levels / A.column.order - 1 → jump A.column.order edge p a = 0
  metric : ∀ i iA iB, Horiz.Interior (A.W.tile i).M.G.S iA iB →
    (A.vertical i).metric (A.first i (iA, iB)) = (A.vertical i).metric (iA, iB)
  reference : ∀ i iA iB, Horiz.Interior (A.W.tile i).M.G.S iA iB →
    (A.fixed i).refNode (A.first i (iA, iB)) = (A.fixed i).refNode (iA, iB) ∧
    (A.fixed i).refEdge (A.first i (iA, iB)) = (A.fixed i).refEdge (iA, iB)

/-- Within each patch the columns at the same place hold the same state. -/
def Atmos.Joined (v : A.W.Field) : Prop :=
  ∀ i iA iB, Horiz.Interior (A.W.tile i).M.G.S iA iB → ∀ c, c < 5 → ∀ k, k < A.top c →
    v i c iA iB k = v i c (A.first i (iA, iB)).1 (A.first i (iA, iB)).2 k

end Verif.Deep
