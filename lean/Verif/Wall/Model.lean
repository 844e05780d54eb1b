import Verif.Init.Model

/-!
# Lateral boundary conditions of a Cartesian grid

Models `GridPatchCartesianGLL::ApplyBoundaryConditions` (src/atm/GridPatchCartesianGLL.cpp:785-1316), which
`GridCartesianGLL::ApplyDSS` calls between the exchange and the averaging (src/atm/GridCartesianGLL.cpp:551-554), the
function of the same name and two arguments that a patch inherits from `GridPatch` (src/atm/GridPatch.h:141-148) and
that `Grid::ApplyBoundaryConditions` calls (src/atm/Grid.cpp:448-456), and how conditions are set
(src/atm/Grid.cpp:177-187, src/atm/GridCartesianGLL.cpp:106-110).

Simplifications: `double` is the real numbers, with division by zero giving zero; one data instance is modelled.  The
four blocks of code, one for each side, differ in the indices of the halo node and of its neighbour, in the component
that is solved for and in the metric that is read; they are one definition here with these as functions of the side.
-/

namespace Verif.Wall

open Verif.Init (Fault put4 each)

/-- `Direction_Right`, `Direction_Top`, `Direction_Left`, `Direction_Bottom`, src/atm/Direction.h. -/
inductive Side where
  | right
  | top
  | left
  | bottom
  deriving DecidableEq

/-- The number of a direction, src/atm/Direction.h. -/
def Side.index : Side → Nat
  | .right => 0
  | .top => 1
  | .left => 2
  | .bottom => 3

/-- `VerticalStaggering_…`, src/atm/Grid.h:70-73. -/
inductive Staggering where
  | levels
  | interfaces
  | charneyPhillips
  | lorenz
  deriving DecidableEq

/-- `BoundaryCondition_Periodic`, src/atm/Grid.h:89. -/
def periodic : Int := 0

/-- `BoundaryCondition_NoFlux`, src/atm/Grid.h:90. -/
def noFlux : Int := 1

/-- `BoundaryCondition_NoSlip`, src/atm/Grid.h:91. -/
def noSlip : Int := 2

/-- `m_eBoundaryCondition`, by number of direction. -/
abbrev Conditions := Nat → Int

/-- `Grid::SetBoundaryCondition`, src/atm/Grid.cpp:177-187: the direction is checked. -/
def setCondition (dir : Int) (bc : Int) (C : Conditions) : Except Fault Conditions :=
  if dir < 0 ∨ dir > 3 then .error .exception else .ok (fun d => if d = dir.toNat then bc else C d)

/-- `GridCartesianGLL::SetParameters`, src/atm/GridCartesianGLL.cpp:106-110. -/
def ofTest (iLatBC : Nat → Int) (C : Conditions) : Conditions :=
  let C := fun d => if d = Side.right.index then iLatBC 0 else C d
  let C := fun d => if d = Side.top.index then iLatBC 1 else C d
  let C := fun d => if d = Side.left.index then iLatBC 2 else C d
  fun d => if d = Side.bottom.index then iLatBC 3 else C d

/-- What is read of a patch and its grid: total widths, levels, components, the range of global indices of the patch,
those of the grid (`m_nHorizontalOrder * GetABaseResolution()`, GridPatchCartesianGLL.cpp:804-807), staggering, conditions,
and the contravariant metric on levels and interfaces by node, level and component. -/
structure Patch where
  na : Nat
  nb : Nat
  levels : Nat
  components : Nat
  aBegin : Int
  aEnd : Int
  bBegin : Int
  bEnd : Int
  order : Int
  aResolution : Int
  bResolution : Int
  staggering : Staggering
  conditions : Conditions
  metricA : Nat → Nat → Nat → Nat → ℝ
  metricB : Nat → Nat → Nat → Nat → ℝ
  metricAEdge : Nat → Nat → Nat → Nat → ℝ
  metricBEdge : Nat → Nat → Nat → Nat → ℝ

/-- The state of a patch: `m_datavecStateNode[iDataIndex]` and `m_datavecStateREdge[iDataIndex]` by component, node and
level. -/
structure State where
  node : Nat → Nat → Nat → Nat → ℝ
  edge : Nat → Nat → Nat → Nat → ℝ

/-- The halo node number `t` along a side: `i = m_box.GetATotalWidth() - 1`, `j = m_box.GetBTotalWidth() - 1`, `i = 0`,
`j = 0` (GridPatchCartesianGLL.cpp:826, 871, 916, 960). -/
def Side.cell (P : Patch) : Side → Nat → Nat × Nat
  | .right, t => (P.na - 1, t)
  | .top, t => (t, P.nb - 1)
  | .left, t => (0, t)
  | .bottom, t => (t, 0)

/-- Its neighbour inside: `i-1`, `j-1`, `i+1`, `j+1`. -/
def Side.near (P : Patch) : Side → Nat → Nat × Nat
  | .right, t => (P.na - 1 - 1, t)
  | .top, t => (t, P.nb - 1 - 1)
  | .left, t => (0 + 1, t)
  | .bottom, t => (t, 0 + 1)

/-- The number of nodes along a side: `GetBTotalWidth` or `GetATotalWidth` (GridPatchCartesianGLL.cpp:829, 874, 919,
963). -/
def Side.length (P : Patch) : Side → Nat
  | .right => P.nb
  | .top => P.na
  | .left => P.nb
  | .bottom => P.na

/-- The total width of the patch across a side. -/
def Side.across (P : Patch) : Side → Nat
  | .right => P.na
  | .top => P.nb
  | .left => P.na
  | .bottom => P.nb

/-- Whether the side of the patch is on the boundary of the grid (GridPatchCartesianGLL.cpp:825, 870, 915, 959). -/
def Side.atBoundary (P : Patch) : Side → Bool
  | .right => P.aEnd = P.order * P.aResolution
  | .top => P.bEnd = P.order * P.bResolution
  | .left => P.aBegin = 0
  | .bottom => P.bBegin = 0

/-- No slip at one halo node: the three velocities become the negatives of the neighbour's
(GridPatchCartesianGLL.cpp:832-840 and alike). -/
noncomputable def slip (c n : Nat × Nat) (k : Nat) (s : Nat → Nat → Nat → Nat → ℝ) : Nat → Nat → Nat → Nat → ℝ :=
  let s := put4 s 0 c.1 c.2 k (-s 0 n.1 n.2 k)
  let s := put4 s 1 c.1 c.2 k (-s 1 n.1 n.2 k)
  put4 s 3 c.1 c.2 k (-s 3 n.1 n.2 k)

/-- No flux in alpha at one halo node (GridPatchCartesianGLL.cpp:841-857 and alike). -/
noncomputable def fluxA (G : Nat → Nat → Nat → Nat → ℝ) (c n : Nat × Nat) (k : Nat) (s : Nat → Nat → Nat → Nat → ℝ) :
    Nat → Nat → Nat → Nat → ℝ :=
  let ub := (1 / 2) * (s 1 c.1 c.2 k + s 1 n.1 n.2 k)
  let ux := (1 / 2) * (s 3 c.1 c.2 k + s 3 n.1 n.2 k)
  let gaa := G n.1 n.2 k 0
  let gab := G n.1 n.2 k 1
  let gax := G n.1 n.2 k 2
  let ua := -1 / gaa * (gab * ub + gax * ux)
  put4 s 0 c.1 c.2 k (2 * ua - s 0 n.1 n.2 k)

/-- No flux in beta at one halo node (GridPatchCartesianGLL.cpp:885-902 and alike). -/
noncomputable def fluxB (G : Nat → Nat → Nat → Nat → ℝ) (c n : Nat × Nat) (k : Nat) (s : Nat → Nat → Nat → Nat → ℝ) :
    Nat → Nat → Nat → Nat → ℝ :=
  let ua := (1 / 2) * (s 0 c.1 c.2 k + s 0 n.1 n.2 k)
  let ux := (1 / 2) * (s 3 c.1 c.2 k + s 3 n.1 n.2 k)
  let gba := G n.1 n.2 k 0
  let gbb := G n.1 n.2 k 1
  let gbx := G n.1 n.2 k 2
  let ub := -1 / gbb * (gba * ua + gbx * ux)
  put4 s 1 c.1 c.2 k (2 * ub - s 1 n.1 n.2 k)

/-- Which of the two a side uses, with the metric of levels (`m_dataContraMetricA`, `m_dataContraMetricB`). -/
noncomputable def Side.fluxNode (P : Patch) : Side → Nat × Nat → Nat × Nat → Nat → (Nat → Nat → Nat → Nat → ℝ) →
    Nat → Nat → Nat → Nat → ℝ
  | .right => fluxA P.metricA
  | .top => fluxB P.metricB
  | .left => fluxA P.metricA
  | .bottom => fluxB P.metricB

/-- With the metric of interfaces (`m_dataContraMetricAREdge`, `m_dataContraMetricBREdge`). -/
noncomputable def Side.fluxEdge (P : Patch) : Side → Nat × Nat → Nat × Nat → Nat → (Nat → Nat → Nat → Nat → ℝ) →
    Nat → Nat → Nat → Nat → ℝ
  | .right => fluxA P.metricAEdge
  | .top => fluxB P.metricBEdge
  | .left => fluxA P.metricAEdge
  | .bottom => fluxB P.metricBEdge

/-- The choice at every point, GridPatchCartesianGLL.cpp:919-950 and alike: `if (e == NoSlip) … else if (e == NoFlux) …
else exception`. -/
def choose (bc : Int) (still sealed : Except Fault σ) : Except Fault σ :=
  if bc = noSlip then still else if bc = noFlux then sealed else .error .exception

/-- The choice on the right and on the top when everything is on interfaces, GridPatchCartesianGLL.cpp:831-860, 876-905:
`if (e != NoSlip) … else if (e != NoFlux) … else exception`. -/
def chooseOther (bc : Int) (still sealed : Except Fault σ) : Except Fault σ :=
  if bc ≠ noSlip then still else if bc ≠ noFlux then sealed else .error .exception

/-- Which choice the code makes. -/
def Side.choice (g : Staggering) : Side → Int → Except Fault σ → Except Fault σ → Except Fault σ
  | .right => if g = .interfaces then chooseOther else choose
  | .top => if g = .interfaces then chooseOther else choose
  | .left => choose
  | .bottom => choose

/-- An access to the array of the state at a halo node and at its neighbour.  The vertical velocity is component 3, and
the neighbour has to be in the array. -/
def access (P : Patch) (s : Side) (r : Nat → Nat → Nat → Nat → ℝ) : Except Fault (Nat → Nat → Nat → Nat → ℝ) :=
  if P.components < 4 ∨ s.across P < 2 then .error .outside else .ok r

/-- One halo node on a level. -/
noncomputable def pointNode (P : Patch) (s : Side) (t k : Nat) (A : State) : Except Fault State := do
  let r ← s.choice P.staggering (P.conditions s.index)
    (access P s (slip (s.cell P t) (s.near P t) k A.node))
    (access P s (s.fluxNode P (s.cell P t) (s.near P t) k A.node))
  return ⟨r, A.edge⟩

/-- One halo node on an interface. -/
noncomputable def pointEdge (P : Patch) (s : Side) (t k : Nat) (A : State) : Except Fault State := do
  let r ← s.choice P.staggering (P.conditions s.index)
    (access P s (slip (s.cell P t) (s.near P t) k A.edge))
    (access P s (s.fluxEdge P (s.cell P t) (s.near P t) k A.edge))
  return ⟨A.node, r⟩

/-- The loops along a side: everything on interfaces (GridPatchCartesianGLL.cpp:828-863 and alike) has levels outside
and changes only the first array; otherwise (1017-1075 and alike) the nodes are outside, and for each node come the
levels and then the interfaces. -/
noncomputable def side (P : Patch) (s : Side) (A : State) : Except Fault State :=
  if P.conditions s.index ≠ periodic ∧ s.atBoundary P then
    if P.staggering = .interfaces then
      each P.levels (fun k => each (s.length P) (fun t => pointNode P s t k)) A
    else
      each (s.length P) (fun t A => do
        let A ← each P.levels (fun k => pointNode P s t k) A
        each (P.levels + 1) (fun k => pointEdge P s t k) A) A
  else .ok A

/-- `GridPatchCartesianGLL::ApplyBoundaryConditions` with three arguments, GridPatchCartesianGLL.cpp:785-1316. -/
noncomputable def apply (P : Patch) (A : State) : Except Fault State :=
  if P.staggering = .levels then .error .exception
  else do
    let A ← side P .right A
    let A ← side P .top A
    let A ← side P .left A
    side P .bottom A

/-- `GridPatch::ApplyBoundaryConditions` with two arguments, src/atm/GridPatch.h:141-148: its body is empty, and the
function with three arguments does not override it. -/
def applyInherited (_ : Patch) (A : State) : State := A

/-- `Grid::ApplyBoundaryConditions`, src/atm/Grid.cpp:448-456, which `Model::Go` calls once at the start
(src/atm/Model.cpp:349-350). -/
def applyAll (L : List (Patch × State)) : List (Patch × State) :=
  L.map (fun x => (x.1, applyInherited x.1 x.2))

end Verif.Wall
