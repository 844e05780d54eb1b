/-
Model of the vertical dynamics of one column (src/atm/VerticalDynamicsFEM.cpp): `SetupReferenceColumn`, `PrepareColumn`,
`BuildF`, `Evaluate`.

Simplifications: `double` is the real numbers.  The configuration is the one compiled: `FORMULATION_RHOTHETA_PI`,
`VERTICAL_VELOCITY_ADVECTION_CLARK`, upwinding of every variable, no hyperviscosity (the `HYPERVISC_` macros are commented out,
VerticalDynamicsFEM.cpp:34-36, so that `m_fHypervisVar` is false), uniform diffusion if the grid has it.  Every loop writes one
array from arrays computed before it, so arrays are given by their entries.  Density lives on levels (Grid.cpp:265-294).
-/
import Verif.Column.Penalty
import Verif.Thermo.Constants

namespace Verif.Vdyn

open Verif.Column

/-- What does not change from column to column: options, constants and column operators.  `levels` is `GetRElements()`, `order`
is `m_nVerticalOrder`, `volumes` is `VerticalDiscretization_FiniteVolume`, `massOnLevels` is `m_fForceMassFluxOnLevels`,
`uniform` is `HasUniformDiffusion()`, `useRef` is `m_fUseReferenceState`; the operators are those of GridGLL.cpp:190-360 from
nodes (N) or interfaces (E) to nodes or interfaces. -/
structure Setup where
  levels : Nat
  order : Nat
  volumes : Bool
  wOnEdge : Bool
  pOnEdge : Bool
  massOnLevels : Bool
  uniform : Bool
  useRef : Bool
  nuScalar : ℝ
  nuVector : ℝ
  ztop : ℝ
  dt : ℝ
  phys : Thermo.Constants
  interpNE : Op
  interpEN : Op
  diffNN : Op
  diffNNZero : Op
  diffNE : Op
  diffEN : Op
  diffDiffNN : Op
  diffDiffEE : Op
  penalty : Penalty

/-- The metric of the column, VerticalDynamicsFEM.cpp:1764-1834: `m_dColumnJacobian…`, third component of `m_dColumnDerivR…`,
`m_dColumnContraMetric…`; level or interface first, component second. -/
structure Metric where
  jac : Nat → ℝ
  jacEdge : Nat → ℝ
  derivR : Nat → ℝ
  derivREdge : Nat → ℝ
  conA : Nat → Nat → ℝ
  conB : Nat → Nat → ℝ
  conXi : Nat → Nat → ℝ
  conAEdge : Nat → Nat → ℝ
  conBEdge : Nat → Nat → ℝ
  conXiEdge : Nat → Nat → ℝ

/-- The work arrays that outlive a column: `m_dStateNode`, `m_dStateREdge`, `m_dStateRefNode`, `m_dStateRefREdge` (component
first), `m_dColumnState`, `m_dDiffUa`, `m_dDiffUb`. -/
structure Memory where
  node : Nat → Nat → ℝ
  edge : Nat → Nat → ℝ
  refNode : Nat → Nat → ℝ
  refEdge : Nat → Nat → ℝ
  state : Nat → ℝ
  diffUa : Nat → ℝ
  diffUb : Nat → ℝ

/-- The data of one column of a patch on nodes and interfaces, and the reference state; component first. -/
structure Data where
  node : Nat → Nat → ℝ
  edge : Nat → Nat → ℝ
  refNode : Nat → Nat → ℝ
  refEdge : Nat → Nat → ℝ

/-- `VecFIx`, VerticalDynamicsFEM.h:97-104; components are 0 for density times potential temperature, 1 for vertical velocity
and 2 for density. -/
def vec (c k : Nat) : Nat := 3 * k + c

variable (S : Setup) (G : Metric)

/-- `SetupReferenceColumn`, VerticalDynamicsFEM.cpp:1643-1835 (the metric apart). -/
noncomputable def setupColumn (D : Data) (M : Memory) : Memory :=
  let node := fun c => if c = 0 ∨ c = 1 then D.node c else M.node c
  let edge := fun c => if (c = 0 ∨ c = 1) ∧ (S.wOnEdge = true ∨ S.pOnEdge = true) then applyRow S.interpNE (node c) else M.edge c
  let diff := if S.wOnEdge then S.diffNE else S.diffNN
  let keep := S.uniform = true ∧ S.useRef = true
  { node := node
    edge := edge
    refNode := fun c => if keep ∧ 2 ≤ c ∧ c ≤ 4 then D.refNode c else M.refNode c
    refEdge := fun c => if keep ∧ 2 ≤ c ∧ c ≤ 4 then D.refEdge c else M.refEdge c
    state := fun i =>
      if i % 3 = 0 then (if S.pOnEdge then D.edge 2 (i / 3) else if i / 3 < S.levels then D.node 2 (i / 3) else M.state i)
      else if i % 3 = 1 then (if S.wOnEdge then D.edge 3 (i / 3) else if i / 3 < S.levels then D.node 3 (i / 3) else M.state i)
      else if i / 3 < S.levels then D.node 4 (i / 3) else M.state i
    diffUa := applyRow diff (node 0)
    diffUb := applyRow diff (node 1) }

variable (M : Memory) (x : Nat → ℝ)

/-- Vertical velocity on interfaces after `PrepareColumn`, VerticalDynamicsFEM.cpp:1869-1881. -/
def wEdge : Nat → ℝ := if S.wOnEdge then fun k => x (vec 1 k) else M.edge 3

/-- `m_dStateNode` after `PrepareColumn`, VerticalDynamicsFEM.cpp:1859-1876 and 1946-1948. -/
noncomputable def nodeState (c : Nat) : Nat → ℝ :=
  if c = 2 then (if S.pOnEdge then M.node 2 else fun k => x (vec 0 k))
  else if c = 3 then (if S.wOnEdge then applyRow S.interpEN (wEdge S M x) else fun k => x (vec 1 k))
  else if c = 4 then fun k => x (vec 2 k)
  else M.node c

/-- `m_dStateREdge` after `PrepareColumn`, VerticalDynamicsFEM.cpp:1859-1884, 1951-1953 and 1974-1976: with vertical velocity on
interfaces, density times potential temperature on interfaces is interpolated from levels whatever was stored before. -/
noncomputable def edgeState (c : Nat) : Nat → ℝ :=
  if c = 2 then
    (if S.wOnEdge then applyRow S.interpNE (nodeState S M x 2) else if S.pOnEdge then fun k => x (vec 0 k) else M.edge 2)
  else if c = 3 then wEdge S M x
  else if c = 4 then (if S.wOnEdge then applyRow S.interpNE (nodeState S M x 4) else M.edge 4)
  else M.edge c

/-- `m_dExnerNode`, VerticalDynamicsFEM.cpp:1896-1899 and 1979-1983. -/
noncomputable def exnerNode (k : Nat) : ℝ := Thermo.exnerFromRhoTheta S.phys (nodeState S M x 2 k)

/-- `m_dDiffPNode`, VerticalDynamicsFEM.cpp:1902-1904. -/
noncomputable def diffPNode : Nat → ℝ := applyRow S.diffNN (exnerNode S M x)

/-- `m_dDiffPREdge`, VerticalDynamicsFEM.cpp:1986-1988. -/
noncomputable def diffPEdge : Nat → ℝ := applyRow S.diffNE (exnerNode S M x)

/-- `m_dXiDotNode`, VerticalDynamicsFEM.cpp:2050-2055. -/
noncomputable def xiDotNode (k : Nat) : ℝ :=
  G.conXi k 0 * nodeState S M x 0 k + G.conXi k 1 * nodeState S M x 1 k + G.conXi k 2 * nodeState S M x 3 k

/-- `m_dXiDotREdge`, VerticalDynamicsFEM.cpp:2058-2066. -/
noncomputable def xiDotEdge (k : Nat) : ℝ :=
  if 1 ≤ k ∧ k < S.levels then
    G.conXiEdge k 0 * edgeState S M x 0 k + G.conXiEdge k 1 * edgeState S M x 1 k + G.conXiEdge k 2 * edgeState S M x 3 k
  else 0

/-- Whether fluxes are computed on levels, VerticalDynamicsFEM.cpp:2209-2214. -/
def fluxOnLevels : Bool := S.massOnLevels || !S.wOnEdge

/-- The derivative of the flux of variable `c` on levels, VerticalDynamicsFEM.cpp:2220-2244 (density) and 2302-2325 (density
times potential temperature).  The fluxes at both ends of the column are never written and stay zero. -/
noncomputable def diffFlux (c : Nat) : Nat → ℝ :=
  if fluxOnLevels S then
    applyRow (if S.wOnEdge then S.diffNNZero else S.diffNN) fun k => G.jac k * nodeState S M x c k * xiDotNode S G M x k
  else applyRow S.diffEN fun k =>
    if 1 ≤ k ∧ k < S.levels then G.jacEdge k * edgeState S M x c k * xiDotEdge S G M x k else 0

/-- Contravariant velocity from covariant components, as in VerticalDynamicsFEM.cpp:2439-2452. -/
def contra (row : Nat → ℝ) (u v w : ℝ) : ℝ := row 0 * u + row 1 * v + row 2 * w

/-- `m_dKineticEnergyNode`, VerticalDynamicsFEM.cpp:2434-2457. -/
noncomputable def kineticNode (k : Nat) : ℝ :=
  let u := nodeState S M x 0 k
  let v := nodeState S M x 1 k
  let w := nodeState S M x 3 k
  0.5 * (contra (G.conA k) u v w * u + contra (G.conB k) u v w * v + contra (G.conXi k) u v w * w)

/-- The residual of vertical velocity on level `k` before diffusion, VerticalDynamicsFEM.cpp:2473-2523. -/
noncomputable def forceNode (k : Nat) : ℝ :=
  let u := nodeState S M x 0 k
  let v := nodeState S M x 1 k
  let w := nodeState S M x 3 k
  if 1 ≤ k ∧ k < S.levels - 1 then
    diffPNode S M x k * nodeState S M x 2 k / nodeState S M x 4 k + S.phys.g * G.derivR k +
      (applyRow S.diffNN (kineticNode S G M x) k +
        (-contra (G.conA k) u v w * M.diffUa k - contra (G.conB k) u v w * M.diffUb k))
  else 0

/-- The residual of vertical velocity on interface `k` before diffusion, VerticalDynamicsFEM.cpp:2530-2584. -/
noncomputable def forceEdge (k : Nat) : ℝ :=
  let u := edgeState S M x 0 k
  let v := edgeState S M x 1 k
  let w := edgeState S M x 3 k
  if 1 ≤ k ∧ k < S.levels then
    diffPEdge S M x k * edgeState S M x 2 k / edgeState S M x 4 k + S.phys.g * G.derivREdge k +
      (applyRow S.diffNE (kineticNode S G M x) k +
        (-contra (G.conAEdge k) u v w * M.diffUa k - contra (G.conBEdge k) u v w * M.diffUb k))
  else 0

/-- Whether variable `c` lives on interfaces. -/
def onEdge (c : Nat) : Bool := (c == 2 && S.pOnEdge) || (c == 3 && S.wOnEdge)

/-- The second derivative of the column without its reference, VerticalDynamicsFEM.cpp:2107-2121 and 2141-2157, and 2601-2604:
vertical velocity is not diffused at entries 0 and `nRElements`. -/
noncomputable def diffDiffUniform (c k : Nat) : ℝ :=
  if c = 3 ∧ (k = 0 ∨ k = S.levels) then 0
  else if onEdge S c then applyRow S.diffDiffEE (edgeState S M x c) k - applyRow S.diffDiffEE (M.refEdge c) k
  else applyRow S.diffDiffNN (nodeState S M x c) k - applyRow S.diffDiffNN (M.refNode c) k

/-- Uniform diffusion, VerticalDynamicsFEM.cpp:2591-2635. -/
noncomputable def diffusion (c k : Nat) : ℝ :=
  if S.uniform = true ∧ (c = 2 ∨ c = 3) then
    (if c = 2 then S.nuScalar else S.nuVector) / (S.ztop * S.ztop) * diffDiffUniform S M x c k
  else 0

/-- Levels of a finite element, VerticalDynamicsFEM.cpp:2645-2653. -/
def perElement : Nat := if S.volumes then 1 else S.order

/-- `m_dUpwindWeights`, VerticalDynamicsFEM.cpp:2656-2659. -/
noncomputable def upwindWeight (a : Nat) : ℝ := |xiDotEdge S G M x ((a + 1) * perElement S)|

/-- Upwinding, VerticalDynamicsFEM.cpp:2662-2713; `m_dUpwindCoeff` is set in VerticalDynamicsFEM.cpp:386-387. -/
noncomputable def upwind (c k : Nat) : ℝ :=
  if onEdge S c then
    1 / 2 * (1 / (S.levels : ℝ)) * |xiDotEdge S G M x k| *
      (if c = 3 ∧ (k = 0 ∨ k = S.levels) then 0 else applyRow S.diffDiffEE (edgeState S M x c) k)
  else penaltyApply S.penalty (upwindWeight S G M x) (nodeState S M x c) (fun _ => 0) 1 1 k

/-- `BuildF` before the time derivative, VerticalDynamicsFEM.cpp:2183-2758, entry of variable `c` (2 density times potential
temperature, 3 vertical velocity, 4 density) at level or interface `k`: entries that no loop writes are zero. -/
noncomputable def tendency (c k : Nat) : ℝ :=
  if c = 3 then
    (if k = 0 ∨ k = (if S.wOnEdge then S.levels else S.levels - 1) then 0
    else if S.wOnEdge then forceEdge S G M x k - diffusion S M x 3 k - upwind S G M x 3 k
    else if k < S.levels then forceNode S G M x k - diffusion S M x 3 k - upwind S G M x 3 k
    else 0)
  else if k < S.levels then
    diffFlux S G M x c k * (1 / G.jac k) - diffusion S M x c k - upwind S G M x c k
  else if onEdge S c then 0 - diffusion S M x c k - upwind S G M x c k
  else 0

/-- `BuildF` after `PrepareColumn`, that is `Evaluate`, VerticalDynamicsFEM.cpp:3770-3779: entry `i` of the column. -/
noncomputable def residual (i : Nat) : ℝ :=
  tendency S G M x (i % 3 + 2) (i / 3) + (x i - M.state i) * (1 / S.dt)

end Verif.Vdyn
