import Mathlib.Analysis.SpecialFunctions.Log.Basic
import Verif.Horiz.Shallow

/-!
# The horizontal step of the nonhydrostatic equations

Models `HorizontalDynamicsFEM::StepNonhydrostaticPrimitive` (src/atm/HorizontalDynamicsFEM.cpp:701-1783) on one patch, as
compiled by src/atm/Defines.h: `FORMULATION_RHOTHETA_PI` is defined, `FIX_ELEMENT_MASS_NONHYDRO`,
`INSTEP_DIVERGENCE_DAMPING` and `DISABLE_UNIFORM_DIFFUSION_CHECKS` are not.

Simplifications: `double` is the real numbers.  Element buffers, which are filled for every node of the element before
any of it is read, are functions of the node; the flux buffers of tracers, which the diffusion subtracts from, are the
final value.  Loops that fill several accumulators are written as one loop for each.  The arrays on levels and on
interfaces of one data instance are one function of the cell: component `c` on interfaces is `edge c`, which is numbered
after the five components on levels.
-/

namespace Verif.Nonhydro

open Verif.Horiz

/-- Component `c` of the array on interfaces, `GetDataState(i, DataLocation_REdge)`
(src/atm/HorizontalDynamicsFEM.cpp:808-812). -/
def edge (c : Nat) : Var := .state (5 + c)

/-- What the step reads from patch, grid and constants, src/atm/HorizontalDynamicsFEM.cpp:760-800, 841-851: shape, widths,
two-dimensional Jacobian, Coriolis parameter and gravity (`G`), `GetJacobian`, `GetContraMetricA`, `GetContraMetricB`,
`GetContraMetricXi`, `GetContraMetricXiREdge`, `GetDerivRNode`, the column operators as matrices, the vertical
staggering, `GetIsCartesianXZ`, the uniform diffusion, and the constants `P0`, `R`, `Cp`. -/
structure Air where
  G : Geometry
  B : Basis
  jac : Nat → Nat → Nat → ℝ
  conA : Nat → Nat → Nat → Nat → ℝ
  conB : Nat → Nat → Nat → Nat → ℝ
  conXi : Nat → Nat → Nat → Nat → ℝ
  conXiEdge : Nat → Nat → Nat → Nat → ℝ
  derivR : Nat → Nat → Nat → Nat → ℝ
  toEdge : Nat → Nat → ℝ
  toNode : Nat → Nat → ℝ
  diff : Nat → Nat → ℝ
  wOnEdge : Bool
  pOnEdge : Bool
  xz : Bool
  uniform : Bool
  nu : ℝ
  p0 : ℝ
  rd : ℝ
  cp : ℝ

/-- `PhysicalConstants::ExnerPressureFromRhoTheta`, src/atm/PhysicalConstants.h:397-399. -/
noncomputable def exnerOf (A : Air) (x : ℝ) : ℝ :=
  A.cp * Real.exp (A.rd / (A.cp - A.rd) * Real.log (A.rd / A.p0 * x))

/-- A row of a column operator applied to a column, src/atm/LinearColumnOperator.h:103-121. -/
noncomputable def row (n : Nat) (M : Nat → Nat → ℝ) (k : Nat) (col : Nat → ℝ) : ℝ :=
  loop n (fun m acc => acc + M k m * col m) 0

/-- One column of `GridPatchGLL::InterpolateREdgeToNode` or `InterpolateNodeToREdge`: `src` with `n` entries is mapped to
`dst` with `m`, src/atm/GridPatchGLL.cpp:102-104, 136-138. -/
noncomputable def mapColumn (M : Nat → Nat → ℝ) (src dst : Var) (n m iA iB : Nat) (u : Data) : Data :=
  loop m (fun k s => put s ⟨dst, iA, iB, k⟩ (row n M k (fun l => u ⟨src, iA, iB, l⟩))) u

/-- The loops over the interior, src/atm/GridPatchGLL.cpp:99-108, 133-142. -/
noncomputable def mapColumns (S : Shape) (M : Nat → Nat → ℝ) (src dst : Var) (n m : Nat) (u : Data) : Data :=
  loop (S.elemA * S.order) (fun i u => loop (S.elemB * S.order) (fun j u =>
    mapColumn M src dst n m (S.halo + i) (S.halo + j) u) u) u

/-- The interpolations due to staggering, src/atm/HorizontalDynamicsFEM.cpp:823-839; where a variable is on interfaces
`GetVarsAtLocation(DataLocation_REdge)` is not zero. -/
noncomputable def prepare (A : Air) (u : Data) : Data :=
  let L := A.G.S.levels
  let u := if A.wOnEdge then
      mapColumns A.G.S A.toEdge (.state 1) (edge 1) L (L + 1)
        (mapColumns A.G.S A.toEdge (.state 0) (edge 0) L (L + 1)
          (mapColumns A.G.S A.toNode (edge 3) (.state 3) (L + 1) L u))
    else u
  if A.pOnEdge then mapColumns A.G.S A.toNode (edge 2) (.state 2) (L + 1) L u else u

section

variable (A : Air) (init : Data) (dt : ℝ) (a b k : Nat)

/-- `m_dLocalContraMetric`, src/atm/HorizontalDynamicsFEM.cpp:899-910. -/
def contra (c i j : Nat) : ℝ :=
  let iA := A.G.S.at a i
  let iB := A.G.S.at b j
  match c with
  | 0 => A.conA iA iB k 0
  | 1 => A.conA iA iB k 1
  | 2 => A.conA iA iB k 2
  | 3 => A.conB iA iB k 1
  | 4 => A.conB iA iB k 2
  | _ => A.conXi iA iB k 2

/-- `ConUaIx`, src/atm/HorizontalDynamicsFEM.cpp:916-919. -/
noncomputable def conUa (i j : Nat) : ℝ :=
  contra A a b k 0 i j * read A.G init a b k 0 i j + contra A a b k 1 i j * read A.G init a b k 1 i j +
    contra A a b k 2 i j * read A.G init a b k 3 i j

/-- `ConUbIx`, src/atm/HorizontalDynamicsFEM.cpp:921-924. -/
noncomputable def conUb (i j : Nat) : ℝ :=
  contra A a b k 1 i j * read A.G init a b k 0 i j + contra A a b k 3 i j * read A.G init a b k 1 i j +
    contra A a b k 4 i j * read A.G init a b k 3 i j

/-- `ConUxIx`, src/atm/HorizontalDynamicsFEM.cpp:926-929. -/
noncomputable def conUx (i j : Nat) : ℝ :=
  contra A a b k 2 i j * read A.G init a b k 0 i j + contra A a b k 4 i j * read A.G init a b k 1 i j +
    contra A a b k 5 i j * read A.G init a b k 3 i j

/-- `KIx`, src/atm/HorizontalDynamicsFEM.cpp:932-935. -/
noncomputable def kinetic (i j : Nat) : ℝ :=
  0.5 * (conUa A init a b k i j * read A.G init a b k 0 i j + conUb A init a b k i j * read A.G init a b k 1 i j +
    conUx A init a b k i j * read A.G init a b k 3 i j)

/-- `ExnerIx`, src/atm/HorizontalDynamicsFEM.cpp:949-951. -/
noncomputable def exner (i j : Nat) : ℝ := exnerOf A (read A.G init a b k 2 i j)

/-- `dCovDxUa` (component 0) and `dCovDxUb` (component 1), src/atm/HorizontalDynamicsFEM.cpp:974-982. -/
noncomputable def vertDeriv (c i j : Nat) : ℝ :=
  row A.G.S.levels A.diff k (fun l => init ⟨.state c, A.G.S.at a i, A.G.S.at b j, l⟩)

/-- `dJZetaA`, src/atm/HorizontalDynamicsFEM.cpp:1008-1011, 1019-1025. -/
noncomputable def zetaA (i j : Nat) : ℝ :=
  derivB A.G A.B (read A.G init a b k 3) i j - vertDeriv A init a b k 1 i j

/-- `dJZetaB`, src/atm/HorizontalDynamicsFEM.cpp:998-1001, 1019-1026. -/
noncomputable def zetaB (i j : Nat) : ℝ :=
  vertDeriv A init a b k 0 i j - derivA A.G A.B (read A.G init a b k 3) i j

/-- `dJZetaX`, src/atm/HorizontalDynamicsFEM.cpp:992-1006, 1019-1027. -/
noncomputable def zetaX (i j : Nat) : ℝ :=
  derivA A.G A.B (read A.G init a b k 1) i j - derivB A.G A.B (read A.G init a b k 0) i j

/-- `UCrossZetaAIx`, src/atm/HorizontalDynamicsFEM.cpp:1030-1031. -/
noncomputable def crossA (i j : Nat) : ℝ :=
  conUb A init a b k i j * zetaX A init a b k i j - conUx A init a b k i j * zetaB A init a b k i j

/-- `UCrossZetaBIx`, src/atm/HorizontalDynamicsFEM.cpp:1033-1034. -/
noncomputable def crossB (i j : Nat) : ℝ :=
  conUx A init a b k i j * zetaA A init a b k i j - conUa A init a b k i j * zetaX A init a b k i j

/-- `UCrossZetaXIx`, src/atm/HorizontalDynamicsFEM.cpp:1036-1037. -/
noncomputable def crossX (i j : Nat) : ℝ :=
  -conUa A init a b k i j * derivA A.G A.B (read A.G init a b k 3) i j -
    conUb A init a b k i j * derivB A.G A.B (read A.G init a b k 3) i j

/-- `dAlphaBaseFlux` times a variable: `m_dAlphaMassFlux`, `m_dAlphaPressureFlux` and the first part of
`m_dAlphaTracerFlux`, src/atm/HorizontalDynamicsFEM.cpp:1051-1062, 1084-1087, 1096-1098. -/
noncomputable def fluxA (v : Var) (i j : Nat) : ℝ :=
  A.jac (A.G.S.at a i) (A.G.S.at b j) k * conUa A init a b k i j * init ⟨v, A.G.S.at a i, A.G.S.at b j, k⟩

/-- As `fluxA` in beta, src/atm/HorizontalDynamicsFEM.cpp:1055-1066, 1089-1091, 1100-1102. -/
noncomputable def fluxB (v : Var) (i j : Nat) : ℝ :=
  A.jac (A.G.S.at a i) (A.G.S.at b j) k * conUb A init a b k i j * init ⟨v, A.G.S.at a i, A.G.S.at b j, k⟩

/-- The mixing ratio whose derivatives are `dCovDaQ` and `dCovDbQ`, src/atm/HorizontalDynamicsFEM.cpp:1118-1126. -/
noncomputable def ratio (c i j : Nat) : ℝ :=
  init ⟨.tracer c, A.G.S.at a i, A.G.S.at b j, k⟩ / read A.G init a b k 4 i j

/-- `m_dAlphaTracerFlux`, src/atm/HorizontalDynamicsFEM.cpp:1096-1098, 1105-1146. -/
noncomputable def tracerFluxA (c i j : Nat) : ℝ :=
  if A.uniform then
    fluxA A init a b k (.tracer c) i j - A.nu * A.jac (A.G.S.at a i) (A.G.S.at b j) k * read A.G init a b k 4 i j *
      (contra A a b k 0 i j * derivA A.G A.B (ratio A init a b k c) i j +
        contra A a b k 1 i j * derivB A.G A.B (ratio A init a b k c) i j)
  else fluxA A init a b k (.tracer c) i j

/-- `m_dBetaTracerFlux`, src/atm/HorizontalDynamicsFEM.cpp:1100-1102, 1105-1152. -/
noncomputable def tracerFluxB (c i j : Nat) : ℝ :=
  if A.uniform then
    fluxB A init a b k (.tracer c) i j - A.nu * A.jac (A.G.S.at a i) (A.G.S.at b j) k * read A.G init a b k 4 i j *
      (contra A a b k 1 i j * derivA A.G A.B (ratio A init a b k c) i j +
        contra A a b k 3 i j * derivB A.G A.B (ratio A init a b k c) i j)
  else fluxB A init a b k (.tracer c) i j

/-- `dLocalUpdateUa`, src/atm/HorizontalDynamicsFEM.cpp:1321-1377. -/
noncomputable def updateUa (i j : Nat) : ℝ :=
  let iA := A.G.S.at a i
  let iB := A.G.S.at b j
  crossA A init a b k i j + A.G.coriolis iA iB * A.G.jac iA iB * conUb A init a b k i j -
    (derivA A.G A.B (exner A init a b k) i j * read A.G init a b k 2 i j / read A.G init a b k 4 i j +
      derivA A.G A.B (kinetic A init a b k) i j + A.G.g * A.derivR iA iB k 0)

/-- `dLocalUpdateUb`, src/atm/HorizontalDynamicsFEM.cpp:1322-1378. -/
noncomputable def updateUb (i j : Nat) : ℝ :=
  let iA := A.G.S.at a i
  let iB := A.G.S.at b j
  crossB A init a b k i j - A.G.coriolis iA iB * A.G.jac iA iB * conUa A init a b k i j -
    (derivB A.G A.B (exner A init a b k) i j * read A.G init a b k 2 i j / read A.G init a b k 4 i j +
      derivB A.G A.B (kinetic A init a b k) i j + A.G.g * A.derivR iA iB k 1)

/-- What is read as `m_dLocalContraMetric(iA,iB,0,c)` by src/atm/HorizontalDynamicsFEM.cpp:1434-1440, where the indices
are those of the patch and not of the element: the array has `order * order` nodes, so that the node read is the one
`iA * order + iB` places from the first. -/
def strayMetric (c i j : Nat) : ℝ :=
  let q := A.G.S.at a i * A.G.S.order + A.G.S.at b j
  contra A a b 0 c (q / A.G.S.order) (q % A.G.S.order)

/-- `dLocalUpdateUr`, src/atm/HorizontalDynamicsFEM.cpp:1429-1444. -/
noncomputable def updateUr (i j : Nat) : ℝ :=
  if k = 0 then
    -(strayMetric A a b 2 i j * updateUa A init a b k i j + strayMetric A a b 4 i j * updateUb A init a b k i j) /
      strayMetric A a b 5 i j
  else if k = A.G.S.levels - 1 then 0
  else crossX A init a b k i j

/-- The update of one node, src/atm/HorizontalDynamicsFEM.cpp:1157-1165, 1379-1449, 1529-1553. -/
noncomputable def nodePoint (i j : Nat) (u : Data) : Data :=
  let iA := A.G.S.at a i
  let iB := A.G.S.at b j
  let invJ := 1 / A.jac iA iB k
  let u := put u ⟨.state 0, iA, iB, k⟩ (u ⟨.state 0, iA, iB, k⟩ + dt * updateUa A init a b k i j)
  let u := if A.xz then u else
    put u ⟨.state 1, iA, iB, k⟩ (u ⟨.state 1, iA, iB, k⟩ + dt * updateUb A init a b k i j)
  let u := put u ⟨.state 4, iA, iB, k⟩ (u ⟨.state 4, iA, iB, k⟩ -
    dt * invJ * (weakA A.G A.B (fluxA A init a b k (.state 4)) i j + weakB A.G A.B (fluxB A init a b k (.state 4)) i j))
  let u := put u ⟨.state 2, iA, iB, k⟩ (u ⟨.state 2, iA, iB, k⟩ -
    dt * invJ * (weakA A.G A.B (fluxA A init a b k (.state 2)) i j + weakB A.G A.B (fluxB A init a b k (.state 2)) i j))
  let u := if A.wOnEdge then u else
    put u ⟨.state 3, iA, iB, k⟩ (u ⟨.state 3, iA, iB, k⟩ + dt * updateUr A init a b k i j)
  loop A.G.S.tracers (fun c u => put u ⟨.tracer c, iA, iB, k⟩ (u ⟨.tracer c, iA, iB, k⟩ -
    dt * invJ * (weakA A.G A.B (tracerFluxA A init a b k c) i j + weakB A.G A.B (tracerFluxB A init a b k c) i j))) u

/-- The vertical velocity at the bottom boundary, src/atm/HorizontalDynamicsFEM.cpp:1601-1622. -/
noncomputable def bottomPoint (i j : Nat) (u : Data) : Data :=
  let iA := A.G.S.at a i
  let iB := A.G.S.at b j
  let u0 := row A.G.S.levels A.toEdge 0 (fun l => u ⟨.state 0, iA, iB, l⟩)
  let v0 := row A.G.S.levels A.toEdge 0 (fun l => u ⟨.state 1, iA, iB, l⟩)
  put u ⟨edge 3, iA, iB, 0⟩ (-(A.conXiEdge iA iB 0 0 * u0 + A.conXiEdge iA iB 0 1 * v0) / A.conXiEdge iA iB 0 2)

/-- The vertical velocity at an interior interface, the pass for `t + 1`, src/atm/HorizontalDynamicsFEM.cpp:1628-1643. -/
noncomputable def edgePoint (i j t : Nat) (u : Data) : Data :=
  let x : Cell := ⟨edge 3, A.G.S.at a i, A.G.S.at b j, t + 1⟩
  put u x (u x + dt * row A.G.S.levels A.toEdge (t + 1) (fun l => crossX A init a b l i j))

/-- One element, src/atm/HorizontalDynamicsFEM.cpp:1155-1648. -/
noncomputable def element (u : Data) : Data :=
  let n := A.G.S.order
  let u := loop n (fun i u => loop n (fun j u =>
    loop A.G.S.levels (fun k u => nodePoint A init dt a b k i j u) u) u) u
  if A.wOnEdge then
    let u := loop n (fun i u => loop n (fun j u => bottomPoint A a b i j u) u) u
    loop n (fun i u => loop n (fun j u =>
      loop (A.G.S.levels - 1) (fun t u => edgePoint A init dt a b i j t u) u) u) u
  else u

end

/-- A pass reads `m_dLocalContraMetric` past its end: with vertical velocity on levels the pass for the lowest level of a
node whose stray index is not below the number of nodes of an element. -/
def readsPastEnd (A : Air) : Prop :=
  A.wOnEdge = false ∧ 0 < A.G.S.levels ∧ ∃ a < A.G.S.elemA, ∃ b < A.G.S.elemB, ∃ i < A.G.S.order, ∃ j < A.G.S.order,
    A.G.S.order * A.G.S.order ≤ A.G.S.at a i * A.G.S.order + A.G.S.at b j

open Classical in
/-- `StepNonhydrostaticPrimitive` on one patch: the initial instance, which the interpolations change, and the updated
one, src/atm/HorizontalDynamicsFEM.cpp:755-1782.  `none` is undefined behaviour: a read outside an array. -/
noncomputable def stepNonhydro (A : Air) (init : Data) (dt : ℝ) (u : Data) : Option (Data × Data) :=
  if readsPastEnd A then none
  else
    let init := prepare A init
    some (init, loop A.G.S.elemA (fun a u => loop A.G.S.elemB (fun b u => element A init dt a b u) u) u)

end Verif.Nonhydro
