import Verif.Horiz.Model
import Verif.Horiz.Basis

/-!
# The shallow water step

Models `HorizontalDynamicsFEM::StepShallowWater` (src/atm/HorizontalDynamicsFEM.cpp:322-649) on one patch, compiled
without `DIFFERENTIAL_FORM` (line 28).

Simplifications: `double` is the real numbers.  The element buffers `m_dAuxDataNode`, `m_dAlphaMassFlux`,
`m_dBetaMassFlux`, `m_dAlphaTracerFlux` and `m_dBetaTracerFlux`, which are filled for every node of the element before
any of it is read, are functions of the node.  Loops that fill several accumulators are written as one loop for each.
-/

namespace Verif.Horiz

/-- What the step reads from the patch and the grid, src/atm/HorizontalDynamicsFEM.cpp:367-408: shape, element widths,
`GetJacobian2D`, `GetContraMetric2DA`, `GetContraMetric2DB`, `GetCoriolisF`, `GetTopography` and gravity. -/
structure Geometry where
  S : Shape
  deltaA : ℝ
  deltaB : ℝ
  jac : Nat → Nat → ℝ
  metA : Nat → Nat → Nat → ℝ
  metB : Nat → Nat → Nat → ℝ
  coriolis : Nat → Nat → ℝ
  topo : Nat → Nat → ℝ
  g : ℝ

section

variable (G : Geometry) (B : Basis) (init : Data) (dt : ℝ) (a b k : Nat)

/-- `dataInitialNode(c,iElementA+i,iElementB+j,k)`; `UIx = 0`, `VIx = 1`, `HIx = 2`
(src/atm/HorizontalDynamicsFEM.cpp:352-354). -/
def read (c i j : Nat) : ℝ := init ⟨.state c, G.S.at a i, G.S.at b j, k⟩

/-- `ConUaIx`, src/atm/HorizontalDynamicsFEM.cpp:432-434. -/
noncomputable def conUa (i j : Nat) : ℝ :=
  G.metA (G.S.at a i) (G.S.at b j) 0 * read G init a b k 0 i j +
    G.metA (G.S.at a i) (G.S.at b j) 1 * read G init a b k 1 i j

/-- `ConUbIx`, src/atm/HorizontalDynamicsFEM.cpp:436-438. -/
noncomputable def conUb (i j : Nat) : ℝ :=
  G.metB (G.S.at a i) (G.S.at b j) 0 * read G init a b k 0 i j +
    G.metB (G.S.at a i) (G.S.at b j) 1 * read G init a b k 1 i j

/-- `KIx`, kinetic energy plus pressure, src/atm/HorizontalDynamicsFEM.cpp:441-446. -/
noncomputable def energyHead (i j : Nat) : ℝ :=
  0.5 * (conUa G init a b k i j * read G init a b k 0 i j + conUb G init a b k i j * read G init a b k 1 i j) +
    G.g * read G init a b k 2 i j

/-- `m_dAlphaMassFlux`, src/atm/HorizontalDynamicsFEM.cpp:462-475. -/
noncomputable def massFluxA (i j : Nat) : ℝ :=
  G.jac (G.S.at a i) (G.S.at b j) * conUa G init a b k i j *
    (read G init a b k 2 i j - G.topo (G.S.at a i) (G.S.at b j))

/-- `m_dBetaMassFlux`, src/atm/HorizontalDynamicsFEM.cpp:466-480. -/
noncomputable def massFluxB (i j : Nat) : ℝ :=
  G.jac (G.S.at a i) (G.S.at b j) * conUb G init a b k i j *
    (read G init a b k 2 i j - G.topo (G.S.at a i) (G.S.at b j))

/-- `m_dAlphaTracerFlux`, src/atm/HorizontalDynamicsFEM.cpp:483-485. -/
noncomputable def tracerFluxA (c i j : Nat) : ℝ :=
  G.jac (G.S.at a i) (G.S.at b j) * conUa G init a b k i j * init ⟨.tracer c, G.S.at a i, G.S.at b j, k⟩

/-- `m_dBetaTracerFlux`, src/atm/HorizontalDynamicsFEM.cpp:487-489. -/
noncomputable def tracerFluxB (c i j : Nat) : ℝ :=
  G.jac (G.S.at a i) (G.S.at b j) * conUb G init a b k i j * init ⟨.tracer c, G.S.at a i, G.S.at b j, k⟩

/-- A derivative in alpha by `dDxBasis1D`: `dCovDaUb`, `dDaKE`, src/atm/HorizontalDynamicsFEM.cpp:533-541, 572-574. -/
noncomputable def derivA (f : Nat → Nat → ℝ) (i j : Nat) : ℝ :=
  loop G.S.order (fun s acc => acc + f s j * B.dx s i) 0 * (1 / G.deltaA)

/-- A derivative in beta by `dDxBasis1D`: `dCovDbUa`, `dDbKE`, src/atm/HorizontalDynamicsFEM.cpp:560-568, 576-578. -/
noncomputable def derivB (f : Nat → Nat → ℝ) (i j : Nat) : ℝ :=
  loop G.S.order (fun s acc => acc + f i s * B.dx s j) 0 * (1 / G.deltaB)

/-- The variational derivative in alpha: `dDaMassFluxA` (src/atm/HorizontalDynamicsFEM.cpp:527-530, 572) and
`dDaTracerFluxA` (620-625, 632). -/
noncomputable def weakA (f : Nat → Nat → ℝ) (i j : Nat) : ℝ :=
  loop G.S.order (fun s acc => acc - f s j * B.stiff i s) 0 * (1 / G.deltaA)

/-- The variational derivative in beta: `dDbMassFluxB` (src/atm/HorizontalDynamicsFEM.cpp:555-558, 576) and
`dDbTracerFluxB` (621-629, 633). -/
noncomputable def weakB (f : Nat → Nat → ℝ) (i j : Nat) : ℝ :=
  loop G.S.order (fun s acc => acc - f i s * B.stiff j s) 0 * (1 / G.deltaB)

/-- `dZetaXi`, src/atm/HorizontalDynamicsFEM.cpp:585. -/
noncomputable def zeta (i j : Nat) : ℝ :=
  derivA G B (read G init a b k 1) i j - derivB G B (read G init a b k 0) i j

/-- `dLocalUpdateUa`, src/atm/HorizontalDynamicsFEM.cpp:581-603. -/
noncomputable def updateUa (i j : Nat) : ℝ :=
  G.coriolis (G.S.at a i) (G.S.at b j) * G.jac (G.S.at a i) (G.S.at b j) * conUb G init a b k i j +
    (-derivA G B (energyHead G init a b k) i j + conUb G init a b k i j * zeta G B init a b k i j)

/-- `dLocalUpdateUb`, src/atm/HorizontalDynamicsFEM.cpp:582-604. -/
noncomputable def updateUb (i j : Nat) : ℝ :=
  -(G.coriolis (G.S.at a i) (G.S.at b j) * G.jac (G.S.at a i) (G.S.at b j) * conUa G init a b k i j) +
    (-derivB G B (energyHead G init a b k) i j + -conUa G init a b k i j * zeta G B init a b k i j)

/-- The update of one node, src/atm/HorizontalDynamicsFEM.cpp:606-638. -/
noncomputable def swPoint (i j : Nat) (u : Data) : Data :=
  let iA := G.S.at a i
  let iB := G.S.at b j
  let invJ := 1 / G.jac iA iB
  let u := put u ⟨.state 0, iA, iB, k⟩ (u ⟨.state 0, iA, iB, k⟩ + dt * updateUa G B init a b k i j)
  let u := put u ⟨.state 1, iA, iB, k⟩ (u ⟨.state 1, iA, iB, k⟩ + dt * updateUb G B init a b k i j)
  let u := put u ⟨.state 2, iA, iB, k⟩ (u ⟨.state 2, iA, iB, k⟩ -
    dt * invJ * (weakA G B (massFluxA G init a b k) i j + weakB G B (massFluxB G init a b k) i j))
  loop G.S.tracers (fun c u => put u ⟨.tracer c, iA, iB, k⟩ (u ⟨.tracer c, iA, iB, k⟩ -
    dt * invJ * (weakA G B (tracerFluxA G init a b k c) i j + weakB G B (tracerFluxB G init a b k c) i j))) u

end

/-- `StepShallowWater` on one patch, src/atm/HorizontalDynamicsFEM.cpp:411-646. -/
noncomputable def stepShallowWater (G : Geometry) (B : Basis) (init : Data) (dt : ℝ) (u : Data) : Data :=
  loop G.S.elemA (fun a u => loop G.S.elemB (fun b u => loop G.S.levels (fun k u =>
    loop G.S.order (fun i u => loop G.S.order (fun j u => swPoint G B init dt a b k i j u) u) u) u) u) u

/-- `m_dataElementAreaNode`, src/atm/GridPatchCSGLL.cpp:441-458 (GridPatchCartesianGLL.cpp:338-347): the Jacobian times
the quadrature weights and widths in both directions times the weight of the level.  The node `i` of the element that an
index `iA = halo + a * order + i` belongs to is recovered by division.  The Jacobian is the two-dimensional one times a
factor of the level, as it is for the shallow water equations (`Ztop` is one and the surface is at zero,
src/atm/GridPatchCSGLL.cpp:305-307, 373-377). -/
noncomputable def nodeArea (G : Geometry) (w level : Nat → ℝ) (iA iB k : Nat) : ℝ :=
  G.jac iA iB * w ((iA - G.S.halo) % G.S.order) * G.deltaA * w ((iB - G.S.halo) % G.S.order) * G.deltaB * level k

end Verif.Horiz
