import Verif.Nonhydro.Model
import Verif.Thermo.Constants

/-!
# Diagnostics of a patch

Models `GridPatch::ComputeSurfacePressure`, `ComputePressure`, `ComputeTemperature`, `ComputeTotalEnergy`,
`ComputeTotalPotentialEnstrophy` and `ComputeTotalVerticalMomentum` (src/atm/GridPatch.cpp:542-740, 925-1288) and the sums
over patches in src/atm/Grid.cpp:529-624, as compiled by src/atm/Defines.h: `FORMULATION_RHOTHETA_PI` is defined,
`FIXED_RELEMENTS` is not.

Simplifications: `double` is the real numbers; arrays are total functions of their indices; the index of the data
instance given to the three functions that do not check it is in range.
-/

namespace Verif.Thermo

open Verif.Horiz Verif.Nonhydro

/-- An array over nodes or columns of a patch, such as `m_dataPressure`, src/atm/GridPatch.h. -/
abbrev Field := Nat × Nat × Nat → ℝ

/-- What the diagnostics read beside the state: shape of the patch, number of components of the equation set, whether it
is shallow water, where density times potential temperature, vertical velocity and density live, the constants,
`m_dataContraMetric2DA`, `m_dataContraMetric2DB`, `m_dataJacobian2D`, `m_dataTopography`, `m_dataLat`, `m_dataZLevels`,
`m_dataZInterfaces`, `m_dataContraMetricA`, `m_dataContraMetricB`, `m_dataContraMetricXi`, `m_dataContraMetricXiREdge`,
`m_dataElementAreaNode`, `m_dataElementAreaREdge` and the interpolation from interfaces,
src/atm/GridPatch.cpp:542-740, 925-1288. -/
structure Gauge where
  S : Shape
  components : Nat
  shallow : Bool
  pOnEdge : Bool
  wOnEdge : Bool
  rOnEdge : Bool
  phys : Constants
  con2A : Nat → Nat → Nat → ℝ
  con2B : Nat → Nat → Nat → ℝ
  jac2 : Nat → Nat → ℝ
  topo : Nat → Nat → ℝ
  lat : Nat → Nat → ℝ
  zLevel : Nat → Nat → Nat → ℝ
  zInterface : Nat → Nat → Nat → ℝ
  conA : Nat → Nat → Nat → Nat → ℝ
  conB : Nat → Nat → Nat → Nat → ℝ
  conXi : Nat → Nat → Nat → Nat → ℝ
  conXiEdge : Nat → Nat → Nat → Nat → ℝ
  area : Nat → Nat → Nat → ℝ
  areaEdge : Nat → Nat → Nat → ℝ
  toNode : Nat → Nat → ℝ

/-- The loops over the columns of the interior, src/atm/GridPatch.cpp:570-571. -/
def columns {σ : Type} (S : Shape) (body : Nat → Nat → σ → σ) (s : σ) : σ :=
  loop (S.elemA * S.order) (fun i s => loop (S.elemB * S.order) (fun j s => body (S.halo + i) (S.halo + j) s) s) s

/-- The loops over the interior, src/atm/GridPatch.cpp:613-616. -/
def nodes {σ : Type} (S : Shape) (n : Nat) (body : Nat → Nat → Nat → σ → σ) (s : σ) : σ :=
  columns S (fun i j s => loop n (fun k s => body i j k s) s) s

/-- `ComputeSurfacePressure`, src/atm/GridPatch.cpp:542-584; `none` is an exception. -/
noncomputable def computeSurfacePressure (G : Gauge) (u : Data) (p : Nat × Nat → ℝ) : Option (Nat × Nat → ℝ) :=
  if G.components < 5 then none
  else some (columns G.S (fun i j p => loop G.S.levels (fun k p => put p (i, j) (p (i, j) +
    G.phys.g * u ⟨.state 4, i, j, k⟩ * (G.zInterface i j (k + 1) - G.zInterface i j k))) (put p (i, j) 0)) p)

/-- `ComputePressure`, src/atm/GridPatch.cpp:588-637. -/
noncomputable def computePressure (G : Gauge) (u : Data) (p : Field) : Option Field :=
  if G.components < 5 then none
  else some (nodes G.S G.S.levels (fun i j k p =>
    put p (i, j, k) (pressureFromRhoTheta G.phys (u ⟨.state 2, i, j, k⟩))) p)

/-- The interpolations of `ComputeTemperature`, src/atm/GridPatch.cpp:669-674. -/
noncomputable def lower (G : Gauge) (u : Data) : Data :=
  let u := if G.pOnEdge then mapColumns G.S G.toNode (edge 2) (.state 2) (G.S.levels + 1) G.S.levels u else u
  if G.rOnEdge then mapColumns G.S G.toNode (edge 4) (.state 4) (G.S.levels + 1) G.S.levels u else u

/-- `ComputeTemperature`, src/atm/GridPatch.cpp:641-740; `onLevels` is `loc == DataLocation_Node`, the other location is
interfaces. -/
noncomputable def computeTemperature (G : Gauge) (onLevels : Bool) (u : Data) (t : Field) : Option (Data × Field) :=
  if G.components < 5 then none
  else if onLevels then
    let u := lower G u
    some (u, nodes G.S G.S.levels (fun i j k t => put t (i, j, k)
      (pressureFromRhoTheta G.phys (u ⟨.state 2, i, j, k⟩) / (u ⟨.state 4, i, j, k⟩ * G.phys.r))) t)
  else none

section

variable (G : Gauge) (u : Data) (i j k : Nat)

/-- `dUdotU` of shallow water, src/atm/GridPatch.cpp:968-980. -/
noncomputable def shallowDot : ℝ :=
  (G.con2B i j 1 * u ⟨.state 0, i, j, k⟩ * u ⟨.state 0, i, j, k⟩ -
    2 * G.con2A i j 1 * u ⟨.state 0, i, j, k⟩ * u ⟨.state 1, i, j, k⟩ +
    G.con2A i j 0 * u ⟨.state 1, i, j, k⟩ * u ⟨.state 1, i, j, k⟩) * (G.jac2 i j * G.jac2 i j)

/-- The energy of shallow water at a node, src/atm/GridPatch.cpp:982-994. -/
noncomputable def shallowPoint : ℝ :=
  0.5 * shallowDot G u i j k * (u ⟨.state 2, i, j, k⟩ - G.topo i j) +
    0.5 * G.phys.g * (u ⟨.state 2, i, j, k⟩ * u ⟨.state 2, i, j, k⟩ - G.topo i j * G.topo i j)

/-- `dConUa`, src/atm/GridPatch.cpp:1011-1014. -/
noncomputable def gaugeUa : ℝ :=
  G.conA i j k 0 * u ⟨.state 0, i, j, k⟩ + G.conA i j k 1 * u ⟨.state 1, i, j, k⟩ +
    G.conA i j k 2 * u ⟨.state 3, i, j, k⟩

/-- `dConUb`, src/atm/GridPatch.cpp:1016-1019. -/
noncomputable def gaugeUb : ℝ :=
  G.conB i j k 0 * u ⟨.state 0, i, j, k⟩ + G.conB i j k 1 * u ⟨.state 1, i, j, k⟩ +
    G.conB i j k 2 * u ⟨.state 3, i, j, k⟩

/-- `dConUx`, src/atm/GridPatch.cpp:1021-1024. -/
noncomputable def gaugeUx : ℝ :=
  G.conXi i j k 0 * u ⟨.state 0, i, j, k⟩ + G.conXi i j k 1 * u ⟨.state 1, i, j, k⟩ +
    G.conXi i j k 2 * u ⟨.state 3, i, j, k⟩

/-- `dUdotU` with vertical velocity on levels, src/atm/GridPatch.cpp:1026. -/
noncomputable def levelDot : ℝ :=
  gaugeUa G u i j k * u ⟨.state 0, i, j, k⟩ + gaugeUb G u i j k * u ⟨.state 1, i, j, k⟩ +
    gaugeUx G u i j k * u ⟨.state 3, i, j, k⟩

/-- `dUdotU` with vertical velocity on interfaces, src/atm/GridPatch.cpp:1084-1087. -/
noncomputable def crossDot : ℝ :=
  gaugeUa G u i j k * u ⟨.state 0, i, j, k⟩ + gaugeUb G u i j k * u ⟨.state 1, i, j, k⟩ +
    G.conXi i j k 0 * u ⟨.state 0, i, j, k⟩ * u ⟨.state 3, i, j, k⟩ +
    G.conXi i j k 1 * u ⟨.state 1, i, j, k⟩ * u ⟨.state 3, i, j, k⟩

/-- The energy of a node given its `dUdotU`, src/atm/GridPatch.cpp:1028-1053, 1089-1114. -/
noncomputable def levelPoint (dot : ℝ) : ℝ :=
  0.5 * u ⟨.state 4, i, j, k⟩ * dot + pressureFromRhoTheta G.phys (u ⟨.state 2, i, j, k⟩) / (G.phys.gamma - 1) +
    G.phys.g * u ⟨.state 4, i, j, k⟩ * G.zLevel i j k

/-- The energy of an interface, src/atm/GridPatch.cpp:1122-1131. -/
noncomputable def interfacePoint : ℝ :=
  0.5 * u ⟨edge 4, i, j, k⟩ * G.conXiEdge i j k 2 * u ⟨edge 3, i, j, k⟩ * u ⟨edge 3, i, j, k⟩

end

/-- The index check, src/atm/GridPatch.cpp:956-959. -/
def withInstance {α : Type} (D : Nat → Data) (instances : Nat) (index : Int) (f : Data → Option α) : Option α :=
  if index < 0 ∨ (instances : Int) ≤ index then none else f (D index.toNat)

/-- `ComputeTotalEnergy` of a data instance, src/atm/GridPatch.cpp:962-1137. -/
noncomputable def energyOf (G : Gauge) (u : Data) : ℝ :=
  if G.shallow then
    nodes G.S G.S.levels (fun i j k e => e + G.area i j k * shallowPoint G u i j k) 0
  else if G.wOnEdge = false then
    nodes G.S G.S.levels (fun i j k e => e + G.area i j k * levelPoint G u i j k (levelDot G u i j k)) 0
  else
    nodes G.S (G.S.levels + 1) (fun i j k e => e + G.areaEdge i j k * interfacePoint G u i j k)
      (nodes G.S G.S.levels (fun i j k e => e + G.area i j k * levelPoint G u i j k (crossDot G u i j k)) 0)

/-- `ComputeTotalEnergy`, src/atm/GridPatch.cpp:925-1138. -/
noncomputable def computeTotalEnergy (G : Gauge) (D : Nat → Data) (instances : Nat) (index : Int) : Option ℝ :=
  withInstance D instances index (fun u => some (energyOf G u))

/-- `ComputeTotalPotentialEnstrophy`, src/atm/GridPatch.cpp:1142-1222; `vort` is `m_dataVorticity`. -/
noncomputable def computeTotalPotentialEnstrophy (G : Gauge) (vort : Field) (D : Nat → Data) (instances : Nat)
    (index : Int) : Option ℝ :=
  withInstance D instances index (fun u => some (if G.shallow then
    nodes G.S G.S.levels (fun i j k e => e + G.area i j k * 0.5 *
      (vort (i, j, k) + 2 * G.phys.omega * Real.sin (G.lat i j)) *
      (vort (i, j, k) + 2 * G.phys.omega * Real.sin (G.lat i j)) / (u ⟨.state 2, i, j, k⟩ - G.topo i j)) 0
  else nodes G.S G.S.levels (fun i j k e => e + G.area i j k * u ⟨.state 4, i, j, k⟩ * u ⟨.state 0, i, j, k⟩) 0))

/-- `ComputeTotalVerticalMomentum`, src/atm/GridPatch.cpp:1226-1288. -/
noncomputable def computeTotalVerticalMomentum (G : Gauge) (D : Nat → Data) (instances : Nat) (index : Int) : Option ℝ :=
  withInstance D instances index (fun u => if G.shallow then none
    else some (nodes G.S G.S.levels (fun i j k e =>
      e + G.area i j k * u ⟨.state 4, i, j, k⟩ * u ⟨.state 3, i, j, k⟩) 0))

/-- The sum over the patches of one process, src/atm/Grid.cpp:532-537. -/
noncomputable def localTotal (patches : List ℝ) : ℝ := patches.foldl (fun acc x => acc + x) 0

/-- What `Grid::ComputeTotalEnergy` and its two siblings return on process `rank`, given what each process computed for
each of its patches, src/atm/Grid.cpp:529-556, 560-591, 595-624.  `mpi` is `TEMPEST_MPIOMP`; `MPI_Reduce` writes the sum
on process 0 only. -/
noncomputable def gridTotal (mpi : Bool) (ranks : List (List ℝ)) (rank : Nat) : ℝ :=
  if mpi ∧ rank = 0 then (ranks.map localTotal).foldl (fun acc x => acc + x) 0 else 0

end Verif.Thermo
