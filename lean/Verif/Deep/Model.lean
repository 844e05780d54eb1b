import Verif.Whole.Model
import Verif.Nonhydro.Explicit
import Verif.Nonhydro.Spec
import Verif.Vdyn.Explicit

/-!
# A whole nonhydrostatic model

Puts together what is modelled piece by piece elsewhere: the grid, the exchange and the summation of `Verif.Whole`, the
horizontal explicit step of `Verif.Nonhydro` (src/atm/HorizontalDynamicsFEM.cpp:1787-1863), the vertical steps of
`Verif.Vdyn` (src/atm/VerticalDynamicsFEM.cpp:439-607, 616-1173, 1230-1640) and the viscosity of `Verif.Horiz`
(src/atm/HorizontalDynamicsFEM.cpp:2637-2726), as the dynamics that the drivers of `Verif.Steps` call.

Simplifications: those of the parts.  A data instance holds each variable where it lives (`GetVarLocation`); its
interpolation to the other location is not kept between calls: the steps that read it compute it again
(src/atm/HorizontalDynamicsFEM.cpp:823-839, src/atm/VerticalDynamicsFEM.cpp:1665-1762), and the explicit vertical step
reads what the horizontal step on the same instance has just computed.  Where a step throws, the model leaves the data as
they were; so it does where the implicit step is called with time step zero, by which the code divides.  The memory of the
vertical dynamics is that at the beginning for every call.  No Rayleigh friction.
-/

namespace Verif.Deep

open Verif.Whole (World Arr)
open Verif.Horiz (Medium Cell Var)

/-- The model: the grid with the metric of its patches (`W`), what else the horizontal dynamics read (`air`: metric terms,
column operators, constants, uniform diffusion), what else the vertical dynamics read (`fixed`: metric terms, reference
state; `column`: operators and options), the option of fully explicit vertical dynamics, LAPACK's solver, and the memory of
the vertical dynamics with what a column leaves in it. -/
structure Atmos where
  W : World
  air : Fin W.count → Nonhydro.Dynamics
  fixed : Fin W.count → Vdyn.Fixed
  column : Vdyn.Setup
  fullyExplicit : Bool
  solve : Vdyn.BandSolver
  memory : Fin W.count → Vdyn.Memory
  leave : Fin W.count → Vdyn.Place → Vdyn.Columns → Vdyn.Memory → Vdyn.Memory
  leaveExplicit : Fin W.count → Vdyn.Place → Vdyn.Memory → Vdyn.Memory

variable (A : Atmos)

/-- `GetVarLocation(c) == DataLocation_REdge`, src/atm/Grid.h:837-839, src/atm/Grid.cpp:254-302. -/
def Atmos.onEdge (c : Nat) : Bool := (c == 3 && A.column.wOnEdge) || (c == 2 && A.column.pOnEdge)

/-- `nRElements`, src/atm/GridCSGLL.cpp:505-513. -/
def Atmos.top (c : Nat) : Nat := if A.onEdge c then A.W.levels + 1 else A.W.levels

/-- `m_dataElementAreaNode` of a patch, src/atm/GridPatchCSGLL.cpp:441-458. -/
noncomputable def Atmos.volume (i : Fin A.W.count) (iA iB k : Nat) : ℝ :=
  let M := (A.W.tile i).M
  M.jacNode iA iB k * A.W.weight ((iA - M.G.S.halo) % M.G.S.order) * M.G.deltaA *
    A.W.weight ((iB - M.G.S.halo) % M.G.S.order) * M.G.deltaB * A.W.level k

/-! ### The data as the dynamics see them -/

/-- State and tracers of a patch as the horizontal step sees them: components below five are on levels, components from
five on are on interfaces, src/atm/HorizontalDynamicsFEM.cpp:803-815. -/
def Atmos.lift (x : A.W.Field × A.W.Field) (i : Fin A.W.count) : Horiz.Data := fun y =>
  match y.v with
  | .state c =>
    if c < 5 then (if A.onEdge c then 0 else x.1 i c y.iA y.iB y.k)
    else if A.onEdge (c - 5) then x.1 i (c - 5) y.iA y.iB y.k else 0
  | .tracer c => x.2 i c y.iA y.iB y.k

/-- The converse. -/
def Atmos.lower (D : Fin A.W.count → Horiz.Data) : A.W.Field × A.W.Field :=
  (fun i c iA iB k => D i ⟨.state (if A.onEdge c then 5 + c else c), iA, iB, k⟩,
    fun i c iA iB k => D i ⟨.tracer c, iA, iB, k⟩)

/-- The columns of a patch as the vertical dynamics see them, src/atm/VerticalDynamicsFEM.cpp:1269-1300. -/
def Atmos.columns (D : Horiz.Data) : Vdyn.Columns := fun x =>
  { node := fun c k => if k < A.W.levels then D ⟨.state c, x.1, x.2, k⟩ else 0
    edge := fun c k => if k ≤ A.W.levels then D ⟨Nonhydro.edge c, x.1, x.2, k⟩ else 0
    tracer := fun c k => if k < A.W.levels then D ⟨.tracer c, x.1, x.2, k⟩ else 0 }

/-- The converse. -/
def Atmos.gather (P : Fin A.W.count → Vdyn.Columns) : A.W.Field × A.W.Field :=
  (fun i c iA iB k => if A.onEdge c then (P i (iA, iB)).edge c k else (P i (iA, iB)).node c k,
    fun i c iA iB k => (P i (iA, iB)).tracer c k)

/-! ### What the dynamics read -/

/-- What the horizontal dynamics read of a patch. -/
noncomputable def Atmos.horizontal (i : Fin A.W.count) : Nonhydro.Dynamics :=
  let M := (A.W.tile i).M
  let d := A.air i
  { A := { d.A with
      G := M.G, B := M.B, jac := M.jacNode, wOnEdge := A.column.wOnEdge, pOnEdge := A.column.pOnEdge, xz := A.W.xz
      uniform := A.W.uniform }
    eqn := .primitive
    nuVector := A.W.nuUniform
    jacEdge := M.jacREdge
    area := A.volume i
    ref := d.ref
    refLength := M.refLength }

/-- What the vertical dynamics read of a patch. -/
noncomputable def Atmos.vertical (i : Fin A.W.count) : Vdyn.Fixed :=
  let M := (A.W.tile i).M
  let f := A.fixed i
  { f with
    metric := fun x => { f.metric x with jac := M.jacNode x.1 x.2, jacEdge := M.jacREdge x.1 x.2 }
    area := fun x => A.volume i x.1 x.2 }

/-- The column with the time step of a call. -/
def Atmos.setup (dt : ℝ) : Vdyn.Setup := { A.column with dt := dt }

/-- The interior of a patch, src/atm/VerticalDynamicsFEM.cpp:1303-1333. -/
def Atmos.box (i : Fin A.W.count) : Vdyn.Box :=
  let S := (A.W.tile i).M.G.S
  ⟨S.halo, S.elemA * S.order, S.halo, S.elemB * S.order⟩

/-! ### The steps -/

/-- The horizontal explicit step on one patch. -/
noncomputable def Atmos.explicitOn (dt : ℝ) (i : Fin A.W.count) (init u : Horiz.Data) : Horiz.Data :=
  match Nonhydro.stepExplicit (A.horizontal i) 0 1 dt (fun m => if m = 0 then init else u) with
  | .done D => D 1
  | _ => u

/-- The horizontal explicit step on all patches. -/
noncomputable def Atmos.stepExplicit (dt : ℝ) (x y : A.W.Field × A.W.Field) : A.W.Field × A.W.Field :=
  A.lower fun i => A.explicitOn dt i (A.lift x i) (A.lift y i)

/-- The columns that a vertical step leaves. -/
def keep : Vdyn.PatchRes → Vdyn.Columns
  | .ok P => P
  | _ => fun _ => ⟨fun _ _ => 0, fun _ _ => 0, fun _ _ => 0⟩

open Classical in
/-- The result of a vertical step on all patches; the data before it if it throws on one of them. -/
noncomputable def Atmos.collect (R : Fin A.W.count → Vdyn.PatchRes) (y : A.W.Field × A.W.Field) :
    A.W.Field × A.W.Field :=
  if ∀ i, ∃ P, R i = .ok P then A.gather fun i => keep (R i) else y

/-- The vertical explicit step on all patches, src/atm/VerticalDynamicsFEM.cpp:616-1173; the initial instance is as the
horizontal step has left it. -/
noncomputable def Atmos.stepVertical (dt : ℝ) (x y : A.W.Field × A.W.Field) : A.W.Field × A.W.Field :=
  A.collect (fun i => Vdyn.explicitPatch A.solve (A.setup dt) (A.vertical i) A.W.tracers A.fullyExplicit (A.box i)
    (A.columns (Nonhydro.prepare (A.horizontal i).A (A.lift x i))) (A.leaveExplicit i) (A.memory i)
    (A.columns (A.lift y i))) y

/-- The implicit terms of the vertical dynamics taken explicitly, on all patches,
src/atm/VerticalDynamicsFEM.cpp:439-607. -/
noncomputable def Atmos.stepTerms (dt : ℝ) (x y : A.W.Field × A.W.Field) : A.W.Field × A.W.Field :=
  A.collect (fun i => Vdyn.termsPatch A.solve (A.setup dt) (A.vertical i) A.W.tracers A.fullyExplicit (A.box i)
    (A.columns (A.lift x i)) (A.leaveExplicit i) (A.memory i) (A.columns (A.lift y i))) y

open Classical in
/-- The vertical implicit step on all patches, src/atm/VerticalDynamicsFEM.cpp:1230-1640. -/
noncomputable def Atmos.stepImplicit (dt : ℝ) (x y : A.W.Field × A.W.Field) : A.W.Field × A.W.Field :=
  if dt = 0 then y
  else A.collect (fun i => Vdyn.implicitPatch A.solve (A.setup dt) (A.vertical i) A.W.tracers A.fullyExplicit (A.box i)
    A.W.order false (A.columns (A.lift x i)) (A.leave i) (A.memory i) (A.columns (A.lift y i))) y

/-- `FilterNegativeTracers` of the vertical dynamics, src/atm/VerticalDynamicsFEM.cpp:4286-4347. -/
noncomputable def Atmos.filterColumns (w : A.W.Field) : A.W.Field :=
  (A.gather fun i => Vdyn.filterPatch (A.setup 0) (A.vertical i) A.W.tracers (A.box i)
    (A.columns (A.lift (fun _ _ _ _ _ => 0, w) i))).2

/-- `FilterNegativeTracers` of the horizontal dynamics, src/atm/HorizontalDynamicsFEM.cpp:213-318. -/
noncomputable def Atmos.filter (w : A.W.Field) : A.W.Field :=
  (A.W.split fun i => Horiz.filterTracers (A.W.tile i).M.G.S (A.volume i) (A.W.join (fun _ _ _ _ _ => 0, w) i)).2

/-- `ApplyDSS` of the state after the exchange, src/atm/GridCSGLL.cpp:485-780. -/
noncomputable def Atmos.averageAll (v : A.W.Field) : A.W.Field := fun i c iA iB k =>
  if c < A.W.components ∧ k < A.top c then A.W.average i (fun g h => v i c g.toNat h.toNat k) iA iB else v i c iA iB k

/-- `ApplyDSS` of the state, src/atm/GridCSGLL.cpp:436-782. -/
noncomputable def Atmos.dssState (v : A.W.Field) : A.W.Field :=
  A.averageAll fun i => A.W.turn i (A.W.exchange v i)

/-- `ApplyDSS` of state and tracers. -/
noncomputable def Atmos.dss (x : A.W.Field × A.W.Field) : A.W.Field × A.W.Field := (A.dssState x.1, A.W.dssTracers x.2)

/-- What the first application of hyperviscosity leaves in the working slot,
src/atm/HorizontalDynamicsFEM.cpp:2687-2697. -/
noncomputable def Atmos.laplacian (x : A.W.Field × A.W.Field) : A.W.Field × A.W.Field :=
  A.dss (A.W.diffuse 1 1 1 1 1 false x (fun _ _ _ _ _ => 0, fun _ _ _ _ _ => 0))

open Classical in
/-- `StepAfterSubCycle`, src/atm/HorizontalDynamicsFEM.cpp:2659-2717, as the new update slot.  An order other than
0, 2 and 4 throws; the model then copies. -/
noncomputable def Atmos.afterSubCycle (dt : ℝ) (x : A.W.Field × A.W.Field) : A.W.Field × A.W.Field :=
  if A.W.nuScalar = 0 ∧ A.W.nuDiv = 0 ∧ A.W.nuVort = 0 then x
  else if A.W.hyperOrder = 0 then x
  else if A.W.hyperOrder = 2 then
    let u := A.W.diffuse dt A.W.nuScalar (-dt) A.W.nuDiv A.W.nuVort false x x
    A.dss (u.1, A.filter u.2)
  else if A.W.hyperOrder = 4 then
    let u := A.W.diffuse (-dt) A.W.nuScalar (-dt) A.W.nuDiv A.W.nuVort true (A.laplacian x) x
    A.dss (u.1, A.filter u.2)
  else x

open Classical in
/-- The working slot afterwards. -/
noncomputable def Atmos.working (x z : A.W.Field × A.W.Field) : A.W.Field × A.W.Field :=
  if ¬ (A.W.nuScalar = 0 ∧ A.W.nuDiv = 0 ∧ A.W.nuVort = 0) ∧ A.W.hyperOrder = 4 then A.laplacian x else z

/-- The dynamics the drivers call.  `HorizontalDynamics::StepImplicit` does nothing (src/atm/HorizontalDynamics.h:104-110);
`PostProcessSubstage` is `ApplyDSS` (src/atm/GridGLL.cpp:571-583). -/
noncomputable def Atmos.dyn : Steps.Dyn ℝ A.W.Field A.W.Field where
  hExp := A.stepExplicit
  vExp := A.stepVertical
  vImp := A.stepImplicit
  hImp _ _ y := y
  vImpExp := A.stepTerms
  postS := A.dssState
  postT := A.W.dssTracers
  filt := A.filterColumns
  hyper := A.afterSubCycle
  work := A.working

end Verif.Deep
