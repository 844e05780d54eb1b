import Verif.Horiz.SubCycle
import Verif.Dss.Model
import Verif.Panel.Model
import Verif.Steps.Model
import Mathlib.Data.List.FinRange

/-!
# A whole shallow water model

Puts together what is modelled piece by piece elsewhere: the patches of a grid (cubed sphere or doubly periodic plane),
the search for the patch that holds a node, the exchange of halos, direct stiffness summation over the grid
(`GridCSGLL::ApplyDSS`, src/atm/GridCSGLL.cpp:436-782, `GridCartesianGLL::ApplyDSS`,
src/atm/GridCartesianGLL.cpp:508-655), the explicit step `HorizontalDynamicsFEM::StepExplicit`
(src/atm/HorizontalDynamicsFEM.cpp:1787-1864) and the viscosity `StepAfterSubCycle` (2637-2726), as the dynamics that the
time stepping drivers of `Verif.Steps` call.  The vertical dynamics are `VerticalDynamicsStub`, which does nothing.

Simplifications: `double` is the real numbers; arrays are total; the messages of the exchange are not modelled here (they
are in `Verif.Exchange`): a halo node receives the value of the node it stands for.  No Rayleigh friction
(`HasRayleighFriction` is false).
-/

namespace Verif.Whole

open Verif.Horiz (Geometry Medium Cell Var)

/-- State or tracers of one patch: component, `iA`, `iB`, level. -/
abbrev Arr := Nat → Nat → Nat → Nat → ℝ

/-- The grid: `GridCSGLL`, or `GridCartesianGLL` with `BoundaryCondition_Periodic` on all four sides. -/
inductive Kind where
  | sphere
  | plane

/-- A patch: the panel, first element in each direction (`GetAGlobalInteriorBegin` in elements), and what the dynamics
read from it (src/atm/PatchBox.h, src/atm/GridPatch.h). -/
structure Tile where
  panel : Int
  eA : Nat
  eB : Nat
  M : Medium

/-- The model: the grid with `elemA` by `elemB` elements on each panel, the patches, the quadrature weights and level
factors of the areas of the nodes, the settings of the dynamics; `turn` is `TransformHaloVelocities`. -/
structure World where
  kind : Kind
  order : Nat
  elemA : Nat
  elemB : Nat
  halo : Nat
  levels : Nat
  components : Nat
  tracers : Nat
  count : Nat
  tile : Fin count → Tile
  weight : Nat → ℝ
  level : Nat → ℝ
  turn : Fin count → Arr → Arr
  xz : Bool
  uniform : Bool
  nuUniform : ℝ
  hyperOrder : Int
  nuScalar : ℝ
  nuDiv : ℝ
  nuVort : ℝ

/-- One data instance of state (or of tracers) on all patches. -/
abbrev World.Field (W : World) := Fin W.count → Arr

variable (W : World)

/-! ### Where a node is found -/

/-- The wrapping of an index, src/atm/GridCartesianGLL.cpp:381-402 (alpha) and 403-424 (beta). -/
def wrap (N g : Int) : Int :=
  let g := if g < 0 then g + N else g
  if g ≥ N then g - N else g

/-- The panel and node meant by an index seen from a panel: `RelativeCoord` on the sphere
(src/atm/GridCSGLL.cpp:305-333), wrapping on the plane (src/atm/GridCartesianGLL.cpp:376-424); `none` is
"coordinate out of bounds". -/
def World.see (p g h : Int) : Option (Int × Int × Int) :=
  match W.kind with
  | .sphere =>
    match Panel.relativeCoord (W.order * W.elemA) p g h with
    | some r => if r.ix = -1 ∧ r.jx = -1 then none else some (r.panel, r.ix, r.jx)
    | none => none
  | .plane => some (0, wrap (W.order * W.elemA) g, wrap (W.order * W.elemB) h)

/-- `ContainsGlobalPoint`, src/atm/PatchBox.h:52-68. -/
def World.contains (i : Fin W.count) (p g h : Int) : Bool :=
  let t := W.tile i
  decide (p = t.panel ∧ t.eA * t.M.G.S.order ≤ g ∧ g < (t.eA + t.M.G.S.elemA) * t.M.G.S.order ∧
    t.eB * t.M.G.S.order ≤ h ∧ h < (t.eB + t.M.G.S.elemB) * t.M.G.S.order)

/-- The search through all patches, src/atm/GridCSGLL.cpp:335-357, src/atm/GridCartesianGLL.cpp:426-456 (the patch found
last is tried first, which makes no difference as patches do not overlap). -/
def World.owner (p g h : Int) : Option (Fin W.count) :=
  (List.finRange W.count).find? fun i => W.contains i p g h

/-- The value of component `c` at level `k` at a node of a panel, in the patch that holds it. -/
def World.field (v : W.Field) (c k : Nat) (n : Int × Int × Int) : ℝ :=
  match W.owner n.1 n.2.1 n.2.2 with
  | some i => v i c (n.2.1 - (W.tile i).eA * (W.tile i).M.G.S.order + (W.tile i).M.G.S.halo).toNat
      (n.2.2 - (W.tile i).eB * (W.tile i).M.G.S.order + (W.tile i).M.G.S.halo).toNat k
  | none => 0

/-! ### Exchange and summation -/

/-- `Grid::Exchange` (src/atm/Grid.cpp:1024-1068): the nodes a patch owns keep their values, each node of the halo gets
the value of the node it stands for, and the nodes that stand for none keep theirs. -/
def World.exchange (v : W.Field) : W.Field := fun i c iA iB k =>
  let t := W.tile i
  let S := t.M.G.S
  if S.halo ≤ iA ∧ iA < S.halo + S.elemA * S.order ∧ S.halo ≤ iB ∧ iB < S.halo + S.elemB * S.order then v i c iA iB k
  else match W.see t.panel ((iA : Int) - S.halo + t.eA * S.order) ((iB : Int) - S.halo + t.eB * S.order) with
    | some n => W.field v c k n
    | none => v i c iA iB k

/-- There is no patch beyond a corner: the index one step out in both directions is seen nowhere
(src/atm/GridPatchCSGLL.cpp:107-147). -/
def World.blind (i : Fin W.count) (g h : Int) : Bool :=
  let t := W.tile i
  (W.see t.panel (g + t.eA * t.M.G.S.order) (h + t.eB * t.M.G.S.order)).isNone

/-- What the summation reads of a patch, src/atm/GridCSGLL.cpp:449-483. -/
def World.patch (i : Fin W.count) : Dss.Patch :=
  let S := (W.tile i).M.G.S
  { halo := S.halo, order := S.order, elemA := S.elemA, elemB := S.elemB
    noTopRight := W.blind i (S.elemA * S.order) (S.elemB * S.order)
    noTopLeft := W.blind i (-1) (S.elemB * S.order)
    noBottomLeft := W.blind i (-1) (-1)
    noBottomRight := W.blind i (S.elemA * S.order) (-1) }

/-- The averaging on one patch, component and level: src/atm/GridCSGLL.cpp:558-778, or
src/atm/GridCartesianGLL.cpp:614-651. -/
noncomputable def World.average (i : Fin W.count) (u : Dss.Field) : Dss.Field :=
  match W.kind with
  | .sphere => Dss.dss (W.patch i) u
  | .plane => Dss.dssCartesian (W.patch i) u

/-- The averaging of the first `n` components and all levels after the exchange, src/atm/GridCSGLL.cpp:485-780. -/
noncomputable def World.averageAll (n : Nat) (v : W.Field) : W.Field := fun i c iA iB k =>
  if c < n ∧ k < W.levels then W.average i (fun g h => v i c g.toNat h.toNat k) iA iB else v i c iA iB k

/-- `ApplyDSS` of the state, src/atm/GridCSGLL.cpp:436-782 (velocities in the halo are turned first, 455-457). -/
noncomputable def World.dssState (v : W.Field) : W.Field :=
  W.averageAll W.components fun i => W.turn i (W.exchange v i)

/-- `ApplyDSS` of the tracers. -/
noncomputable def World.dssTracers (v : W.Field) : W.Field := W.averageAll W.tracers (W.exchange v)

/-! ### Dynamics -/

/-- State and tracers of a patch together, as the dynamics of `Verif.Horiz` see them
(src/atm/HorizontalDynamicsFEM.cpp:386-397). -/
def World.join (x : W.Field × W.Field) (i : Fin W.count) : Horiz.Data := fun y =>
  match y.v with
  | .state c => x.1 i c y.iA y.iB y.k
  | .tracer c => x.2 i c y.iA y.iB y.k

/-- The converse. -/
def World.split (D : Fin W.count → Horiz.Data) : W.Field × W.Field :=
  (fun i c iA iB k => D i ⟨.state c, iA, iB, k⟩, fun i c iA iB k => D i ⟨.tracer c, iA, iB, k⟩)

/-- `m_dataElementAreaNode` of a patch, src/atm/GridPatchCSGLL.cpp:441-458. -/
noncomputable def World.area (i : Fin W.count) : Nat → Nat → Nat → ℝ :=
  Horiz.nodeArea (W.tile i).M.G W.weight W.level

/-- `StepExplicit` on one patch, src/atm/HorizontalDynamicsFEM.cpp:1806-1864, shallow water equations. -/
noncomputable def World.explicitOn (dt : ℝ) (i : Fin W.count) (init u : Horiz.Data) : Horiz.Data :=
  let M := (W.tile i).M
  let u := Horiz.stepShallowWater M.G M.B init dt u
  let u := if W.uniform then
      Horiz.applyVector M W.xz M.ref dt W.nuUniform W.nuUniform false
        (Horiz.applyVector M W.xz init dt (-W.nuUniform) (-W.nuUniform) false u)
    else u
  Horiz.filterTracers M.G.S (W.area i) u

/-- `StepExplicit` on all patches. -/
noncomputable def World.stepExplicit (dt : ℝ) (x y : W.Field × W.Field) : W.Field × W.Field :=
  W.split fun i => W.explicitOn dt i (W.join x i) (W.join y i)

/-- `FilterNegativeTracers` on all patches, src/atm/HorizontalDynamicsFEM.cpp:213-318. -/
noncomputable def World.filter (w : W.Field) : W.Field :=
  (W.split fun i => Horiz.filterTracers (W.tile i).M.G.S (W.area i) (W.join (fun _ _ _ _ _ => 0, w) i)).2

/-- `ApplyScalarHyperdiffusion` and `ApplyVectorHyperdiffusion` on all patches, src/atm/HorizontalDynamicsFEM.cpp:2672-2675,
2690-2693, 2699-2703.  The former throws for a variable that lives neither on levels nor on interfaces; no equation set
has one, and the model then does nothing. -/
noncomputable def World.diffuse (dt nuScalar dt' nuDiv nuVort : ℝ) (scale : Bool) (x y : W.Field × W.Field) :
    W.Field × W.Field :=
  W.split fun i =>
    let M := (W.tile i).M
    let u := W.join y i
    let u := (Horiz.applyScalar M (W.join x i) dt nuScalar scale (-1) false u).getD u
    Horiz.applyVector M W.xz (W.join x i) dt' nuDiv nuVort scale u

/-- `ApplyDSS` of state and tracers. -/
noncomputable def World.dss (x : W.Field × W.Field) : W.Field × W.Field := (W.dssState x.1, W.dssTracers x.2)

/-- What the first application of hyperviscosity leaves in the working slot,
src/atm/HorizontalDynamicsFEM.cpp:2687-2697. -/
noncomputable def World.laplacian (x : W.Field × W.Field) : W.Field × W.Field :=
  W.dss (W.diffuse 1 1 1 1 1 false x (fun _ _ _ _ _ => 0, fun _ _ _ _ _ => 0))

open Classical in
/-- `StepAfterSubCycle`, src/atm/HorizontalDynamicsFEM.cpp:2659-2717, as the new update slot.  An order other than
0, 2 and 4 throws; the model then copies. -/
noncomputable def World.afterSubCycle (dt : ℝ) (x : W.Field × W.Field) : W.Field × W.Field :=
  if W.nuScalar = 0 ∧ W.nuDiv = 0 ∧ W.nuVort = 0 then x
  else if W.hyperOrder = 0 then x
  else if W.hyperOrder = 2 then
    let u := W.diffuse dt W.nuScalar (-dt) W.nuDiv W.nuVort false x x
    W.dss (u.1, W.filter u.2)
  else if W.hyperOrder = 4 then
    let u := W.diffuse (-dt) W.nuScalar (-dt) W.nuDiv W.nuVort true (W.laplacian x) x
    W.dss (u.1, W.filter u.2)
  else x

open Classical in
/-- The working slot afterwards. -/
noncomputable def World.working (x z : W.Field × W.Field) : W.Field × W.Field :=
  if ¬ (W.nuScalar = 0 ∧ W.nuDiv = 0 ∧ W.nuVort = 0) ∧ W.hyperOrder = 4 then W.laplacian x else z

/-- The dynamics the drivers call.  `VerticalDynamicsStub` and `HorizontalDynamics::StepImplicit` do nothing
(src/atm/VerticalDynamicsStub.h:27-37, src/atm/VerticalDynamics.h:64-106), nor does the filter the drivers call, which is
that of the vertical dynamics (src/atm/VerticalDynamics.h:123-126); `PostProcessSubstage` is `ApplyDSS`
(src/atm/GridGLL.cpp:571-583). -/
noncomputable def World.dyn : Steps.Dyn ℝ W.Field W.Field where
  hExp := W.stepExplicit
  vExp _ _ y := y
  vImp _ _ y := y
  hImp _ _ y := y
  vImpExp _ _ y := y
  postS := W.dssState
  postT := W.dssTracers
  filt w := w
  hyper := W.afterSubCycle
  work := W.working

end Verif.Whole
