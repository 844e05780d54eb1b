import Verif.Metric.Model
import Verif.Halo.Model

/-!
# The state a test case starts the model from

Models how a patch is filled from a test case: `GridPatchCSGLL::EvaluateTestCase` and `EvaluateTestCase_Perturbation`
(src/atm/GridPatchCSGLL.cpp:577-1129), the functions of the same names of `GridPatchCartesianGLL`
(src/atm/GridPatchCartesianGLL.cpp:463-782), `EquationSet::ConvertComponents` (src/atm/EquationSet.cpp:122-162), the
defaults of `TestCase` (src/atm/TestCase.h) and `Grid::EvaluateTestCase` (src/atm/Grid.cpp:384-437).

Simplifications: `double` is the real numbers.  A test case computes its answers from its arguments and from what is in
the buffers it is given, so test cases that draw random numbers are not covered.  A test case writes no more entries of
a buffer than there are.  The values read by the test case from the physical constants are part of the test case.
-/

namespace Verif.Init

open Verif.Horiz Verif.Metric
open Verif.Halo (Momenta)

/-- How an evaluation may fail: by an exception, or by reading or writing outside of an array. -/
inductive Fault where
  | exception
  | outside

/-- `EquationSet::Type`, src/atm/EquationSet.cpp:23-118. -/
inductive Equations where
  | advection
  | shallow
  | nonhydro
  | massCoord
  deriving DecidableEq

/-- `GetComponents`, src/atm/EquationSet.cpp:30-112. -/
def Equations.components : Equations → Nat
  | .advection => 0
  | .shallow => 3
  | .nonhydro => 5
  | .massCoord => 6

/-- `GetDimensionality`, src/atm/EquationSet.cpp:30-112. -/
def Equations.dimensionality : Equations → Nat
  | .advection => 3
  | .shallow => 2
  | .nonhydro => 3
  | .massCoord => 3

/-- The formulations of src/atm/Defines.h:37-47: `FORMULATION_PRESSURE`, `FORMULATION_THETA` or
`FORMULATION_THETA_FLUX`, and `FORMULATION_RHOTHETA_PI` (which the program is shipped with) or
`FORMULATION_RHOTHETA_P`. -/
inductive Formulation where
  | pressure
  | theta
  | rhoTheta

/-- The buffers handed to a test case: the state and the tracers of one point. -/
structure Buffers where
  state : Nat → ℝ
  tracers : Nat → ℝ

/-- Buffers as they are allocated, with zeros, src/atm/GridPatchCSGLL.cpp:691-701. -/
def Buffers.zero : Buffers := ⟨fun _ => 0, fun _ => 0⟩

/-- A test case, src/atm/TestCase.h:30-175.  The functions take height, longitude and latitude and change the buffers;
the time is part of the test case, since one evaluation is for one time.  `none` is a function that is not overridden. -/
structure Test where
  ztop : ℝ
  hasRayleigh : Bool
  hasReference : Bool
  diffusion : ℝ × ℝ
  topography : ℝ → ℝ → ℝ
  rayleigh : ℝ → ℝ → ℝ → ℝ
  state : ℝ → ℝ → ℝ → Buffers → Buffers
  reference6 : Option (ℝ → ℝ → ℝ → Buffers → Buffers)
  reference5 : Option (ℝ → ℝ → ℝ → (Nat → ℝ) → Nat → ℝ)
  perturbation : Option (ℝ → ℝ → ℝ → Buffers → Buffers)

/-- `EvaluateReferenceState` without tracers, src/atm/TestCase.h:131-141: not implemented by default. -/
def Test.evalReference5 (T : Test) (z lon lat : ℝ) (s : Nat → ℝ) : Except Fault (Nat → ℝ) :=
  match T.reference5 with
  | some f => .ok (f z lon lat s)
  | none => .error .exception

/-- `EvaluateReferenceState` with tracers, src/atm/TestCase.h:111-126: by default the one without tracers. -/
def Test.evalReference6 (T : Test) (z lon lat : ℝ) (b : Buffers) : Except Fault Buffers :=
  match T.reference6 with
  | some f => .ok (f z lon lat b)
  | none =>
    match T.evalReference5 z lon lat b.state with
    | .ok s => .ok ⟨s, b.tracers⟩
    | .error e => .error e

/-- `EvaluatePointwisePerturbation`, src/atm/TestCase.h:157-170: does nothing by default. -/
def Test.evalPerturbation (T : Test) (z lon lat : ℝ) (b : Buffers) : Buffers :=
  match T.perturbation with
  | some f => f z lon lat b
  | none => b

/-- What is needed of a patch and its grid: total widths, numbers of levels and tracers, numbers of data instances of
the state and of the tracers, panel, node coordinates, coordinates of levels and interfaces, vertical order, equation
set, formulation, kind of momenta, the radius of the planet and `PressureFromRhoTheta`. -/
structure Site where
  na : Nat
  nb : Nat
  levels : Nat
  tracers : Nat
  instances : Nat
  tracerInstances : Nat
  panel : Int
  alpha : Nat → ℝ
  beta : Nat → ℝ
  level : Nat → ℝ
  interface : Nat → ℝ
  vorder : Nat
  eqs : Equations
  form : Formulation
  mom : Momenta
  radius : ℝ
  pressure : ℝ → ℝ
  S : Shape
  B : Basis
  deltaA : ℝ
  deltaB : ℝ

/-- `m_dataLon` and `m_dataLat` of the cubed sphere, `InitializeCoordinateData`, src/atm/GridPatchCSGLL.cpp:200-209.  On
an unknown panel that function throws; then there is nothing to evaluate. -/
noncomputable def Site.lonlat (P : Site) (i j : Nat) : ℝ × ℝ :=
  match Sphere.rllFromABP (P.alpha i) (P.beta j) P.panel with
  | some r => r
  | none => (0, 0)

/-- `m_dXNode`, src/atm/GridPatchCSGLL.cpp:211-215. -/
noncomputable def Site.x (P : Site) (i : Nat) : ℝ := Real.tan (P.alpha i)

/-- `m_dYNode`, src/atm/GridPatchCSGLL.cpp:217-220. -/
noncomputable def Site.y (P : Site) (j : Nat) : ℝ := Real.tan (P.beta j)

/-- `dPointwiseState.GetRows()`, src/atm/GridPatchCSGLL.cpp:688, 691. -/
def Site.rows (P : Site) : Nat := P.eqs.components

/-- `dPointwiseTracers.GetRows()`, src/atm/GridPatchCSGLL.cpp:689, 693-701. -/
def Site.tracerRows (P : Site) : Nat := if P.tracerInstances > 0 then P.tracers else 0

/-- `v[c] = x`. -/
def set1 (v : Nat → ℝ) (c : Nat) (x : ℝ) : Nat → ℝ := fun d => if d = c then x else v d

/-- `array(c,i,j,k) = v`. -/
def put4 (s : Nat → Nat → Nat → Nat → ℝ) (c i j k : Nat) (v : ℝ) : Nat → Nat → Nat → Nat → ℝ :=
  fun d x y z => if d = c ∧ x = i ∧ y = j ∧ z = k then v else s d x y z

/-- `vector[n] = array`, for the data instances of a patch. -/
def setAt (s : Nat → Nat → Nat → Nat → Nat → ℝ) (n : Nat) (a : Nat → Nat → Nat → Nat → ℝ) :
    Nat → Nat → Nat → Nat → Nat → ℝ := fun m => if m = n then a else s m

/-- The arrays of a patch that are filled: `m_datavecStateNode`, `m_datavecStateREdge` and `m_datavecTracers` by
instance, component, node and level, `m_dataRefStateNode`, `m_dataRefStateREdge`, `m_dataRefTracers`, topography and
heights. -/
structure Arrays where
  node : Nat → Nat → Nat → Nat → Nat → ℝ
  edge : Nat → Nat → Nat → Nat → Nat → ℝ
  tracer : Nat → Nat → Nat → Nat → Nat → ℝ
  refNode : Nat → Nat → Nat → Nat → ℝ
  refEdge : Nat → Nat → Nat → Nat → ℝ
  refTracer : Nat → Nat → Nat → Nat → ℝ
  topo : Topography
  height : Heights

/-- A patch being filled: its arrays and the buffers, which live as long as the loops over points. -/
structure Work where
  A : Arrays
  buf : Buffers
  ref : Buffers

/-- `EquationSet::ConvertComponents`, src/atm/EquationSet.cpp:122-162. -/
def convert (P : Site) (rows : Nat) (v : Nat → ℝ) : Except Fault (Nat → ℝ) :=
  match P.eqs with
  | .shallow => if rows ≠ 3 then .error .exception else .ok v
  | .nonhydro =>
    if rows ≠ 5 then .error .exception
    else
      let v := match P.form with
        | .pressure => set1 v 2 (P.pressure (v 2 * v 4))
        | .theta => v
        | .rhoTheta => set1 v 2 (v 2 * v 4)
      let v := match P.mom with
        | .covariant => v
        | .contravariant =>
          let v := set1 v 0 (v 0 * v 4)
          let v := set1 v 1 (v 1 * v 4)
          set1 v 3 (v 3 * v 4)
      .ok v
  | _ => .ok v

/-- The loop over components that stores a buffer, as src/atm/GridPatchCSGLL.cpp:720-723. -/
def store (n : Nat) (v : Nat → ℝ) (i j k : Nat) (s : Nat → Nat → Nat → Nat → ℝ) : Nat → Nat → Nat → Nat → ℝ :=
  loop n (fun c s => put4 s c i j k (v c)) s

/-- The transform of the two horizontal velocities stored at a point, src/atm/GridPatchCSGLL.cpp:725-755.  Without two
components there is nothing to read. -/
noncomputable def turn (P : Site) (i j k : Nat) (s : Nat → Nat → Nat → Nat → ℝ) :
    Except Fault (Nat → Nat → Nat → Nat → ℝ) :=
  if P.rows < 2 then .error .outside
  else
    let ulon := s 0 i j k
    let ulat := s 1 i j k
    let r := match P.mom with
      | .contravariant =>
        Sphere.vecABPFromRLL (P.x i) (P.y j) P.panel (ulon / P.radius) (ulat / P.radius)
      | .covariant =>
        Sphere.coVecABPFromRLL (P.x i) (P.y j) P.panel (ulon * P.radius) (ulat * P.radius)
    match r with
    | some (u, v) => .ok (put4 (put4 s 0 i j k u) 1 i j k v)
    | none => .error .exception

/-- One point of a level of the cubed sphere, src/atm/GridPatchCSGLL.cpp:707-814. -/
noncomputable def sphereNode (P : Site) (T : Test) (hasRef : Bool) (n : Nat) (i j k : Nat) (w : Work) :
    Except Fault Work := do
  let z := w.A.height.level i j k
  let b := T.state z (P.lonlat i j).1 (P.lonlat i j).2 w.buf
  let v ← convert P P.rows b.state
  let buf : Buffers := ⟨v, b.tracers⟩
  let node ← turn P i j k (store P.rows v i j k (w.A.node n))
  let A := { w.A with node := setAt w.A.node n node }
  if hasRef then
    let r ← T.evalReference6 z (P.lonlat i j).1 (P.lonlat i j).2 w.ref
    let rv ← convert P P.rows r.state
    let ref : Buffers := ⟨rv, r.tracers⟩
    let refTracer := store P.tracerRows r.tracers i j k A.refTracer
    let refNode ← turn P i j k (store P.rows rv i j k A.refNode)
    let A := { A with refNode := refNode, refTracer := refTracer }
    return ⟨{ A with tracer := setAt A.tracer n (store P.tracerRows buf.tracers i j k (A.tracer n)) }, buf, ref⟩
  else
    return ⟨{ A with tracer := setAt A.tracer n (store P.tracerRows buf.tracers i j k (A.tracer n)) }, buf, w.ref⟩

/-- One point of an interface of the cubed sphere, src/atm/GridPatchCSGLL.cpp:822-916. -/
noncomputable def sphereEdge (P : Site) (T : Test) (hasRef : Bool) (n : Nat) (i j k : Nat) (w : Work) :
    Except Fault Work := do
  let z := w.A.height.interface i j k
  let b := T.state z (P.lonlat i j).1 (P.lonlat i j).2 w.buf
  let v ← convert P P.rows b.state
  let buf : Buffers := ⟨v, b.tracers⟩
  let edge ← turn P i j k (store P.rows v i j k (w.A.edge n))
  let A := { w.A with edge := setAt w.A.edge n edge }
  if hasRef then
    let r ← T.evalReference6 z (P.lonlat i j).1 (P.lonlat i j).2 w.ref
    let rv ← convert P P.rows r.state
    let refEdge ← turn P i j k (store P.rows rv i j k A.refEdge)
    return ⟨{ A with refEdge := refEdge }, buf, ⟨rv, r.tracers⟩⟩
  else
    return ⟨A, buf, w.ref⟩

/-- One point of a level of the Cartesian grid, src/atm/GridPatchCartesianGLL.cpp:583-628; longitude and latitude are the
node coordinates. -/
def planeNode (P : Site) (T : Test) (hasRef : Bool) (n : Nat) (i j k : Nat) (w : Work) : Except Fault Work := do
  let z := w.A.height.level i j k
  let b := T.state z (P.alpha i) (P.beta j) w.buf
  let v ← convert P P.rows b.state
  let buf : Buffers := ⟨v, b.tracers⟩
  let A := { w.A with node := setAt w.A.node n (store P.rows v i j k (w.A.node n)) }
  if hasRef then
    let r ← T.evalReference5 z (P.alpha i) (P.beta j) w.ref.state
    let rv ← convert P P.rows r
    let A := { A with
      refNode := store P.rows rv i j k A.refNode
      refTracer := store P.tracerRows w.ref.tracers i j k A.refTracer }
    return ⟨{ A with tracer := setAt A.tracer n (store P.tracerRows buf.tracers i j k (A.tracer n)) }, buf,
      ⟨rv, w.ref.tracers⟩⟩
  else
    return ⟨{ A with tracer := setAt A.tracer n (store P.tracerRows buf.tracers i j k (A.tracer n)) }, buf, w.ref⟩

/-- One point of an interface of the Cartesian grid, src/atm/GridPatchCartesianGLL.cpp:635-672. -/
def planeEdge (P : Site) (T : Test) (hasRef : Bool) (n : Nat) (i j k : Nat) (w : Work) : Except Fault Work := do
  let z := w.A.height.interface i j k
  let b := T.state z (P.alpha i) (P.beta j) w.buf
  let v ← convert P P.rows b.state
  let A := { w.A with edge := setAt w.A.edge n (store P.rows v i j k (w.A.edge n)) }
  if hasRef then
    let r ← T.evalReference5 z (P.alpha i) (P.beta j) w.ref.state
    let rv ← convert P P.rows r
    return ⟨{ A with refEdge := store P.rows rv i j k A.refEdge }, ⟨v, b.tracers⟩, ⟨rv, w.ref.tracers⟩⟩
  else
    return ⟨A, ⟨v, b.tracers⟩, w.ref⟩

/-- `for (int t = 0; t < n; t++)` with a body that may fail. -/
def each {σ : Type} (n : Nat) (body : Nat → σ → Except Fault σ) (s : σ) : Except Fault σ :=
  (List.range n).foldlM (fun s t => body t s) s

/-- The checks of src/atm/GridPatchCSGLL.cpp:585-605 and GridPatchCartesianGLL.cpp:468-482. -/
def refused (P : Site) (n : Nat) : Prop :=
  P.instances = 0 ∨ n ≥ P.instances ∨ (P.eqs.dimensionality = 2 ∧ P.vorder ≠ 1)

instance (P : Site) (n : Nat) : Decidable (refused P n) := by unfold refused; infer_instance

/-- `GridPatchCSGLL::EvaluateTestCase`, src/atm/GridPatchCSGLL.cpp:577-920.  `ztop` and `hasRef` are what the grid
holds. -/
noncomputable def sphereEvaluate (P : Site) (T : Test) (ztop : ℝ) (hasRef : Bool) (n : Nat) (A : Arrays) :
    Except Fault Arrays :=
  if refused P n then .error .exception
  else
    match sphereTopography P.S P.B P.deltaA P.deltaB P.na P.nb P.panel P.alpha P.beta T.topography A.topo with
    | none => .error .exception
    | some topo => do
      let H := sphereHeights P.na P.nb P.levels (P.eqs.dimensionality = 2) ztop topo.value P.level P.interface A.height
      let H := sphereDamping P.na P.nb P.levels T.hasRayleigh
        (fun z i j => T.rayleigh z (P.lonlat i j).1 (P.lonlat i j).2) H
      let w : Work := ⟨{ A with topo := topo, height := H }, Buffers.zero, Buffers.zero⟩
      let w ← each P.na (fun i => each P.nb (fun j => each P.levels (fun k => sphereNode P T hasRef n i j k))) w
      let w ← each P.na (fun i => each P.nb (fun j => each (P.levels + 1) (fun k => sphereEdge P T hasRef n i j k))) w
      return w.A

/-- `GridPatchCartesianGLL::EvaluateTestCase`, src/atm/GridPatchCartesianGLL.cpp:463-680.  The topography is evaluated
twice there, with the same check and the same result. -/
noncomputable def planeEvaluate (P : Site) (T : Test) (ztop : ℝ) (hasRef : Bool) (n : Nat) (A : Arrays) :
    Except Fault Arrays :=
  if refused P n then .error .exception
  else
    match planeTopography P.S P.B P.deltaA P.deltaB P.na P.nb ztop P.alpha P.beta T.topography A.topo with
    | none => .error .exception
    | some topo => do
      let H := planeHeights P.na P.nb P.levels ztop topo.value P.level P.interface A.height
      let H := planeDamping P.na P.nb P.levels T.hasRayleigh (fun z i j => T.rayleigh z (P.alpha i) (P.beta j)) H
      let w : Work := ⟨{ A with topo := topo, height := H }, Buffers.zero, Buffers.zero⟩
      let w ← each P.na (fun i => each P.nb (fun j => each P.levels (fun k => planeNode P T hasRef n i j k))) w
      let w ← each (P.levels + 1) (fun k => each P.na (fun i => each P.nb (fun j => planeEdge P T hasRef n i j k))) w
      return w.A

/-- The two kinds of grid. -/
inductive Kind where
  | sphere
  | plane

/-- The virtual function `GridPatch::EvaluateTestCase`. -/
noncomputable def evaluate : Kind → Site → Test → ℝ → Bool → Nat → Arrays → Except Fault Arrays
  | .sphere => sphereEvaluate
  | .plane => planeEvaluate

/-- What the grid keeps of a test case, `m_dZtop`, `m_fHasReferenceState`, `m_fHasRayleighFriction`, the two coefficients
of uniform diffusion and `m_fHasUniformDiffusion`, and its active patches. -/
structure Grid where
  ztop : ℝ
  hasReference : Bool
  hasRayleigh : Bool
  diffusion : ℝ × ℝ
  hasDiffusion : Bool
  patches : List (Site × Arrays)

open Classical in
/-- `Grid::EvaluateTestCase`, src/atm/Grid.cpp:384-422. -/
noncomputable def gridEvaluate (K : Kind) (T : Test) (n : Nat) (G : Grid) : Except Fault Grid := do
  let G := { G with
    ztop := T.ztop
    hasReference := T.hasReference
    hasRayleigh := T.hasRayleigh
    diffusion := T.diffusion
    hasDiffusion := if T.diffusion.1 = 0 ∧ T.diffusion.2 = 0 then false else true }
  let patches ← G.patches.mapM (fun (P, A) => do
    let A ← evaluate K P T G.ztop G.hasReference n A
    return (P, A))
  return { G with patches := patches }

/-- The loop over components that adds a perturbation at a point of the cubed sphere,
src/atm/GridPatchCSGLL.cpp:994-1016: with the formulation in pressure nothing is compiled. -/
def addState (P : Site) (v : Nat → ℝ) (i j k : Nat) (s : Nat → Nat → Nat → Nat → ℝ) :
    Except Fault (Nat → Nat → Nat → Nat → ℝ) :=
  each P.rows (fun c s =>
    match P.form with
    | .rhoTheta =>
      if c = 2 then
        if P.rows ≤ 4 then .error .outside
        else .ok (put4 s c i j k (s c i j k + s 4 i j k * v c))
      else .ok (put4 s c i j k (s c i j k + v c))
    | .theta => .ok (put4 s c i j k (s c i j k + v c))
    | .pressure => .ok s) s

/-- The loop over tracers of src/atm/GridPatchCSGLL.cpp:1046-1049. -/
def addTracers (n : Nat) (v : Nat → ℝ) (i j k : Nat) (s : Nat → Nat → Nat → Nat → ℝ) : Nat → Nat → Nat → Nat → ℝ :=
  loop n (fun c s => put4 s c i j k (s c i j k + v c)) s

/-- A point of a level of the cubed sphere, src/atm/GridPatchCSGLL.cpp:980-1052; the transform of the velocities is
commented out there. -/
noncomputable def spherePerturbNode (P : Site) (T : Test) (n : Nat) (i j k : Nat) (w : Work) : Except Fault Work := do
  let b := T.evalPerturbation (w.A.height.level i j k) (P.lonlat i j).1 (P.lonlat i j).2 w.buf
  let node ← addState P b.state i j k (w.A.node n)
  return ⟨{ w.A with
    node := setAt w.A.node n node
    tracer := setAt w.A.tracer n (addTracers P.tracerRows b.tracers i j k (w.A.tracer n)) }, b, w.ref⟩

/-- A point of an interface of the cubed sphere, src/atm/GridPatchCSGLL.cpp:1055-1128. -/
noncomputable def spherePerturbEdge (P : Site) (T : Test) (n : Nat) (i j k : Nat) (w : Work) : Except Fault Work := do
  let b := T.evalPerturbation (w.A.height.interface i j k) (P.lonlat i j).1 (P.lonlat i j).2 w.buf
  let edge ← addState P b.state i j k (w.A.edge n)
  return ⟨{ w.A with edge := setAt w.A.edge n edge }, b, w.ref⟩

/-- A point of a level of the Cartesian grid, src/atm/GridPatchCartesianGLL.cpp:727-756. -/
def planePerturbNode (P : Site) (T : Test) (n : Nat) (i j k : Nat) (w : Work) : Except Fault Work := do
  let b := T.evalPerturbation (w.A.height.level i j k) (P.alpha i) (P.beta j) w.buf
  let v ← convert P P.rows b.state
  return ⟨{ w.A with
    node := setAt w.A.node n (store P.rows v i j k (w.A.node n))
    tracer := setAt w.A.tracer n (store P.tracerRows b.tracers i j k (w.A.tracer n)) }, ⟨v, b.tracers⟩, w.ref⟩

/-- A point of an interface of the Cartesian grid, src/atm/GridPatchCartesianGLL.cpp:757-780. -/
def planePerturbEdge (P : Site) (T : Test) (n : Nat) (i j k : Nat) (w : Work) : Except Fault Work := do
  let b := T.evalPerturbation (w.A.height.interface i j k) (P.alpha i) (P.beta j) w.buf
  let v ← convert P P.rows b.state
  return ⟨{ w.A with edge := setAt w.A.edge n (store P.rows v i j k (w.A.edge n)) }, ⟨v, b.tracers⟩, w.ref⟩

/-- `GridPatchCSGLL::EvaluateTestCase_Perturbation`, src/atm/GridPatchCSGLL.cpp:924-1129. -/
noncomputable def spherePerturb (P : Site) (T : Test) (n : Nat) (A : Arrays) : Except Fault Arrays :=
  if refused P n then .error .exception
  else do
    let w : Work := ⟨A, Buffers.zero, Buffers.zero⟩
    let w ← each P.na (fun i => each P.nb (fun j => each P.levels (fun k => spherePerturbNode P T n i j k))) w
    let w ← each P.na (fun i => each P.nb (fun j => each (P.levels + 1) (fun k => spherePerturbEdge P T n i j k))) w
    return w.A

/-- `GridPatchCartesianGLL::EvaluateTestCase_Perturbation`, src/atm/GridPatchCartesianGLL.cpp:682-782. -/
def planePerturb (P : Site) (T : Test) (n : Nat) (A : Arrays) : Except Fault Arrays :=
  if refused P n then .error .exception
  else do
    let w : Work := ⟨A, Buffers.zero, Buffers.zero⟩
    let w ← each P.na (fun i => each P.nb (fun j => each P.levels (fun k => planePerturbNode P T n i j k))) w
    let w ← each (P.levels + 1) (fun k => each P.na (fun i => each P.nb (fun j => planePerturbEdge P T n i j k))) w
    return w.A

/-- The virtual function `GridPatch::EvaluateTestCase_Perturbation`. -/
noncomputable def perturb : Kind → Site → Test → Nat → Arrays → Except Fault Arrays
  | .sphere => spherePerturb
  | .plane => planePerturb

/-- `Grid::EvaluateTestCase_Perturbation`, src/atm/Grid.cpp:426-437. -/
noncomputable def gridPerturb (K : Kind) (T : Test) (n : Nat) (G : Grid) : Except Fault Grid := do
  let patches ← G.patches.mapM (fun (P, A) => do
    let A ← perturb K P T n A
    return (P, A))
  return { G with patches := patches }

/-- `Model::SetTestCase`, src/atm/Model.cpp:227-257: `grid` and `test` are null pointers when `none`; `restarted` is
`m_fGridFromRestartFile` and `perturbed` is `m_fRestartPerturbation`.  The physical constants that the test case sets are
part of the test case here. -/
noncomputable def setTestCase (K : Kind) (restarted perturbed : Bool) (G : Option Grid) (T : Option Test) :
    Except Fault Grid :=
  match G, T with
  | none, _ => .error .exception
  | some _, none => .error .exception
  | some G, some T => do
    let G ← if !restarted then gridEvaluate K T 0 G else pure G
    if perturbed && restarted then gridPerturb K T 0 G else pure G

end Verif.Init
