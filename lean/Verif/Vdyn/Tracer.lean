/-
Model of the update of the tracers of one column (src/atm/VerticalDynamicsFEM.cpp, `UpdateColumnTracers`) and of the storage of its
matrix (src/atm/VerticalDynamicsFEM.h, `TracerMatFIx`).

Simplifications: as in `Model.lean` and `Jacobian.lean`.  `DGBTRF` followed by `DGBTRS` (src/base/LinearAlgebra.cpp) is one
call of the band solver for each tracer, as LAPACK's `DGBSV` is defined.  A column of a tracer is a function of its level.
-/
import Verif.Vdyn.Implicit

namespace Verif.Vdyn

open Verif.Column

/-- What an update ends in: an exception, an access outside an array, or the tracers. -/
inductive TracerRes where
  | exc
  | ub
  | ok (t : Nat → Nat → ℝ)

variable (S : Setup) (G : Metric) (M : Memory)

/-- `m_dXiDotREdge` for vertical velocity `wNode` on levels or `wEdge` on interfaces, VerticalDynamicsFEM.cpp:3920-3957 and
4049-4093. -/
noncomputable def tracerWind (wNode wEdge : Nat → ℝ) (k : Nat) : ℝ :=
  let w := if S.wOnEdge then wEdge else applyRow S.interpNE wNode
  if 1 ≤ k ∧ k < S.levels then
    G.conXiEdge k 0 * M.edge 0 k + G.conXiEdge k 1 * M.edge 1 k + G.conXiEdge k 2 * w k
  else 0

/-- `m_dXiDotREdgeInitial`, VerticalDynamicsFEM.cpp:3920-3957. -/
noncomputable def initialWind : Nat → ℝ := tracerWind S G M (fun k => M.state (vec 1 k)) fun k => M.state (vec 1 k)

/-- Statements `dTracersLUDF[TracerMatFIx(n, k)] += v` of the fluxes, VerticalDynamicsFEM.cpp:3960-3976; `row` is `k`, `col` is `n`. -/
noncomputable def tracerFluxUpdates (xi : Nat → ℝ) (k : Nat) : List Update :=
  (stencil S.diffEN k).flatMap fun m => (stencil S.interpNE m).map fun n =>
    ⟨k, n, (S.diffEN.row k).coeff m * G.jacEdge m / G.jac k * (S.interpNE.row m).coeff n * xi m⟩

/-- Statements of upwinding at the edge below element `a`, VerticalDynamicsFEM.cpp:3980-4015. -/
noncomputable def tracerUpwindUpdates (xi : Nat → ℝ) (a : Nat) : List Update :=
  let n := perElement S
  ((List.range' ((a - 1) * n) n).flatMap fun k => (stencil S.penalty.left k).map fun l =>
    ⟨k, l, -(|xi (a * n)| * (S.penalty.left.row k).coeff l)⟩) ++
  ((List.range' (a * n) n).flatMap fun k => (stencil S.penalty.right k).map fun l =>
    ⟨k, l, -(|xi (a * n)| * (S.penalty.right.row k).coeff l)⟩)

/-- The identity, VerticalDynamicsFEM.cpp:4021-4023. -/
noncomputable def tracerTimeUpdates : List Update := (List.range S.levels).map fun k => ⟨k, k, 1 / S.dt⟩

/-- All statements that build the matrix, VerticalDynamicsFEM.cpp:3906-4023. -/
noncomputable def tracerUpdates (fullyExplicit : Bool) : List Update :=
  (if fullyExplicit then []
  else (List.range S.levels).flatMap (tracerFluxUpdates S G (initialWind S G M)) ++
    (List.range' 1 (nElements S - 1)).flatMap (tracerUpwindUpdates S (initialWind S G M))) ++
  tracerTimeUpdates S

/-- `TracerMatFIx`, VerticalDynamicsFEM.h:128-137: the array has `levels` rows and columns, VerticalDynamicsFEM.cpp:390. -/
def tracerAddress (row col : Nat) : Int := (2 * (2 * (S.order : Int) - 1) + row - col) + S.levels * col

/-- The array after the statements `us`, from zero (VerticalDynamicsFEM.cpp:3907). -/
noncomputable def tracerStore (us : List Update) : Int → ℝ :=
  us.foldl (fun m u => Function.update m (tracerAddress S u.row u.col) (m (tracerAddress S u.row u.col) + u.value)) fun _ => 0

/-- A statement that writes outside the array. -/
def tracerOutside (u : Update) : Bool :=
  decide (tracerAddress S u.row u.col < 0 ∨ (S.levels * S.levels : Int) ≤ tracerAddress S u.row u.col)

/-- `m_dMassFluxREdge` of the tracer `q` with reference `ref`, VerticalDynamicsFEM.cpp:4101-4142. -/
noncomputable def tracerFlux (xi q ref : Nat → ℝ) (k : Nat) : ℝ :=
  if 1 ≤ k ∧ k < S.levels then
    G.jacEdge k * applyRow S.interpNE q k * xi k -
      (if S.uniform then S.nuScalar * edgeState S M M.state 4 k *
        applyRow S.diffNE (fun j => q j / nodeState S M M.state 4 j - ref j / M.refNode 4 j) k else 0)
  else 0

/-- `dSignWeight` times the change of vertical velocity, VerticalDynamicsFEM.cpp:4203-4217 and 4230-4233. -/
noncomputable def tracerJump (w : Nat → ℝ) (k : Nat) : ℝ :=
  open Classical in
  (if 0 < initialWind S G M k then 1 * G.conXiEdge k 2
  else if initialWind S G M k < 0 then -1 * G.conXiEdge k 2 else 0) * (w k - M.state (vec 1 k))

/-- What the velocity correction takes from level `k`, VerticalDynamicsFEM.cpp:4192-4245. -/
noncomputable def tracerCorrection (w q : Nat → ℝ) (k : Nat) : ℝ :=
  let n := perElement S
  ((List.range' 1 (nElements S - 1)).map fun a =>
    (if (a - 1) * n ≤ k ∧ k < a * n then
      ((stencil S.penalty.left k).map fun l => (S.penalty.left.row k).coeff l * q l * tracerJump S G M w (a * n)).sum else 0) +
    (if a * n ≤ k ∧ k < (a + 1) * n then
      ((stencil S.penalty.right k).map fun l => (S.penalty.right.row k).coeff l * q l * tracerJump S G M w (a * n)).sum else 0)).sum

/-- `m_vecTracersF` of the tracer `q` before the solver, VerticalDynamicsFEM.cpp:4098-4246: `xi` is the wind of
VerticalDynamicsFEM.cpp:4081-4093, `w` the updated vertical velocity on interfaces. -/
noncomputable def tracerRhs (fullyExplicit : Bool) (xi w q ref : Nat → ℝ) (k : Nat) : ℝ :=
  applyRow S.diffEN (tracerFlux S G M xi q ref) k / G.jac k -
    penaltyApply S.penalty (fun a => |(if fullyExplicit then xi else initialWind S G M) ((a + 1) * perElement S)|) q (fun _ => 0) 1 1 k -
    (if fullyExplicit then 0 else tracerCorrection S G M w q k)

/-- `UpdateColumnTracers`, VerticalDynamicsFEM.cpp:3783-4282, after `SetupReferenceColumn` and `Evaluate` left the memory `M`:
`D` is the initial data, `V` the updated state of the column, `count` the number of tracers, `q` the initial tracers, `ref` their
reference and `U` the tracers to update. -/
noncomputable def updateTracers (solve : BandSolver) (fullyExplicit : Bool) (D : Data) (V : State) (count : Nat)
    (q ref U : Nat → Nat → ℝ) : TracerRes :=
  if count = 0 then .ok U
  else if fullyExplicit = false ∧ S.uniform = true then .exc
  else
    let us := tracerUpdates S G M fullyExplicit
    if us.any (tracerOutside S) then .ub
    else
      let xi := if fullyExplicit then tracerWind S G M (D.node 3) (D.edge 3) else tracerWind S G M (V.node 3) (V.edge 3)
      let s := fun c => solve S.levels (2 * S.order - 1) S.levels (tracerStore S us)
        (tracerRhs S G M fullyExplicit xi (V.edge 3) (q c) (ref c))
      if (List.range count).all fun c => (s c).isSome then
        .ok fun c k => if c < count ∧ k < S.levels then U c k - ((s c).getD fun _ => 0) k else U c k
      else .exc

end Verif.Vdyn
