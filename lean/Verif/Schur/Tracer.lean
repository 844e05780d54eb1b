/-
Model of the update of the tracers of one column at the end of an implicit step by a Schur complement
(src/atm/VerticalDynamicsSchur.cpp, `UpdateColumnTracers`, called in 1853-1864).

Simplifications: as in `Model.lean` and in `Verif.Vdyn.Tracer`; the step is implicit (`m_fFullyExplicit` is false), upwinding of
tracers is on (VerticalDynamicsSchur.cpp:281).  The text of VerticalDynamicsFEM.cpp is repeated for the upwinding in the matrix
(VerticalDynamicsSchur.cpp:3769-3809, `tracerUpwindUpdates`), the identity (3811-3814, `tracerTimeUpdates`), the fluxes
(3897-3943, `tracerFlux`), and in VerticalDynamicsSchur.h:165-174 for the storage (`tracerAddress`, `tracerStore`,
`tracerOutside`): the definitions of `Verif.Vdyn` stand for them.  An access outside the array of volume elements is `TracerRes.ub`.
-/
import Verif.Schur.Model
import Verif.Vdyn.Tracer

namespace Verif.Schur

open Verif.Column Verif.Vdyn

/-- The array of volume elements on interfaces of a patch, `dJacobianREdge` (GridPatch.cpp:136-141), and the place of the column,
`m_iA` and `m_iB`. -/
structure Site where
  a : Nat
  b : Nat
  iA : Nat
  iB : Nat
  data : Nat → ℝ

variable (S : Setup) (G : Metric) (P : Site) (M : Memory)

/-- The address of `dJacobianREdge[x][y][z]`, DataArray3D.h:494-501. -/
def Site.address (x y z : Nat) : Nat := x * P.b * (S.levels + 1) + y * (S.levels + 1) + z

/-- `m_dXiDotREdge` for vertical velocity `wNode` on levels or `wEdge` on interfaces, VerticalDynamicsSchur.cpp:3707-3748 and
3844-3895. -/
noncomputable def tracerWind (wNode wEdge : Nat → ℝ) (k : Nat) : ℝ :=
  let w := if S.wOnEdge then wEdge else applyRow S.interpNE wNode
  if 1 ≤ k ∧ k < S.levels then
    let covUx := w k * G.derivREdge k
    G.conXiEdge k 0 * M.edge 0 k + G.conXiEdge k 1 * M.edge 1 k + G.conXiEdge k 2 * covUx
  else 0

/-- `m_dXiDotREdgeInitial`, VerticalDynamicsSchur.cpp:3707-3748. -/
noncomputable def initialWind : Nat → ℝ := tracerWind S G M (fun k => M.state (vec 1 k)) fun k => M.state (vec 1 k)

/-- Statements `dTracersLUDF[TracerMatFIx(n, k)] += v` of the fluxes, VerticalDynamicsSchur.cpp:3750-3767: the volume element is
`dJacobianREdge[m][m_iA][m_iB]` (3761). -/
noncomputable def tracerFluxUpdates (xi : Nat → ℝ) (k : Nat) : List Update :=
  (stencil S.diffEN k).flatMap fun m => (stencil S.interpNE m).map fun n =>
    ⟨k, n, (S.diffEN.row k).coeff m * P.data (P.address S m P.iA P.iB) / G.jac k * (S.interpNE.row m).coeff n * xi m⟩

/-- One of these statements reads outside the array of volume elements. -/
def tracerBeyond : Bool :=
  (List.range S.levels).any fun k => (stencil S.diffEN k).any fun m => (stencil S.interpNE m).any fun _ =>
    decide (P.a * P.b * (S.levels + 1) ≤ P.address S m P.iA P.iB)

/-- All statements that build the matrix, VerticalDynamicsSchur.cpp:3694-3814. -/
noncomputable def tracerUpdates : List Update :=
  ((List.range S.levels).flatMap (tracerFluxUpdates S G P (initialWind S G M)) ++
    (List.range' 1 (nElements S - 1)).flatMap (tracerUpwindUpdates S (initialWind S G M))) ++
  tracerTimeUpdates S

/-- `dSignWeight` times the change of vertical velocity, VerticalDynamicsSchur.cpp:3999-4013 and 4025-4029. -/
noncomputable def tracerJump (w : Nat → ℝ) (k : Nat) : ℝ :=
  open Classical in
  (if 0 < initialWind S G M k then 1 else if initialWind S G M k < 0 then -1 else 0) * (w k - M.state (vec 1 k)) / G.derivREdge k

/-- What the velocity correction takes from level `k`, VerticalDynamicsSchur.cpp:3986-4042. -/
noncomputable def tracerCorrection (w q : Nat → ℝ) (k : Nat) : ℝ :=
  let n := perElement S
  ((List.range' 1 (nElements S - 1)).map fun a =>
    (if (a - 1) * n ≤ k ∧ k < a * n then
      ((stencil S.penalty.left k).map fun l => (S.penalty.left.row k).coeff l * q l * tracerJump S G M w (a * n)).sum else 0) +
    (if a * n ≤ k ∧ k < (a + 1) * n then
      ((stencil S.penalty.right k).map fun l => (S.penalty.right.row k).coeff l * q l * tracerJump S G M w (a * n)).sum else 0)).sum

/-- `m_vecTracersF` of the tracer `q` before the solver, VerticalDynamicsSchur.cpp:3897-4044: `xi` is the wind of
VerticalDynamicsSchur.cpp:3876-3895, `w` the updated vertical velocity on interfaces. -/
noncomputable def tracerRhs (xi w q ref : Nat → ℝ) (k : Nat) : ℝ :=
  applyRow S.diffEN (tracerFlux S G M xi q ref) k / G.jac k -
    penaltyApply S.penalty (fun a => |initialWind S G M ((a + 1) * perElement S)|) q (fun _ => 0) 1 1 k -
    tracerCorrection S G M w q k

/-- `UpdateColumnTracers`, VerticalDynamicsSchur.cpp:3571-4079, after `SetupReferenceColumn` and `Evaluate` left the memory `M`:
`W` is the updated state of the column, `count` the number of tracers, `q` the initial tracers, `ref` their reference and `U` the
tracers to update. -/
noncomputable def updateTracers (solve : BandSolver) (W : State) (count : Nat) (q ref U : Nat → Nat → ℝ) : TracerRes :=
  if count = 0 then .ok U
  else if S.uniform = true then .exc
  else
    let us := tracerUpdates S G P M
    if us.any (tracerOutside S) || tracerBeyond S P then .ub
    else
      let xi := tracerWind S G M (W.node 3) (W.edge 3)
      let s := fun c => solve S.levels (2 * S.order - 1) S.levels (tracerStore S us) (tracerRhs S G M xi (W.edge 3) (q c) (ref c))
      if (List.range count).all fun c => (s c).isSome then
        .ok fun c k => if c < count ∧ k < S.levels then U c k - ((s c).getD fun _ => 0) k else U c k
      else .exc

end Verif.Schur
