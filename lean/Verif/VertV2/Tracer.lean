/-
Model of the update of the tracers of one column of method `v2` (src/atm/VerticalDynamicsFEMV2.cpp, `UpdateColumnTracers`).

Simplifications: as in `Column.lean` and `Vdyn/Tracer.lean`.  The configuration is the one compiled: no upwinding of tracers
(VerticalDynamicsFEMV2.cpp:40 and 257-261), so 4186-4225 and 4368-4462 do nothing.  The identity (4228-4231, `tracerTimeUpdates`), the
fluxes of tracers (4308-4359, `tracerFlux`) and the storage (VerticalDynamicsFEMV2.h:128-137, `tracerAddress`, `tracerStore`,
`tracerOutside`) are word for word those of VerticalDynamicsFEM and are the definitions there.  The array of volume elements of interfaces
and the place of the column in its patch are a `Schur.Site`; an access outside of that array is `TracerRes.ub`.
-/
import Verif.VertV2.Implicit
import Verif.Schur.Tracer

namespace Verif.ColumnV2

open Verif.Column Verif.Vdyn

variable (S : Setup) (G : Metric) (P : Schur.Site) (M : Memory)

/-- `m_dXiDotREdge` for vertical velocity `wNode` on levels or `wEdge` on interfaces, VerticalDynamicsFEMV2.cpp:4124-4165 and
4255-4306. -/
noncomputable def tracerWind (wNode wEdge : Nat → ℝ) (k : Nat) : ℝ :=
  let w := if S.wOnEdge then wEdge else applyRow S.interpNE wNode
  if 1 ≤ k ∧ k < S.levels then
    let covUx := w k * G.derivREdge k
    G.conXiEdge k 0 * M.edge 0 k + G.conXiEdge k 1 * M.edge 1 k + G.conXiEdge k 2 * covUx
  else 0

/-- `m_dXiDotREdgeInitial`, VerticalDynamicsFEMV2.cpp:4124-4165. -/
noncomputable def initialWind : Nat → ℝ := tracerWind S G M (fun k => M.state (vec 1 k)) fun k => M.state (vec 1 k)

/-- Statements `dTracersLUDF[TracerMatFIx(n, k)] += v` of the fluxes, VerticalDynamicsFEMV2.cpp:4167-4184: the volume element is
`dJacobianREdge[m][m_iA][m_iB]` (4178). -/
noncomputable def tracerFluxUpdates (xi : Nat → ℝ) (k : Nat) : List Update :=
  (stencil S.diffEN k).flatMap fun m => (stencil S.interpNE m).map fun n =>
    ⟨k, n, (S.diffEN.row k).coeff m * P.data (P.address S m P.iA P.iB) / G.jac k * (S.interpNE.row m).coeff n * xi m⟩

/-- One of these statements reads outside the array of volume elements. -/
def tracerBeyond : Bool :=
  (List.range S.levels).any fun k => (stencil S.diffEN k).any fun m => (stencil S.interpNE m).any fun _ =>
    decide (P.a * P.b * (S.levels + 1) ≤ P.address S m P.iA P.iB)

/-- All statements that build the matrix, VerticalDynamicsFEMV2.cpp:4111-4231. -/
noncomputable def tracerUpdates (fullyExplicit : Bool) : List Update :=
  (if fullyExplicit then [] else (List.range S.levels).flatMap (tracerFluxUpdates S G P (initialWind S G M))) ++ tracerTimeUpdates S

/-- `m_vecTracersF` of the tracer `q` with reference `ref` before the solver, VerticalDynamicsFEMV2.cpp:4308-4366: `xi` is the wind of
4290-4306. -/
noncomputable def tracerRhs (xi q ref : Nat → ℝ) (k : Nat) : ℝ := applyRow S.diffEN (tracerFlux S G M xi q ref) k / G.jac k

/-- `UpdateColumnTracers`, VerticalDynamicsFEMV2.cpp:3988-4496, after `SetupReferenceColumn` and `Evaluate` left the memory `M`:
`fullyExplicit` is the option, `D` the initial data, `V` the updated state of the column, `count` the number of tracers, `q` the initial
tracers, `ref` their reference and `U` the tracers to update. -/
noncomputable def updateTracers (solve : BandSolver) (fullyExplicit : Bool) (D : Data) (V : Vdyn.State) (count : Nat)
    (q ref U : Nat → Nat → ℝ) : TracerRes :=
  if count = 0 then .ok U
  else if fullyExplicit = false ∧ S.uniform = true then .exc
  else
    let us := tracerUpdates S G P M fullyExplicit
    if us.any (tracerOutside S) || (!fullyExplicit && tracerBeyond S P) then .ub
    else
      let xi := if fullyExplicit then tracerWind S G M (D.node 3) (D.edge 3) else tracerWind S G M (V.node 3) (V.edge 3)
      let s := fun c => solve S.levels (2 * S.order - 1) S.levels (tracerStore S us) (tracerRhs S G M xi (q c) (ref c))
      if (List.range count).all fun c => (s c).isSome then
        .ok fun c k => if c < count ∧ k < S.levels then U c k - ((s c).getD fun _ => 0) k else U c k
      else .exc

end Verif.ColumnV2
