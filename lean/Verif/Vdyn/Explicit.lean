/-
Model of the explicit step of the columns of one patch (src/atm/VerticalDynamicsFEM.cpp, `StepExplicit` and
`StepImplicitTermsExplicitly`).

Simplifications: as in `Model.lean`, `Tracer.lean` and `Patch.lean`.  Initial data and data to update are different arrays, as in all
time steppers.  `EXPLICIT_VERTICAL_VELOCITY_ADVECTION` is defined nowhere and there is no hyperviscosity.
-/
import Verif.Vdyn.Patch

namespace Verif.Vdyn

open Verif.Column

variable (solve : BandSolver) (S : Setup) (G : Metric)

/-- The statements that subtract the time step times the tendencies, VerticalDynamicsFEM.cpp:552-590 and 762-801. -/
noncomputable def addTerms (F : Nat → ℝ) (U : State) : State :=
  { node := fun c k =>
      if k < S.levels then
        (if c = 2 ∧ S.pOnEdge = false then U.node 2 k - S.dt * F (vec 0 k)
        else if c = 3 ∧ S.wOnEdge = false then U.node 3 k - S.dt * F (vec 1 k)
        else if c = 4 then U.node 4 k - S.dt * F (vec 2 k)
        else U.node c k)
      else U.node c k
    edge := fun c k =>
      if k ≤ S.levels then
        (if c = 2 ∧ S.pOnEdge = true then U.edge 2 k - S.dt * F (vec 0 k)
        else if c = 3 ∧ S.wOnEdge = true then U.edge 3 k - S.dt * F (vec 1 k)
        else U.edge c k)
      else U.edge c k
    tracer := U.tracer }

/-- One column of `StepImplicitTermsExplicitly`, VerticalDynamicsFEM.cpp:538-603, and the fully explicit part of `StepExplicit`,
VerticalDynamicsFEM.cpp:746-814: `fullyExplicit` is the option, which only the update of tracers asks for. -/
noncomputable def termsColumn (fullyExplicit : Bool) (D : Data) (M : Memory) (count : Nat) (q ref : Nat → Nat → ℝ) (U : State) : ColumnRes :=
  let M1 := setupColumn S D M
  let V := addTerms S (residual S G M1 M1.state) U
  match updateTracers S G M1 solve fullyExplicit D V count q ref V.tracer with
  | .exc => .exc
  | .ub => .ub
  | .ok t => .ok { V with tracer := t }

/-- `m_dXiDotREdge` before upwinding: left by `UpdateColumnTracers` or by `Evaluate`, or VerticalDynamicsFEM.cpp:818-841. -/
noncomputable def explicitWind (fullyExplicit : Bool) (D : Data) (M : Memory) (count : Nat) (k : Nat) : ℝ :=
  let M1 := setupColumn S D M
  if fullyExplicit then
    (if count = 0 then xiDotEdge S G M1 M1.state k else tracerWind S G M1 (D.node 3) (D.edge 3) k)
  else if k = 0 ∨ k = S.levels then 0
  else G.conXiEdge k 0 * D.edge 0 k + G.conXiEdge k 1 * D.edge 1 k + G.conXiEdge k 2 * D.edge 3 k

/-- Upwinding and diffusion of horizontal velocity, VerticalDynamicsFEM.cpp:1004-1121: what is diffused is `m_dStateNode`. -/
noncomputable def smoothHorizontal (xi : Nat → ℝ) (D : Data) (state : Nat → Nat → ℝ) (U : State) : State :=
  { U with
    node := fun c k =>
      if c = 0 ∨ c = 1 then
        penaltyApply S.penalty (fun a => S.dt * |xi ((a + 1) * perElement S)|) (D.node c) (U.node c) 1 1 k +
          (if S.uniform = true ∧ k < S.levels then
            S.dt * (S.nuVector / (S.ztop * S.ztop)) * (applyRow S.diffDiffNN (state c) k - applyRow S.diffDiffNN (D.refNode c) k)
          else 0)
      else U.node c k }

/-- One column of `StepExplicit`, VerticalDynamicsFEM.cpp:718-1169. -/
noncomputable def explicitColumn (fullyExplicit : Bool) (D : Data) (M : Memory) (count : Nat) (q ref : Nat → Nat → ℝ) (U : State) :
    ColumnRes :=
  match (if fullyExplicit then termsColumn solve S G true D M count q ref U else .ok U) with
  | .ok V => .ok (smoothHorizontal S (explicitWind S G fullyExplicit D M count) D
      (if fullyExplicit then (setupColumn S D M).node else M.node) V)
  | r => r

/-- All places of the interior, in order, VerticalDynamicsFEM.cpp:535-536 and 715-716. -/
def interior (B : Box) : List Place :=
  (List.range' B.aBegin B.aWidth).flatMap fun i => (List.range' B.bBegin B.bWidth).map fun j => (i, j)

/-- A loop that changes one column after the other; `leave` is what a column leaves in memory. -/
def sweep (step : Memory → Place → State → ColumnRes) (leave : Place → Memory → Memory) : List Place → Memory → Columns → PatchRes
  | [], _, P => .ok P
  | x :: l, M, P =>
    match step M x (P x) with
    | .exc => .exc
    | .ub => .ub
    | .ok V => sweep step leave l (leave x M) (Function.update P x V)

/-- `StepExplicit` for one patch, VerticalDynamicsFEM.cpp:616-1173. -/
noncomputable def explicitPatch (F : Fixed) (count : Nat) (fullyExplicit : Bool) (B : Box) (init : Columns)
    (leave : Place → Memory → Memory) (M : Memory) (P : Columns) : PatchRes :=
  sweep (fun M x U => explicitColumn solve S (F.metric x) fullyExplicit (columnData F x (init x)) M count (init x).tracer (F.refTracer x) U)
    leave (interior B) M P

/-- `StepImplicitTermsExplicitly` for one patch, VerticalDynamicsFEM.cpp:439-607. -/
noncomputable def termsPatch (F : Fixed) (count : Nat) (fullyExplicit : Bool) (B : Box) (init : Columns)
    (leave : Place → Memory → Memory) (M : Memory) (P : Columns) : PatchRes :=
  sweep (fun M x U => termsColumn solve S (F.metric x) fullyExplicit (columnData F x (init x)) M count (init x).tracer (F.refTracer x) U)
    leave (interior B) M P

end Verif.Vdyn
