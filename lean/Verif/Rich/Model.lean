/-
Model of the Richardson number of a patch (src/atm/GridPatchGLL.cpp, `ComputeRichardson`), as `Grid::ComputeRichardson`
(src/atm/Grid.cpp:825-839) calls it for output (src/atm/OutputManagerReference.cpp:693-704): without a location, which is
`DataLocation_REdge` (src/atm/GridPatchGLL.h:109-112).

Simplifications: `double` is the real numbers, where division by zero gives zero; `m_dataRichardson` is a flat memory of the size of
src/atm/GridPatch.cpp:444-447, in which an access outside is `ub`; the state arrays are functions of their indices; the grid is a
`GridGLL`.
-/
import Verif.Column.Penalty

namespace Verif.Rich

open Verif.Column

/-- What `ComputeRichardson` reads beside the state: `m_box`, `GetRElements`, the number of components, `GetVarLocation`, gravity,
`GetDerivRNode`, `GetDerivRREdge` and the column operators. -/
structure Patch where
  aTotal : Nat
  bTotal : Nat
  aBegin : Nat
  aEnd : Nat
  bBegin : Nat
  bEnd : Nat
  levels : Nat
  components : Nat
  onEdge : Nat → Bool
  g : ℝ
  derivNode : Nat → Nat → Nat → Nat → ℝ
  derivEdge : Nat → Nat → Nat → Nat → ℝ
  interpNE : Op
  interpEN : Op
  diffNN : Op
  diffNNZero : Op
  diffEE : Op

/-- `m_datavecStateNode[iDataIndex]` and `m_datavecStateREdge[iDataIndex]`. -/
structure State where
  node : Nat → Nat → Nat → Nat → ℝ
  edge : Nat → Nat → Nat → Nat → ℝ

/-- How a call ends. -/
inductive Res where
  | exc
  | ub
  | ok (s : State) (m : Nat → ℝ)

variable (P : Patch)

/-- `InterpolateNodeToREdge`, src/atm/GridPatchGLL.cpp:80-110. -/
noncomputable def toEdge (c : Nat) (s : State) : State :=
  { s with edge := fun d i j k =>
      if d = c ∧ P.aBegin ≤ i ∧ i < P.aEnd ∧ P.bBegin ≤ j ∧ j < P.bEnd ∧ k ≤ P.levels then applyRow P.interpNE (s.node c i j) k
      else s.edge d i j k }

/-- `InterpolateREdgeToNode`, src/atm/GridPatchGLL.cpp:114-145. -/
noncomputable def toNode (c : Nat) (s : State) : State :=
  { s with node := fun d i j k =>
      if d = c ∧ P.aBegin ≤ i ∧ i < P.aEnd ∧ P.bBegin ≤ j ∧ j < P.bEnd ∧ k < P.levels then applyRow P.interpEN (s.edge c i j) k
      else s.node d i j k }

/-- The interpolations for interfaces, src/atm/GridPatchGLL.cpp:272-280. -/
noncomputable def raise (s : State) : State :=
  let s := if P.onEdge 2 then s else toEdge P 2 s
  let s := if P.onEdge 4 then s else toEdge P 4 s
  if P.onEdge 3 then s else toEdge P 3 s

/-- The interpolations for levels, src/atm/GridPatchGLL.cpp:213-221. -/
noncomputable def lower (s : State) : State :=
  let s := if P.onEdge 2 then toNode P 2 s else s
  let s := if P.onEdge 4 then toNode P 4 s else s
  if P.onEdge 3 then toNode P 3 s else s

/-- The Richardson number on interface `k`, src/atm/GridPatchGLL.cpp:287-319. -/
noncomputable def edgeNumber (s : State) (i j k : Nat) : ℝ :=
  let density := s.edge 4 i j
  let ux := fun k => s.edge 0 i j k - P.derivEdge i j k 0 * s.edge 3 i j k * P.derivEdge i j k 2
  let vy := fun k => s.edge 1 i j k - P.derivEdge i j k 1 * s.edge 3 i j k * P.derivEdge i j k 2
  P.g * (applyRow P.diffEE density k / density k) /
    (applyRow P.diffEE ux k * applyRow P.diffEE ux k + applyRow P.diffEE vy k * applyRow P.diffEE vy k)

/-- The Richardson number on level `k`, src/atm/GridPatchGLL.cpp:228-264. -/
noncomputable def nodeNumber (s : State) (i j k : Nat) : ℝ :=
  let d := if P.onEdge 3 then P.diffNNZero else P.diffNN
  let density := s.node 4 i j
  let ux := fun k => s.node 0 i j k - P.derivNode i j k 0 * s.node 3 i j k * P.derivNode i j k 2
  let vy := fun k => s.node 1 i j k - P.derivNode i j k 1 * s.node 3 i j k * P.derivNode i j k 2
  P.g / density k * applyRow d density k / (applyRow d ux k * applyRow d ux k + applyRow d vy k * applyRow d vy k)

/-- The address of `m_dataRichardson[i][j][k]`. -/
def address (t : Nat × Nat × Nat) : Nat := t.1 * P.bTotal * P.levels + t.2.1 * P.levels + t.2.2

/-- The passes of the loops over the interior with `n` places in a column, src/atm/GridPatchGLL.cpp:225-226, 253 or 284-285, 312. -/
def passes (n : Nat) : List (Nat × Nat × Nat) :=
  (List.range' P.aBegin (P.aEnd - P.aBegin)).flatMap fun i =>
    (List.range' P.bBegin (P.bEnd - P.bBegin)).flatMap fun j => (List.range n).map fun k => (i, j, k)

/-- The statements `m_dataRichardson[i][j][k] = v`. -/
def assign (n : Nat) (v : Nat → Nat → Nat → ℝ) (m : Nat → ℝ) : Option (Nat → ℝ) :=
  if (passes P n).all fun t => decide (address P t < P.aTotal * P.bTotal * P.levels) then
    some ((passes P n).foldl (fun m t => Function.update m (address P t) (v t.1 t.2.1 t.2.2)) m)
  else none

/-- `ComputeRichardson`, src/atm/GridPatchGLL.cpp:147-323; `onLevels` is `loc == DataLocation_Node`, the other location is
interfaces. -/
noncomputable def computeRichardson (onLevels : Bool) (s : State) (m : Nat → ℝ) : Res :=
  if P.components < 5 then .exc
  else if onLevels then
    let s := lower P s
    match assign P P.levels (nodeNumber P s) m with
    | some m => .ok s m
    | none => .ub
  else
    let s := raise P s
    match assign P (P.levels + 1) (edgeNumber P s) m with
    | some m => .ok s m
    | none => .ub

/-- The Richardson number for output, src/atm/Grid.cpp:836. -/
noncomputable def richardson (s : State) (m : Nat → ℝ) : Res := computeRichardson P false s m

end Verif.Rich
