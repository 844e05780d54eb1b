/-
Model of the implicit step of the columns of one patch (src/atm/VerticalDynamicsFEM.cpp, `StepImplicit` and
`FilterNegativeTracers`).

Simplifications: as in `Model.lean`, `Jacobian.lean`, `Implicit.lean` and `Tracer.lean`.  A patch is a function from places to columns.
What a column leaves in the memory of the object is any function `leave` of the place, the columns and the memory before.  `same` says
that the initial data and the data to update are the same arrays.
-/
import Verif.Vdyn.Tracer

namespace Verif.Vdyn

/-- The interior of a patch: where it begins and how wide it is. -/
structure Box where
  aBegin : Nat
  aWidth : Nat
  bBegin : Nat
  bWidth : Nat

/-- A place in a patch. -/
abbrev Place := Nat × Nat

/-- The columns of a patch. -/
abbrev Columns := Place → State

/-- What does not change in a patch: metric, reference state and tracers, and areas. -/
structure Fixed where
  metric : Place → Metric
  refNode : Place → Nat → Nat → ℝ
  refEdge : Place → Nat → Nat → ℝ
  refTracer : Place → Nat → Nat → ℝ
  area : Place → Nat → ℝ

/-- What the step of a column ends in. -/
inductive ColumnRes where
  | exc
  | ub
  | ok (V : State)

/-- What the step of a patch ends in. -/
inductive PatchRes where
  | exc
  | ub
  | ok (P : Columns)

variable (solve : BandSolver) (S : Setup) (F : Fixed) (count : Nat)

/-- The initial data of a column. -/
def columnData (x : Place) (I : State) : Data := ⟨I.node, I.edge, F.refNode x, F.refEdge x⟩

/-- The step of one column with its tracers, VerticalDynamicsFEM.cpp:1329-1528: `I` is the initial column, `U` the one to update. -/
noncomputable def stepColumn (M : Memory) (x : Place) (I U : State) : ColumnRes :=
  let D := columnData F x I
  match implicitColumn solve S (F.metric x) D M U with
  | none => .exc
  | some V =>
    match updateTracers S (F.metric x) (setupColumn S D M) solve false D V count I.tracer (F.refTracer x) V.tracer with
    | .exc => .exc
    | .ub => .ub
    | .ok t => .ok { V with tracer := t }

/-- The places whose columns are stepped, in order, VerticalDynamicsFEM.cpp:1303-1333; `p` is `m_nHorizontalOrder`. -/
def stepPlaces (B : Box) (p : Nat) : List Place :=
  let nA := B.aWidth / p
  let nB := B.bWidth / p
  (List.range nA).flatMap fun a => (List.range nB).flatMap fun b =>
    (List.range (if a = nA - 1 then p else p - 1)).flatMap fun i => (List.range (if b = nB - 1 then p else p - 1)).map fun j =>
      (B.aBegin + a * p + i, B.bBegin + b * p + j)

/-- The loop over columns, VerticalDynamicsFEM.cpp:1305-1533. -/
noncomputable def stepColumns (same : Bool) (init : Columns) (leave : Place → Columns → Memory → Memory) :
    List Place → Memory → Columns → PatchRes
  | [], _, P => .ok P
  | x :: l, M, P =>
    match stepColumn solve S F count M x (if same then P x else init x) (P x) with
    | .exc => .exc
    | .ub => .ub
    | .ok V => stepColumns same init leave l (leave x P M) (Function.update P x V)

/-- The statements that copy the column `s` over the column `d`, VerticalDynamicsFEM.cpp:1556-1587. -/
def copyColumn (d s : State) : State :=
  { node := fun c k => if (c = 2 ∨ c = 3 ∨ c = 4) ∧ k < S.levels then s.node c k else d.node c k
    edge := fun c k => if (c = 2 ∨ c = 3 ∨ c = 4) ∧ k ≤ S.levels then s.edge c k else d.edge c k
    tracer := fun c k => if c < count ∧ k < S.levels then s.tracer c k else d.tracer c k }

/-- Columns copied in alpha direction, to and from, VerticalDynamicsFEM.cpp:1536-1554. -/
def copiesA (B : Box) (p : Nat) : List (Place × Place) :=
  let nA := B.aWidth / p
  let nB := B.bWidth / p
  (List.range' 1 (nA - 1)).flatMap fun a => (List.range nB).flatMap fun b => (List.range (if b = nB - 1 then p else p - 1)).map fun j =>
    ((B.aBegin + a * p - 1, B.bBegin + b * p + j), (B.aBegin + a * p - 1 + 1, B.bBegin + b * p + j))

/-- Columns copied in beta direction, VerticalDynamicsFEM.cpp:1593-1596. -/
def copiesB (B : Box) (p : Nat) : List (Place × Place) :=
  let nB := B.bWidth / p
  (List.range' 1 (nB - 1)).flatMap fun b => (List.range' B.aBegin B.aWidth).map fun i =>
    ((i, B.bBegin + b * p - 1), (i, B.bBegin + b * p - 1 + 1))

/-- The copies, one after the other. -/
def copyAll (l : List (Place × Place)) (P : Columns) : Columns :=
  l.foldl (fun P ds => Function.update P ds.1 (copyColumn S count (P ds.1) (P ds.2))) P

/-- `FilterNegativeTracers` for one tracer of one column, VerticalDynamicsFEM.cpp:4314-4344. -/
noncomputable def filterColumn (area q : Nat → ℝ) (k : Nat) : ℝ :=
  open Classical in
  let total := ((List.range S.levels).map fun k => q k * area k).sum
  let nonNegative := ((List.range S.levels).map fun k => if 0 ≤ q k then q k * area k else 0).sum
  if k < S.levels then (if 0 < q k then q k * (total / nonNegative) else 0) else q k

/-- `FilterNegativeTracers`, VerticalDynamicsFEM.cpp:4286-4347: each turn of the loop changes its own column. -/
noncomputable def filterPatch (B : Box) (P : Columns) (x : Place) : State :=
  if B.aBegin ≤ x.1 ∧ x.1 < B.aBegin + B.aWidth ∧ B.bBegin ≤ x.2 ∧ x.2 < B.bBegin + B.bWidth then
    { P x with tracer := fun c => if c < count then filterColumn S (F.area x) ((P x).tracer c) else (P x).tracer c }
  else P x

/-- `StepImplicit` for one patch, VerticalDynamicsFEM.cpp:1230-1640. -/
noncomputable def implicitPatch (fullyExplicit : Bool) (B : Box) (p : Nat) (same : Bool) (init : Columns)
    (leave : Place → Columns → Memory → Memory) (M : Memory) (P : Columns) : PatchRes :=
  if fullyExplicit then .ok P
  else
    match stepColumns solve S F count same init leave (stepPlaces B p) M P with
    | .ok P => .ok (filterPatch S F count B (copyAll S count (copiesB B p) (copyAll S count (copiesA B p) P)))
    | r => r

end Verif.Vdyn
