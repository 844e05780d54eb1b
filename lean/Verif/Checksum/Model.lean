import Mathlib.Data.Real.Sqrt

/-!
# Checksums

Models `GridPatch::Checksum` (src/atm/GridPatch.cpp:744-921) and
`Grid::Checksum` (src/atm/Grid.cpp:460-525).  Exact real arithmetic replaces
floating point, so the model says nothing about rounding differences caused by a
different order of summation.
-/

namespace Verif.Checksum

/-- `ChecksumType` (src/atm/ChecksumType.h); any other value of the enumeration is
`invalid`. -/
inductive Kind
  | sum | l1 | l2 | linf | invalid
deriving DecidableEq

/-- `DataType` as far as checksums distinguish it (src/base/DataType.h). -/
inductive DataType
  | state | tracers | other
deriving DecidableEq

/-- `DataLocation` as far as checksums distinguish it
(src/base/DataLocation.h). -/
inductive Loc
  | node | rEdge | other
deriving DecidableEq

/-- What a checksum reads from the grid and the equation set: the number of
vertical elements, the numbers of components and tracers, and where each
component is stored (src/atm/GridPatch.cpp:755-788). -/
structure Setup where
  nR : Nat
  components : Nat
  tracers : Nat
  loc : Nat → Loc

/-- What a checksum reads from a patch: whether it holds data, its interior index
ranges, the arrays of the chosen data index and the element areas
(src/atm/GridPatch.cpp:762-775, 812-840). -/
structure Patch where
  hasData : Bool
  aBegin : Nat
  aEnd : Nat
  bBegin : Nat
  bEnd : Nat
  stateNode : Nat → Nat → Nat → Nat → ℝ
  stateREdge : Nat → Nat → Nat → Nat → ℝ
  tracer : Nat → Nat → Nat → Nat → ℝ
  areaNode : Nat → Nat → Nat → ℝ
  areaREdge : Nat → Nat → Nat → ℝ

/-- `for (n = lo; n < hi; n++)` acting on one running value. -/
def loop (lo hi : Nat) (f : Nat → ℝ → ℝ) (x : ℝ) : ℝ :=
  (List.range (hi - lo)).foldl (fun y n => f (lo + n) y) x

/-- The innermost statement for each checksum type, on the running value `x`,
the datum `v` and the area `a`: src/atm/GridPatch.cpp:817-819 (sum), 843-845
(L1), 869-871 (L2), 895-898 (Linf).  An invalid type is refused before. -/
noncomputable def step (kind : Kind) (x v a : ℝ) : ℝ :=
  match kind with
  | .sum => x + v * a
  | .l1 => x + |v| * a
  | .l2 => x + v * v * a
  | .linf => if |v| > x then |v| else x
  | .invalid => x

/-- The loops over `i`, `j`, `k` for one component
(src/atm/GridPatch.cpp:814-823 and alike).  The program updates
`dChecksums[c]` in place; nothing else is touched, so the running value stands
for that entry. -/
noncomputable def sweep (kind : Kind) (P : Patch) (kTop : Nat) (vals : Nat → Nat → Nat → ℝ)
    (areas : Nat → Nat → Nat → ℝ) (x : ℝ) : ℝ :=
  loop P.aBegin P.aEnd (fun i => loop P.bBegin P.bEnd (fun j => loop 0 kTop (fun k y =>
    step kind y (vals i j k) (areas i j k)))) x

/-- `dChecksums[c] = v`. -/
def store (acc : Nat → ℝ) (c : Nat) (v : ℝ) : Nat → ℝ := fun n => if n = c then v else acc n

/-- `GridPatch::Checksum` (src/atm/GridPatch.cpp:744-921) on an accumulator array
with `rows` entries; `none` is an exception. -/
noncomputable def patchChecksum (g : Setup) (ty : DataType) (kind : Kind) (rows : Nat) (P : Patch)
    (acc : Nat → ℝ) : Option (Nat → ℝ) :=
  if P.hasData = false then none
  else match ty with
  | .state =>
    if (List.range g.components).any (fun c => g.loc c = .other) then none
    else if rows < g.components then none
    else if kind = .invalid then none
    else
      let nodevars := (List.range g.components).filter (fun c => g.loc c = .node)
      let redgevars := (List.range g.components).filter (fun c => g.loc c = .rEdge)
      let acc1 := nodevars.foldl (fun a c =>
        store a c (sweep kind P g.nR (P.stateNode c) P.areaNode (a c))) acc
      some (redgevars.foldl (fun a c =>
        store a c (sweep kind P (g.nR + 1) (P.stateREdge c) P.areaREdge (a c))) acc1)
  | .tracers =>
    if rows < g.tracers then none
    else if kind = .invalid then none
    else some ((List.range g.tracers).foldl (fun a c =>
      store a c (sweep kind P g.nR (P.tracer c) P.areaNode (a c))) acc)
  | .other => none

/-- The local part of `Grid::Checksum` on one process
(src/atm/Grid.cpp:471-493): allocate a zero array, then add every active patch;
`none` is an exception.  With no tracers at all the program returns before any of
this (src/atm/Grid.cpp:478-480); there is then no component to speak of. -/
noncomputable def localChecksum (g : Setup) (ty : DataType) (kind : Kind) (active : List Patch) :
    Option (Nat → ℝ) :=
  match ty with
  | .state => active.foldl (fun r P => r.bind (patchChecksum g .state kind g.components P))
      (some (fun _ => 0))
  | .tracers => active.foldl (fun r P => r.bind (patchChecksum g .tracers kind g.tracers P))
      (some (fun _ => 0))
  | .other => none

/-- The order in which `MPI_Reduce` combines the contributions of the processes:
any binary tree. -/
inductive Tree (α : Type)
  | leaf (x : α)
  | node (l r : Tree α)

/-- The contributions in a tree. -/
def Tree.leaves {α : Type} : Tree α → List α
  | .leaf x => [x]
  | .node l r => l.leaves ++ r.leaves

/-- Combine the contributions. -/
def Tree.reduce {α : Type} (op : α → α → α) : Tree α → α
  | .leaf x => x
  | .node l r => op (l.reduce op) (r.reduce op)

/-- The operator chosen at src/atm/Grid.cpp:501-506. -/
noncomputable def mpiOp (kind : Kind) (x y : ℝ) : ℝ :=
  if kind = .linf then max x y else x + y

/-- The rest of `Grid::Checksum` at the root (src/atm/Grid.cpp:500-524): reduce
each entry over the processes, then take square roots for L2. -/
noncomputable def rootChecksum (kind : Kind) (t : Tree (Nat → ℝ)) (c : Nat) : ℝ :=
  let x := t.reduce (fun a b n => mpiOp kind (a n) (b n)) c
  if kind = .l2 then Real.sqrt x else x

end Verif.Checksum
