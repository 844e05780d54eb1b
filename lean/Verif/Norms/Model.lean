import Verif.Init.Model
import Verif.Checksum.Model

/-!
# Error norms

Models `Model::ComputeErrorNorms` (src/atm/Model.cpp:695-786) with `GridPatch::CopyData`, `LinearCombineData` and
`AddReferenceState` (src/atm/GridPatch.cpp:1402-1525, 1575-1583) for the state.  The evaluation of the test case is that
of `Verif.Init`, the checksums are those of `Verif.Checksum`.

Simplifications: `double` is the real numbers; an exception on one process is the end of the run; the text of the table
is its numbers.
-/

namespace Verif.Norms

open Verif.Init

/-- A patch: what it is, its arrays, whether it holds data, the ranges of its interior nodes and the element areas. -/
structure Tile where
  site : Site
  arrays : Arrays
  hasData : Bool
  aBegin : Nat
  aEnd : Nat
  bBegin : Nat
  bEnd : Nat
  areaNode : Nat → Nat → Nat → ℝ
  areaREdge : Nat → Nat → Nat → ℝ

/-- A tile with other arrays. -/
def Tile.withArrays (t : Tile) (A : Arrays) : Tile := { t with arrays := A }

/-- The loop of `Grid::EvaluateTestCase` for one patch, src/atm/Grid.cpp:417-421.  The grid has taken its top and the
flag of the reference state from the test case just before (lines 389-392). -/
noncomputable def evaluateTile (K : Kind) (T : Test) (n : Nat) (t : Tile) : Except Fault Tile := do
  let A ← evaluate K t.site T T.ztop T.hasReference n t.arrays
  return t.withArrays A

/-- `GridPatch::CopyData` for the state, src/atm/GridPatch.cpp:1408-1417. -/
def copyState (src dest : Nat) (t : Tile) : Except Fault Tile :=
  if src ≥ t.site.instances then .error .exception
  else if dest ≥ t.site.instances then .error .exception
  else .ok (t.withArrays { t.arrays with
    node := setAt t.arrays.node dest (t.arrays.node src)
    edge := setAt t.arrays.edge dest (t.arrays.edge src) })

/-- `Zero`, src/base/DataArray4D.h:376-380. -/
def zeroed (_ : Nat → Nat → Nat → Nat → ℝ) : Nat → Nat → Nat → Nat → ℝ := fun _ _ _ _ => 0

/-- `Scale`, src/base/DataArray4D.h:385-403. -/
def scaled (f : Nat → Nat → Nat → Nat → ℝ) (x : ℝ) : Nat → Nat → Nat → Nat → ℝ := fun c i j k => f c i j k * x

/-- `AddProduct`, src/base/DataArray4D.h:405-440. -/
def addProduct (f g : Nat → Nat → Nat → Nat → ℝ) (x : ℝ) : Nat → Nat → Nat → Nat → ℝ :=
  fun c i j k => f c i j k + g c i j k * x

/-- `GridPatch::AddReferenceState`, src/atm/GridPatch.cpp:1575-1583. -/
def addReference (ix : Nat) (t : Tile) : Except Fault Tile :=
  if ix ≥ t.site.instances then .error .exception
  else .ok (t.withArrays { t.arrays with
    node := setAt t.arrays.node ix (addProduct (t.arrays.node ix) t.arrays.refNode 1) })

open Classical in
/-- The body of the loop of `LinearCombineData`, src/atm/GridPatch.cpp:1468-1480, for instance `m` with its
coefficient. -/
noncomputable def combineTerm (dest m : Nat) (x : ℝ) (A : Arrays) : Arrays :=
  if m = dest then A
  else if x = 0 then A
  else { A with
    node := setAt A.node dest (addProduct (A.node dest) (A.node m) x)
    edge := setAt A.edge dest (addProduct (A.edge dest) (A.edge m) x) }

/-- That loop from instance `m` on. -/
noncomputable def combineTerms (dest : Nat) : Nat → List ℝ → Arrays → Arrays
  | _, [], A => A
  | m, x :: xs, A => combineTerms dest (m + 1) xs (combineTerm dest m x A)

open Classical in
/-- `GridPatch::LinearCombineData` for the state, src/atm/GridPatch.cpp:1438-1480. -/
noncomputable def combineState (coeffs : List ℝ) (dest : Nat) (t : Tile) : Except Fault Tile :=
  match coeffs[dest]? with
  | none => .error .exception
  | some x =>
    if dest ≥ t.site.instances then .error .exception
    else if coeffs.length > t.site.instances then .error .exception
    else
      let A := t.arrays
      let A := if x = 0 then
          { A with
            node := setAt A.node dest (zeroed (A.node dest))
            edge := setAt A.edge dest (zeroed (A.edge dest)) }
        else
          { A with
            node := setAt A.node dest (scaled (A.node dest) x)
            edge := setAt A.edge dest (scaled (A.edge dest) x) }
      .ok (t.withArrays (combineTerms dest 0 coeffs A))

/-- src/atm/Model.cpp:711-724 on the active patches of one process. -/
noncomputable def prepare (K : Kind) (T : Test) (tiles : List Tile) : Except Fault (List Tile) := do
  let tiles ← tiles.mapM (evaluateTile K T 1)
  let tiles ← tiles.mapM (copyState 1 2)
  let tiles ← tiles.mapM (addReference 2)
  tiles.mapM (combineState [-1, 1] 1)

/-- What `GridPatch::Checksum` reads of a patch for data instance `n` of the state,
src/atm/GridPatch.cpp:762-775. -/
def Tile.slot (n : Nat) (t : Tile) : Checksum.Patch where
  hasData := t.hasData
  aBegin := t.aBegin
  aEnd := t.aEnd
  bBegin := t.bBegin
  bEnd := t.bEnd
  stateNode := t.arrays.node n
  stateREdge := t.arrays.edge n
  tracer := t.arrays.tracer n
  areaNode := t.areaNode
  areaREdge := t.areaREdge

/-- `Grid::Checksum` for the state on all processes, src/atm/Grid.cpp:460-525; `reduce` is the tree in which the values
of the processes are combined. -/
noncomputable def checksum (g : Checksum.Setup) (reduce : List (Nat → ℝ) → Checksum.Tree (Nat → ℝ)) (n : Nat)
    (kind : Checksum.Kind) (procs : List (List Tile)) : Except Fault (Nat → ℝ) := do
  let locals ← procs.mapM (fun tiles =>
    match Checksum.localChecksum g .state kind (tiles.map (Tile.slot n)) with
    | some x => .ok x
    | none => .error .exception)
  return Checksum.rootChecksum kind (reduce locals)

/-- The three columns of the table, by component. -/
structure Table where
  l1 : Nat → ℝ
  l2 : Nat → ℝ
  linf : Nat → ℝ

open Classical in
/-- An entry of the table, src/atm/Model.cpp:774-779. -/
noncomputable def entry (sum norm : Nat → ℝ) (c : Nat) : ℝ :=
  if sum c ≠ 0 then norm c / sum c else norm c

/-- `Model::ComputeErrorNorms`, src/atm/Model.cpp:695-786: `test` and `grid` are null pointers when `none`, the grid is
the active patches of every process, and `reduce n` combines the values of the `n`-th reduction.  Without a test case
nothing is done and nothing is printed (lines 696-699). -/
noncomputable def errorNorms (K : Kind) (g : Checksum.Setup)
    (reduce : Nat → List (Nat → ℝ) → Checksum.Tree (Nat → ℝ)) (test : Option Test) (grid : Option (List (List Tile))) :
    Except Fault (Option (List (List Tile) × Table)) :=
  match test with
  | none => .ok none
  | some T =>
    match grid with
    | none => .error .exception
    | some procs => do
      let procs ← procs.mapM (prepare K T)
      let s1 ← checksum g (reduce 0) 2 .l1 procs
      let n1 ← checksum g (reduce 1) 1 .l1 procs
      let s2 ← checksum g (reduce 2) 2 .l2 procs
      let n2 ← checksum g (reduce 3) 1 .l2 procs
      let s3 ← checksum g (reduce 4) 2 .linf procs
      let n3 ← checksum g (reduce 5) 1 .linf procs
      return some (procs, ⟨entry s1 n1, entry s2 n2, entry s3 n3⟩)

end Verif.Norms
