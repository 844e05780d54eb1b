/-
Model of the output on the reference grid: the coordinates of the output (src/atm/OutputManagerReference.cpp), the search
for the patch of a point (src/atm/GridCSGLL.cpp, GridCartesianGLL.cpp), the interpolation of the data of a patch
(src/atm/GridPatchCSGLL.cpp, GridPatchCartesianGLL.cpp) and the reduction over processes (src/atm/Grid.cpp).

Simplifications: `double` is the real numbers and `int` the integers, so the conversion of a quotient to `int` never
overflows.  Arrays are functions of their indices with the sizes given beside them; the arrays of a patch are read at
`(component, alpha, beta, level)`.  The macro `PROGNOSTIC_CONTRAVARIANT_MOMENTA` is not defined (Defines.h:59).  A call
that throws gives `exc`, an access outside an array `ub`.  The calls of the NetCDF library are left out except for the
shape of the arrays handed to it.
-/
import Verif.Patch.Model
import Verif.Sphere.Model
import Verif.Vert.Model
import Verif.Column.Fem
import Verif.Checksum.Model

namespace Verif.Outref

open Verif.Exchange (Res)
open Verif.Patch (Box)
open Verif.Interp (lagrangeCoeffs)
open Verif.Column (Op interpInit identity applyAll)

open Real

/-! ### The points of the reference grid -/

/-- Coordinate `i` of `n` between `lo` and `hi`: `m_dXCoord`, `m_dYCoord` and, with bounds 0 and 1, `m_dREtaCoord`,
OutputManagerReference.cpp:76-106. -/
noncomputable def refCoord (lo hi : ℝ) (n i : Nat) : ℝ := (hi - lo) / n * (i + 0.5) + lo

/-- The arrays `dXReference` and `dYReference` in the order of the two loops, OutputManagerReference.cpp:201-208. -/
def refPoints (nX nY : Nat) (x y : Nat → ℝ) : List (ℝ × ℝ) :=
  (List.range nY).flatMap fun j => (List.range nX).map fun i => (x i, y j)

/-- The number of output levels and their coordinates, OutputManagerReference.cpp:93-106: the levels of the model if
`nZ` is zero. -/
noncomputable def outLevels (nZ levels : Nat) (node : Nat → ℝ) : Nat × (Nat → ℝ) :=
  if nZ = 0 then (levels, node) else (nZ, refCoord 0 1 nZ)

/-- Entry `(level, row, column)` of a variable of the file, from the array handed to `put` with the shape levels by rows
by columns, OutputManagerReference.cpp:716-722. -/
def fileEntry (nX : Nat) (D : Nat → Nat → Nat → ℝ) (c k j i : Nat) : ℝ := D c k (j * nX + i)

/-! ### The patch of a point -/

/-- The check of the alignment of a box with the elements, GridCSGLL.cpp:232-238 and GridCartesianGLL.cpp:305-311. -/
def misaligned (order : Int) (x : Box) : Prop :=
  x.aGlobalInteriorBegin.tmod order ≠ 0 ∨ x.aGlobalInteriorEnd.tmod order ≠ 0 ∨
  x.bGlobalInteriorBegin.tmod order ≠ 0 ∨ x.bGlobalInteriorEnd.tmod order ≠ 0

/-- The check of the coordinates, GridCSGLL.cpp:222-230 and 240-253, GridCartesianGLL.cpp:295-303 and 313-326. -/
noncomputable def covers (order : Int) (a0 da b0 db : ℝ) (x : Box) (A B : ℝ) : Prop :=
  a0 + (x.aGlobalInteriorBegin.tdiv order : ℝ) * da ≤ A ∧ A ≤ a0 + (x.aGlobalInteriorEnd.tdiv order : ℝ) * da ∧
  b0 + (x.bGlobalInteriorBegin.tdiv order : ℝ) * db ≤ B ∧ B ≤ b0 + (x.bGlobalInteriorEnd.tdiv order : ℝ) * db

open Classical in
/-- The loop over the patches, GridCSGLL.cpp:208-264 (`panel` the panel of the point) and GridCartesianGLL.cpp:284-337
(no panel).  `n` is the number of the first box of the list. -/
noncomputable def findPatch (order : Int) (a0 da b0 db : ℝ) (panel : Option Int) (A B : ℝ) : List Box → Nat → Res Nat
  | [], _ => .exc
  | x :: xs, n =>
    if panel ≠ none ∧ panel ≠ some x.panel then findPatch order a0 da b0 db panel A B xs (n + 1)
    else if misaligned order x then .exc
    else if covers order a0 da b0 db x A B then .ok n
    else findPatch order a0 da b0 db panel A B xs (n + 1)

/-- One coordinate of `GridCSGLL::ConvertReferenceToPatchCoord`, GridCSGLL.cpp:182-268: alpha, beta and the patch. -/
noncomputable def csCoord (order : Int) (resA resB : Nat) (boxes : List Box) (lon lat : ℝ) : Res (ℝ × ℝ × Nat) :=
  match Sphere.abpFromRLL (lon * π / 180) (lat * π / 180) with
  | none => .exc
  | some (A, B, p) =>
    (findPatch order (-(0.25 * π)) (0.5 * π / resA) (-(0.25 * π)) (0.5 * π / resB) (some p) A B boxes 0).bind fun n =>
      .ok (A, B, n)

/-- One coordinate of `GridCartesianGLL::ConvertReferenceToPatchCoord`, GridCartesianGLL.cpp:264-343; `x0`, `x1`, `y0` and
`y1` are `m_dGDim`. -/
noncomputable def cartCoord (order : Int) (resA resB : Nat) (x0 x1 y0 y1 : ℝ) (boxes : List Box) (x y : ℝ) :
    Res (ℝ × ℝ × Nat) :=
  (findPatch order x0 ((x1 - x0) / resA) y0 ((y1 - y0) / resB) none x y boxes 0).bind fun n => .ok (x, y, n)

/-! ### Interpolation of the data of a patch -/

/-- `DataLocation`: where a variable is kept. -/
inductive Location where
  | node
  | redge
  | other
  deriving DecidableEq

/-- `DataType`: what is interpolated. -/
inductive DataType where
  | state
  | tracers
  | topography
  | vorticity
  | divergence
  | temperature
  | surfacePressure
  | richardson
  | auxiliary2D
  | other
  deriving DecidableEq

/-- What the interpolation reads of the grid, the model and the equation set. -/
structure Grid where
  sphere : Bool
  order : Nat
  zeroA : ℝ
  deltaA : ℝ
  gA : Nat → ℝ
  zeroB : ℝ
  deltaB : ℝ
  gB : Nat → ℝ
  radius : ℝ
  components : Nat
  loc : Nat → Location
  tracers : Nat
  userFields : Nat
  levels : Nat
  finiteElement : Bool
  vorder : Nat
  node : Nat → ℝ
  edge : Nat → ℝ

/-- What the interpolation reads of a patch. -/
structure Patch where
  box : Box
  index : Nat
  field : DataType → Nat → Int → Int → Nat → ℝ
  ref : Nat → Int → Int → Nat → ℝ
  derivNode : Int → Int → Nat → ℝ
  derivREdge : Int → Int → Nat → ℝ

/-- Entry `i` of `m_dAEdge` or `m_dBEdge`, GridPatchCSGLL.cpp:189-201 and GridPatchCartesianGLL.cpp:109-121: the patch was
built, so no coordinate of it threw. -/
noncomputable def edgeAt (order : Nat) (g : Nat → ℝ) (delta zero : ℝ) (start i : Int) : ℝ :=
  match Vert.repeatedNode order g delta zero (start + i) with
  | .ok v => v
  | _ => 0

/-- `m_dAEdge`. -/
noncomputable def edgeA (G : Grid) (P : Patch) (i : Int) : ℝ := edgeAt G.order G.gA G.deltaA G.zeroA P.box.aGlobalBegin i

/-- `m_dBEdge`. -/
noncomputable def edgeB (G : Grid) (P : Patch) (i : Int) : ℝ := edgeAt G.order G.gB G.deltaB G.zeroB P.box.bGlobalBegin i

/-- `GetElementDeltaA`, GridPatchGLL.cpp:69-71. -/
noncomputable def elementDeltaA (G : Grid) (P : Patch) : ℝ := edgeA G P (P.box.halo + G.order) - edgeA G P P.box.halo

/-- `GetElementDeltaB`, GridPatchGLL.cpp:73-75. -/
noncomputable def elementDeltaB (G : Grid) (P : Patch) : ℝ := edgeB G P (P.box.halo + G.order) - edgeB G P P.box.halo

/-- Conversion of a `double` to `int`, towards zero. -/
noncomputable def trunc (x : ℝ) : Int := if 0 ≤ x then ⌊x⌋ else ⌈x⌉

/-- The element of a coordinate, GridPatchCSGLL.cpp:1605-1625. -/
noncomputable def element (start delta : ℝ) (width order : Int) (x : ℝ) : Int :=
  let i := trunc ((x - start) / delta)
  let i := if i < 0 then 0 else i
  if i ≥ width.tdiv order then width.tdiv order - 1 else i

/-- The check of the range of the patch, GridPatchCSGLL.cpp:1595-1602. -/
noncomputable def outOfRange (G : Grid) (P : Patch) (A B : ℝ) : Prop :=
  A < edgeA G P P.box.aInteriorBegin - 1 / 10 ^ 10 ∨ A > edgeA G P P.box.aInteriorEnd + 1 / 10 ^ 10 ∨
  B < edgeB G P P.box.bInteriorBegin - 1 / 10 ^ 10 ∨ B > edgeB G P P.box.bInteriorEnd + 1 / 10 ^ 10

/-- The first node of the element in alpha, GridPatchCSGLL.cpp:1605-1627. -/
noncomputable def firstA (G : Grid) (P : Patch) (A : ℝ) : Int :=
  P.box.halo + element (edgeA G P P.box.aInteriorBegin) (elementDeltaA G P) P.box.aInteriorWidth G.order A * G.order

/-- The first node of the element in beta, GridPatchCSGLL.cpp:1609-1628. -/
noncomputable def firstB (G : Grid) (P : Patch) (B : ℝ) : Int :=
  P.box.halo + element (edgeB G P P.box.bInteriorBegin) (elementDeltaB G P) P.box.bInteriorWidth G.order B * G.order

/-- The two nested loops that add up coefficients times values, GridPatchCSGLL.cpp:1683-1690. -/
noncomputable def tensor (n : Nat) (cA cB : List ℝ) (f : Nat → Nat → ℝ) : ℝ :=
  (List.range n).foldl (fun s m => (List.range n).foldl (fun s j => s + cA.getD m 0 * cB.getD j 0 * f m j) s) 0

/-- The two nested loops that take off coefficients times values, GridPatchCSGLL.cpp:1697-1704. -/
noncomputable def tensorOff (n : Nat) (cA cB : List ℝ) (f : Nat → Nat → ℝ) (start : ℝ) : ℝ :=
  (List.range n).foldl (fun s m => (List.range n).foldl (fun s j => s - cA.getD m 0 * cB.getD j 0 * f m j) s) start

/-- The value that the loops read at node `(m, j)` of the element with first node `(iA, iB)`,
GridPatchCSGLL.cpp:1649-1691: component 3 is divided by the vertical derivative at the first node of the element if
primitive variables are asked for. -/
noncomputable def nodeValue (G : Grid) (P : Patch) (ty : DataType) (conv : Bool) (c : Nat) (iA iB : Int) (k m j : Nat) : ℝ :=
  if c = 3 ∧ conv then
    if G.loc 3 = .redge then P.field ty c (iA + m) (iB + j) k / P.derivREdge iA iB k
    else P.field ty c (iA + m) (iB + j) k / P.derivNode iA iB k
  else P.field ty c (iA + m) (iB + j) k

/-- `dColumnData[k]`, GridPatchCSGLL.cpp:1630-1706. -/
noncomputable def columnData (G : Grid) (P : Patch) (ty : DataType) (incl conv : Bool) (c : Nat) (A B : ℝ) (k : Nat) : ℝ :=
  let iA := firstA G P A
  let iB := firstB G P B
  let cA := lagrangeCoeffs G.order (fun m => edgeA G P (iA + m)) A
  let cB := lagrangeCoeffs G.order (fun j => edgeB G P (iB + j)) B
  let v := tensor G.order cA cB (nodeValue G P ty conv c iA iB k)
  if ty = .state ∧ incl = false then tensorOff G.order cA cB (fun m j => P.ref c (iA + m) (iB + j) k) v else v

/-- The number of components of a type of data, and whether it has one level only, GridPatchCSGLL.cpp:1392-1438 and
GridPatchCartesianGLL.cpp:1531-1577.  The sphere does not know the Richardson number. -/
def shape (G : Grid) : DataType → Option (Nat × Bool)
  | .state => some (G.components, false)
  | .tracers => some (G.tracers, false)
  | .topography => some (1, true)
  | .vorticity => some (1, false)
  | .divergence => some (1, false)
  | .temperature => some (1, false)
  | .surfacePressure => some (1, true)
  | .richardson => if G.sphere then none else some (1, false)
  | .auxiliary2D => some (G.userFields, true)
  | .other => none

/-- The result of an initialisation of a column operator. -/
def ofColumn : Column.Res → Res Op
  | .exc => .exc
  | .ub => .ub
  | .ok A => .ok A

/-- The operator that interpolates a column of `nR` values at a location, GridPatchCSGLL.cpp:1468-1529 and
GridPatchCartesianGLL.cpp:1621-1659. -/
noncomputable def verticalOp (G : Grid) (l : Location) (nR nOut : Nat) (out : Nat → ℝ) : Res Op :=
  if nR ≠ 1 then
    if G.finiteElement then
      match l with
      | .node => ofColumn (interpInit .levels G.vorder G.levels (G.levels + 1) G.node G.edge nOut out false)
      | .redge => ofColumn (interpInit .interfaces G.vorder G.levels (G.levels + 1) G.node G.edge nOut out false)
      | .other => .exc
    else if G.sphere then
      match l with
      | .node => ofColumn (interpInit .levels 1 G.levels (G.levels + 1) G.node G.edge nOut out false)
      | .redge => ofColumn (interpInit .interfaces 1 G.levels (G.levels + 1) G.node G.edge nOut out false)
      | .other => .exc
    else .ok (identity nR)
  else .ok (identity 1)

/-- A point of the output: alpha, beta and the patch. -/
structure Point where
  A : ℝ
  B : ℝ
  patch : Nat

/-- The buffer `dColumnDataOut` and the array `dInterpData`. -/
structure Work where
  buf : Nat → ℝ
  D : Nat → Nat → Nat → ℝ

/-- Writing the column of a point, GridPatchCSGLL.cpp:1713-1717. -/
def store (D : Nat → Nat → Nat → ℝ) (c nOut i : Nat) (col : Nat → ℝ) : Nat → Nat → Nat → ℝ := fun c' k i' =>
  if c' = c ∧ i' = i ∧ k < nOut then col k else D c' k i'

open Classical in
/-- One point of one component, GridPatchCSGLL.cpp:1587-1719.  Reading the location of component 3 needs it to exist;
applying the operator writes as many entries of the buffer of `nOut` as it has rows. -/
noncomputable def pointStep (G : Grid) (P : Patch) (ty : DataType) (incl conv : Bool) (c nR nOut : Nat) (op : Op) (w : Work)
    (ip : Nat × Point) : Res Work :=
  if ip.2.patch ≠ P.index then .ok w
  else if outOfRange G P ip.2.A ip.2.B then .exc
  else if c = 3 ∧ conv ∧ 0 < nR ∧ G.components ≤ 3 then .ub
  else if nOut < op.rows then .ub
  else
    let buf := applyAll op (columnData G P ty incl conv c ip.2.A ip.2.B) w.buf 1 1
    .ok ⟨buf, store w.D c nOut ip.1 buf⟩

/-- A loop whose body may throw. -/
def loop {σ ι : Type} (f : σ → ι → Res σ) : List ι → σ → Res σ
  | [], s => .ok s
  | x :: xs, s => (f s x).bind (loop f xs)

/-- The points with their numbers. -/
def numbered (pts : List Point) : List (Nat × Point) := pts.zipIdx.map fun p => (p.2, p.1)

/-- One component, GridPatchCSGLL.cpp:1444-1720: variables of the state kept elsewhere than asked for (`only`, if any) are
passed over. -/
noncomputable def componentStep (G : Grid) (P : Patch) (ty : DataType) (flat incl conv : Bool) (only : Option Location)
    (nOut : Nat) (out : Nat → ℝ) (pts : List Point) (w : Work) (c : Nat) : Res Work :=
  let l := if ty = .state then G.loc c else .node
  if ty = .state ∧ only ≠ none ∧ only ≠ some l then .ok w
  else if l = .other then .exc
  else
    let nR := if flat then 1 else if l = .redge then G.levels + 1 else G.levels
    (verticalOp G l nR nOut out).bind fun op =>
      loop (pointStep G P ty incl conv c nR nOut op) (numbered pts) w

/-- The conversion of the winds at one point and level, GridPatchCSGLL.cpp:1761-1774. -/
noncomputable def windStep (G : Grid) (P : Patch) (p : Point) (U V : ℝ) : Res (ℝ × ℝ) :=
  match Sphere.coVecRLLFromABP (tan p.A) (tan p.B) P.box.panel (U / G.radius) (V / G.radius) with
  | none => .exc
  | some r => .ok r

/-- The conversion of the winds at one point, GridPatchCSGLL.cpp:1736-1777. -/
noncomputable def windPoint (G : Grid) (P : Patch) (nOut : Nat) (D : Nat → Nat → Nat → ℝ) (ip : Nat × Point) :
    Res (Nat → Nat → Nat → ℝ) :=
  if ip.2.patch ≠ P.index then .ok D
  else
    loop (fun D k => (windStep G P ip.2 (D 0 k ip.1) (D 1 k ip.1)).bind fun r =>
      .ok fun c' k' i' => if k' = k ∧ i' = ip.1 ∧ c' = 0 then r.1 else if k' = k ∧ i' = ip.1 ∧ c' = 1 then r.2 else D c' k' i')
      (List.range nOut) D

/-- The conversion to primitive variables, GridPatchCSGLL.cpp:1722-1779; the plane has none.  `rows` is the number of
components of the output array. -/
noncomputable def windAll (G : Grid) (P : Patch) (rows nOut : Nat) (pts : List Point) (D : Nat → Nat → Nat → ℝ) :
    Res (Nat → Nat → Nat → ℝ) :=
  if rows < 5 ∧ rows ≠ 3 then .exc else loop (windPoint G P nOut) (numbered pts) D

/-- `GridPatchCSGLL::InterpolateData`, GridPatchCSGLL.cpp:1365-1780, and `GridPatchCartesianGLL::InterpolateData`,
GridPatchCartesianGLL.cpp:1498-1853 (the check of the number of rows is that of the latter, 1579-1581; the other sizes
are those of the call). -/
noncomputable def interpolateData (G : Grid) (ty : DataType) (incl conv : Bool) (only : Option Location) (rows nOut : Nat)
    (out : Nat → ℝ) (pts : List Point) (D : Nat → Nat → Nat → ℝ) (P : Patch) : Res (Nat → Nat → Nat → ℝ) :=
  match shape G ty with
  | none => .exc
  | some (n, flat) =>
    if G.sphere = false ∧ rows ≠ n then .exc
    else
      (loop (componentStep G P ty flat incl conv only nOut out pts) (List.range n) ⟨fun _ => 0, D⟩).bind fun w =>
        if G.sphere ∧ ty = .state ∧ conv then windAll G P rows nOut pts w.D else .ok w.D

/-- The checks of `Grid::ReduceInterpolate` on the number of rows, Grid.cpp:885-935. -/
def rowsChecked (G : Grid) (ty : DataType) (rows : Nat) : Prop :=
  match ty with
  | .state => rows = G.components
  | .tracers => G.tracers ≠ 0 ∧ rows = G.tracers
  | .auxiliary2D => rows = G.userFields
  | .topography | .vorticity | .divergence | .temperature => rows = 1
  | _ => True

instance (G : Grid) (ty : DataType) (rows : Nat) : Decidable (rowsChecked G ty rows) := by
  unfold rowsChecked; cases ty <;> infer_instance

/-- What one process contributes in `Grid::ReduceInterpolate`, Grid.cpp:878-960: the zeroed array after all its patches. -/
noncomputable def localInterpolate (G : Grid) (ty : DataType) (incl conv : Bool) (only : Option Location) (rows nOut : Nat)
    (out : Nat → ℝ) (pts : List Point) (active : List Patch) : Res (Nat → Nat → Nat → ℝ) :=
  if rowsChecked G ty rows then
    loop (interpolateData G ty incl conv only rows nOut out pts) active (fun _ _ _ => 0)
  else .exc

/-- The array of the root after `MPI_Reduce` with `MPI_SUM`, Grid.cpp:962-991, combining in any order. -/
noncomputable def reduceInterpolate (t : Checksum.Tree (Nat → Nat → Nat → ℝ)) : Nat → Nat → Nat → ℝ :=
  t.reduce fun a b c k i => a c k i + b c k i

end Verif.Outref
