/-
Model of patch boxes, default patch layouts, patch lookup, patch distribution and the construction of the
neighbour connections of a patch (src/atm/PatchBox.h, Grid.cpp, GridCSGLL.cpp, GridCartesianGLL.cpp).

Simplifications: `int` unbounded.  `GridPatch::InvalidIndex` is `none`.  A call that throws gives `exc`, an access
outside an array `ub`.
-/
import Verif.Num.ISqrt
import Verif.Panel.Model

namespace Verif.Patch

open Verif.Exchange (Dir Res)
open Verif.Panel (relativeCoord)

/-! ### PatchBox -/

/-- Data members of `PatchBox`, PatchBox.h:230-249. -/
structure Box where
  panel : Int
  level : Int
  halo : Int
  aBegin : Int
  aEnd : Int
  bBegin : Int
  bEnd : Int
  deriving DecidableEq, Repr

/-- `PatchBox::PatchBox`, PatchBox.h:30-46: arguments are the global interior range. -/
def Box.make (panel level halo a0 a1 b0 b1 : Int) : Box :=
  ⟨panel, level, halo, a0 - halo, a1 + halo, b0 - halo, b1 + halo⟩

namespace Box

/-- `GetAGlobalBegin`, PatchBox.h:95-97. -/
def aGlobalBegin (x : Box) : Int := x.aBegin
/-- `GetAGlobalEnd`, PatchBox.h:102-104. -/
def aGlobalEnd (x : Box) : Int := x.aEnd
/-- `GetBGlobalBegin`, PatchBox.h:109-111. -/
def bGlobalBegin (x : Box) : Int := x.bBegin
/-- `GetBGlobalEnd`, PatchBox.h:116-118. -/
def bGlobalEnd (x : Box) : Int := x.bEnd
/-- `GetAGlobalInteriorBegin`, PatchBox.h:123-125. -/
def aGlobalInteriorBegin (x : Box) : Int := x.aBegin + x.halo
/-- `GetAGlobalInteriorEnd`, PatchBox.h:130-132. -/
def aGlobalInteriorEnd (x : Box) : Int := x.aEnd - x.halo
/-- `GetBGlobalInteriorBegin`, PatchBox.h:137-139. -/
def bGlobalInteriorBegin (x : Box) : Int := x.bBegin + x.halo
/-- `GetBGlobalInteriorEnd`, PatchBox.h:144-146. -/
def bGlobalInteriorEnd (x : Box) : Int := x.bEnd - x.halo
/-- `GetATotalWidth`, PatchBox.h:151-153. -/
def aTotalWidth (x : Box) : Int := x.aEnd - x.aBegin
/-- `GetBTotalWidth`, PatchBox.h:158-160. -/
def bTotalWidth (x : Box) : Int := x.bEnd - x.bBegin
/-- `GetTotalNodes`, PatchBox.h:165-167. -/
def totalNodes (x : Box) : Int := x.aTotalWidth * x.bTotalWidth
/-- `GetAInteriorWidth`, PatchBox.h:215-217. -/
def aInteriorWidth (x : Box) : Int := x.aEnd - x.aBegin - 2 * x.halo
/-- `GetBInteriorWidth`, PatchBox.h:222-224. -/
def bInteriorWidth (x : Box) : Int := x.bEnd - x.bBegin - 2 * x.halo
/-- `GetInteriorPerimeter`, PatchBox.h:172-174. -/
def interiorPerimeter (x : Box) : Int := 2 * x.aInteriorWidth + 2 * x.bInteriorWidth
/-- `GetTotalNodeCount2D`, PatchBox.h:179-181. -/
def totalNodeCount2D (x : Box) : Int := x.aTotalWidth * x.bTotalWidth
/-- `GetAInteriorBegin`, PatchBox.h:187-189. -/
def aInteriorBegin (x : Box) : Int := x.halo
/-- `GetAInteriorEnd`, PatchBox.h:194-196. -/
def aInteriorEnd (x : Box) : Int := x.aEnd - x.aBegin - x.halo
/-- `GetBInteriorBegin`, PatchBox.h:201-203. -/
def bInteriorBegin (x : Box) : Int := x.halo
/-- `GetBInteriorEnd`, PatchBox.h:208-210. -/
def bInteriorEnd (x : Box) : Int := x.bEnd - x.bBegin - x.halo

/-- `ContainsGlobalPoint`, PatchBox.h:52-68. -/
def contains (x : Box) (p a b : Int) : Bool :=
  if p ≠ x.panel then false
  else if a ≥ x.aGlobalInteriorBegin ∧ a < x.aGlobalInteriorEnd ∧
      b ≥ x.bGlobalInteriorBegin ∧ b < x.bGlobalInteriorEnd then true
  else false

end Box

/-! ### Node counts of a grid -/

/-- `Grid::GetMaxNodeCount2D`, Grid.cpp:688-704, over the rows of the box array. -/
def maxNodeCount2D (rows : List Box) : Int :=
  rows.foldl (fun m x => if x.totalNodeCount2D > m then x.totalNodeCount2D else m) 0

/-- `Grid::GetTotalNodeCount2D`, Grid.cpp:708-719. -/
def totalNodeCount2D (rows : List Box) : Int :=
  rows.foldl (fun m x => m + x.totalNodeCount2D) 0

/-! ### Default layouts -/

/-- Element at which box `i` of `d` begins: `iBoxBegin`, GridCSGLL.cpp:117-124 and GridCartesianGLL.cpp:176-191. -/
def boxBegin (res d i : Nat) : Nat :=
  if i = d then res else if i = 0 then 0 else i * (res / d)

/-- Box `(i, j)` of panel `n`, GridCSGLL.cpp:133-138. -/
def csBox (halo order res d n i j : Nat) : Box :=
  Box.make n 0 halo (order * boxBegin res d i : Nat) (order * boxBegin res d (i + 1) : Nat)
    (order * boxBegin res d j : Nat) (order * boxBegin res d (j + 1) : Nat)

/-- `nProcsPerDirection`, GridCSGLL.cpp:101. -/
def csSplit (nPatch : Nat) : Nat := max (Num.isqrt (nPatch / 6)) 1

/-- The boxes in the order of the three loops, GridCSGLL.cpp:129-143. -/
def csBoxes (halo order res d : Nat) : List Box :=
  (List.range 6).flatMap fun n => (List.range d).flatMap fun i => (List.range d).map fun j =>
    csBox halo order res d n i j

/-- `GridCSGLL::ApplyDefaultPatchLayout`, GridCSGLL.cpp:92-148.  `rows` is the size of the box array
(`nMaxPatchCount`), `done` the number of boxes already present.  Writing more boxes than rows is `ub`.  The
argument is not negative (the caller replaces -1, Model.cpp:124-142). -/
def csLayout (rows done halo order res nPatch : Nat) : Res (List Box) :=
  if done ≠ 0 then .exc
  else if res % csSplit nPatch ≠ 0 then .exc
  else if rows < (csBoxes halo order res (csSplit nPatch)).length then .ub
  else .ok (csBoxes halo order res (csSplit nPatch))

/-- Box `(i, j)` of the Cartesian grid, GridCartesianGLL.cpp:213-218. -/
def cartBox (halo order resA resB dA dB i j : Nat) : Box :=
  Box.make 0 0 halo (order * boxBegin resA dA i : Nat) (order * boxBegin resA dA (i + 1) : Nat)
    (order * boxBegin resB dB j : Nat) (order * boxBegin resB dB (j + 1) : Nat)

/-- The boxes in loop order, GridCartesianGLL.cpp:210-225. -/
def cartBoxes (halo order resA resB dA dB : Nat) : List Box :=
  (List.range dA).flatMap fun i => (List.range dB).map fun j => cartBox halo order resA resB dA dB i j

/-- `GridCartesianGLL::ApplyDefaultPatchLayout`, GridCartesianGLL.cpp:120-230 (both live branches use `nPatch` by
one strips). -/
def cartLayout (rows done halo order resA resB : Nat) (nPatch : Int) : Res (List Box) :=
  if nPatch < 1 then .exc
  else if done ≠ 0 then .exc
  else if resA * resB % nPatch.toNat ≠ 0 then .exc
  else if rows < (cartBoxes halo order resA resB nPatch.toNat 1).length then .ub
  else .ok (cartBoxes halo order resA resB nPatch.toNat 1)

/-! ### Patch lookup -/

/-- `IntPow`, MathHelper.h:86-98. -/
def intPow (d : Int) (p : Nat) : Int :=
  if p = 0 then 1 else (List.range (p - 1)).foldl (fun acc _ => acc * d) d

/-- `GetABaseResolution(level)` times the horizontal order, Grid.h:647-652, GridCSGLL.cpp:298-299. -/
def localResolution (order base ratio : Int) (level : Nat) : Int := order * (base * intPow ratio level)

/-- `for (n = 0; n < GetPatchCount(); n++) if (contains) break`: first box containing the point. -/
def scan (p a b : Int) : List Box → Nat → Option Nat
  | [], _ => none
  | x :: xs, n => if x.contains p a b then some n else scan p a b xs (n + 1)

/-- Check of the last patch found, GridCSGLL.cpp:333-341. -/
def cached (boxes : List Box) (last : Option Nat) (p a b : Int) : Bool :=
  match last with
  | none => false
  | some n => match boxes[n]? with
    | none => false
    | some x => x.contains p a b

/-- Transformation to another panel, GridCSGLL.cpp:304-331; `none`: out of bounds.  For a panel that does not
exist RelativeCoord leaves the coordinates as they were. -/
def csPlace (N p a b : Int) : Option (Int × Int × Int) :=
  if a < 0 ∨ a ≥ N ∨ b < 0 ∨ b ≥ N then
    match relativeCoord N p a b with
    | none => some (p, a, b)
    | some r => if r.ix = -1 ∧ r.jx = -1 then none else some (r.panel, r.ix, r.jx)
  else some (p, a, b)

/-- The loop of `GridCSGLL::GetPatchFromCoordinateIndex`, GridCSGLL.cpp:302-358, with the last patch found. -/
def csLoop (N : Int) (boxes : List Box) : Option Nat → List (Int × Int × Int) → List (Option Nat)
  | _, [] => []
  | last, (p, a, b) :: pts =>
    match csPlace N p a b with
    | none => none :: csLoop N boxes last pts
    | some (p, a, b) =>
      if cached boxes last p a b then last :: csLoop N boxes last pts
      else match scan p a b boxes 0 with
        | some n => some n :: csLoop N boxes (some n) pts
        | none => none :: csLoop N boxes last pts

/-- `GridCSGLL::GetPatchFromCoordinateIndex`, GridCSGLL.cpp:272-360, for arrays of the stated length. -/
def csLookup (order base ratio : Int) (boxes : List Box) (level : Int) (pts : List (Int × Int × Int)) :
    Res (List (Option Nat)) :=
  if level < 0 then .exc
  else .ok (csLoop (localResolution order base ratio level.toNat) boxes none pts)

/-- Which sides of a Cartesian grid are periodic: `m_eBoundaryCondition`. -/
structure Periodic where
  right : Bool
  top : Bool
  left : Bool
  bottom : Bool
  deriving DecidableEq, Repr

/-- Wrapping of one index, GridCartesianGLL.cpp:387-404 (alpha) and 405-424 (beta). -/
def wrapIndex (N : Int) (low high : Bool) (i : Int) : Option Int :=
  if i < 0 ∧ low = false then none
  else
    let i := if i < 0 then i + N else i
    if i ≥ N then (if high then some (i - N) else none) else some i

/-- Wrapping of a point, GridCartesianGLL.cpp:381-424; the panel becomes 0. -/
def cartPlace (NA NB : Int) (per : Periodic) (a b : Int) : Option (Int × Int × Int) :=
  match wrapIndex NA per.left per.right a with
  | none => none
  | some a => match wrapIndex NB per.bottom per.top b with
    | none => none
    | some b => some (0, a, b)

/-- The loop of `GridCartesianGLL::GetPatchFromCoordinateIndex`, GridCartesianGLL.cpp:379-458: throws at a point in
no patch. -/
def cartLoop (NA NB : Int) (per : Periodic) (boxes : List Box) :
    Option Nat → List (Int × Int × Int) → Res (List (Option Nat))
  | _, [] => .ok []
  | last, (_, a, b) :: pts =>
    match cartPlace NA NB per a b with
    | none => (cartLoop NA NB per boxes last pts).bind fun r => .ok (none :: r)
    | some (p, a, b) =>
      if cached boxes last p a b then (cartLoop NA NB per boxes last pts).bind fun r => .ok (last :: r)
      else match scan p a b boxes 0 with
        | some n => (cartLoop NA NB per boxes (some n) pts).bind fun r => .ok (some n :: r)
        | none => .exc

/-- `GridCartesianGLL::GetPatchFromCoordinateIndex`, GridCartesianGLL.cpp:347-459. -/
def cartLookup (order baseA baseB ratio : Int) (per : Periodic) (boxes : List Box) (level : Int)
    (pts : List (Int × Int × Int)) : Res (List (Option Nat)) :=
  if level < 0 then .exc
  else cartLoop (localResolution order baseA ratio level.toNat) (localResolution order baseB ratio level.toNat)
    per boxes none pts

/-! ### Distribution over processors -/

/-- What one rank knows after distribution: owner of every patch, its own active patches in order. -/
structure Owned where
  owner : List Nat
  active : List Nat
  deriving DecidableEq, Repr

/-- `Grid::DistributePatches`, Grid.cpp:1038-1062, on rank `rank` of `size`, starting with no active patch. -/
def distribute (rows size rank : Nat) : Owned :=
  (List.range rows).foldl (fun s n =>
    { owner := s.owner ++ [n % size]
      active := if n % size = rank then s.active ++ [n] else s.active }) ⟨[], []⟩

/-- `Grid::ActivateEmptyPatch`, Grid.cpp:1006-1016, on the list of active indices. -/
def activate (active : List Nat) (ix : Nat) : List Nat := active ++ [ix]

/-- `Grid::DeactivatePatch`, Grid.cpp:1020-1034: the loop index advances also after an erasure. -/
def deactivateFrom (ix : Nat) (i : Nat) (active : List Nat) : List Nat :=
  if h : i < active.length then
    if active[i] = ix then deactivateFrom ix (i + 1) (active.eraseIdx i)
    else deactivateFrom ix (i + 1) active
  else active
termination_by active.length - i
decreasing_by
  · rw [List.length_eraseIdx_of_lt h]; omega
  · omega

/-- `Grid::DeactivatePatch`. -/
def deactivate (active : List Nat) (ix : Nat) : List Nat := deactivateFrom ix 0 active

/-! ### Connections of a patch -/

/-- A call of `RegisterExchangeBuffer` that does something (the target is a patch). -/
structure Reg where
  target : Nat
  dir : Dir
  first : Int
  second : Int
  deriving DecidableEq, Repr

/-- `RegisterExchangeBuffer(source, target, dir, first, second)`, Grid.cpp:1121-1134: nothing for an invalid
target.  What it does with a valid one is modelled in `Verif.Exchange.register`. -/
def reg (t : Option Nat) (dir : Dir) (first second : Int) : List Reg :=
  match t with
  | none => []
  | some t => [⟨t, dir, first, second⟩]

/-- The nodes around the interior of a patch in the order of Grid.cpp:1275-1334. -/
def perimeter (x : Box) : List (Int × Int × Int) :=
  [(x.panel, x.aGlobalInteriorBegin - 1, x.bGlobalInteriorBegin - 1)] ++
  (Exchange.up x.aGlobalInteriorBegin x.aGlobalInteriorEnd).map (fun i => (x.panel, i, x.bGlobalInteriorBegin - 1)) ++
  [(x.panel, x.aGlobalInteriorEnd, x.bGlobalInteriorBegin - 1)] ++
  (Exchange.up x.bGlobalInteriorBegin x.bGlobalInteriorEnd).map (fun j => (x.panel, x.aGlobalInteriorEnd, j)) ++
  [(x.panel, x.aGlobalInteriorEnd, x.bGlobalInteriorEnd)] ++
  (Exchange.down x.aGlobalInteriorBegin x.aGlobalInteriorEnd).map (fun i => (x.panel, i, x.bGlobalInteriorEnd)) ++
  [(x.panel, x.aGlobalInteriorBegin - 1, x.bGlobalInteriorEnd)] ++
  (Exchange.down x.bGlobalInteriorBegin x.bGlobalInteriorEnd).map (fun j => (x.panel, x.aGlobalInteriorBegin - 1, j))

/-- The loop over one side walked in increasing direction (bottom, Grid.cpp:1368-1406; right, 1419-1457).  `n` is
the number of nodes left, `i` the loop variable, `ix` the position in the perimeter list, `first` and `cur` the
begin and the patch of the current segment; `old` and `new` register the diagonal connections at a change. -/
def walkUp (vec : List (Option Nat)) (edge : Option Nat → Int → Int → List Reg)
    (old new : Option Nat → Int → List Reg) : Nat → Int → Nat → Int → Option Nat → List Reg
  | 0, i, _, first, cur => edge cur first i
  | n + 1, i, ix, first, cur =>
    if vec.getD ix none ≠ cur then
      edge cur first i ++ old cur i ++ new (vec.getD ix none) i ++
        walkUp vec edge old new n (i + 1) (ix + 1) i (vec.getD ix none)
    else walkUp vec edge old new n (i + 1) (ix + 1) first cur

/-- The loop over one side walked in decreasing direction (top, Grid.cpp:1470-1508; left, 1521-1559); `firstEnd` is
the end of the current segment. -/
def walkDown (vec : List (Option Nat)) (edge : Option Nat → Int → Int → List Reg)
    (old new : Option Nat → Int → List Reg) : Nat → Int → Nat → Int → Option Nat → List Reg
  | 0, i, _, firstEnd, cur => edge cur (i + 1) firstEnd
  | n + 1, i, ix, firstEnd, cur =>
    if vec.getD ix none ≠ cur then
      edge cur (i + 1) firstEnd ++ old cur i ++ new (vec.getD ix none) i ++
        walkDown vec edge old new n (i - 1) (ix + 1) (i + 1) (vec.getD ix none)
    else walkDown vec edge old new n (i - 1) (ix + 1) firstEnd cur

/-- Connections registered from the perimeter list, Grid.cpp:1352-1559, for a box with `wA` by `wB` interior nodes.
The list has `2 wA + 2 wB + 4` entries, so every index used is in range. -/
def connectionsOf (x : Box) (wA wB : Nat) (vec : List (Option Nat)) : List Reg :=
  -- bottom-left corner, 1352-1361
  reg (vec.getD 0 none) .bottomLeft x.aInteriorBegin x.bInteriorBegin ++
  -- bottom edge, 1363-1406
  walkUp vec (fun t a b => reg t .bottom a b)
    (fun t i => reg t .bottomLeft i x.bInteriorBegin) (fun t i => reg t .bottomRight (i - 1) x.bInteriorBegin)
    wA x.aInteriorBegin 1 x.aInteriorBegin (vec.getD 1 none) ++
  -- bottom-right corner, 1408-1415
  reg (vec.getD (wA + 1) none) .bottomRight (x.aInteriorEnd - 1) x.bInteriorBegin ++
  -- right edge, 1417-1457
  walkUp vec (fun t a b => reg t .right a b)
    (fun t j => reg t .bottomRight (x.aInteriorEnd - 1) j) (fun t j => reg t .topRight (x.aInteriorEnd - 1) (j - 1))
    wB x.bInteriorBegin (wA + 2) x.bInteriorBegin (vec.getD (wA + 2) none) ++
  -- top-right corner, 1459-1466
  reg (vec.getD (wA + wB + 2) none) .topRight (x.aInteriorEnd - 1) (x.bInteriorEnd - 1) ++
  -- top edge, 1468-1508
  walkDown vec (fun t a b => reg t .top a b)
    (fun t i => reg t .topRight i (x.bInteriorEnd - 1)) (fun t i => reg t .topLeft (i + 1) (x.bInteriorEnd - 1))
    wA (x.aInteriorEnd - 1) (wA + wB + 3) x.aInteriorEnd (vec.getD (wA + wB + 3) none) ++
  -- top-left corner, 1510-1517
  reg (vec.getD (2 * wA + wB + 3) none) .topLeft x.aInteriorBegin (x.bInteriorEnd - 1) ++
  -- left edge, 1519-1559
  walkDown vec (fun t a b => reg t .left a b)
    (fun t j => reg t .topLeft x.aInteriorBegin j) (fun t j => reg t .bottomLeft x.aInteriorBegin (j + 1))
    wB (x.bInteriorEnd - 1) (2 * wA + wB + 4) x.bInteriorEnd (vec.getD (2 * wA + wB + 4) none)

/-- `Grid::InitializeExchangeBuffersFromPatch`, Grid.cpp:1258-1565, given the lookup function of the grid. -/
def connections (lookup : List (Int × Int × Int) → Res (List (Option Nat))) (x : Box) : Res (List Reg) :=
  (lookup (perimeter x)).bind fun vec =>
    if ((perimeter x).length : Int) ≠ x.interiorPerimeter + 4 then .exc
    else .ok (connectionsOf x x.aInteriorWidth.toNat x.bInteriorWidth.toNat vec)

end Verif.Patch
