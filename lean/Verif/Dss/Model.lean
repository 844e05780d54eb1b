import Mathlib.Data.Real.Basic

/-!
# Direct stiffness summation on one patch

Models `GridCSGLL::ApplyDSS` (src/atm/GridCSGLL.cpp:558-778) and the averaging
part of `GridCartesianGLL::ApplyDSS` (src/atm/GridCartesianGLL.cpp:614-651) for
one component and one level.  The levels `k` are independent of one another
(each statement of the loops reads and writes a single `k`), so one level is
one two-dimensional array.  Exact real arithmetic replaces floating point.

The exchange that fills the halo is modelled elsewhere (`Verif.Exchange`); the
rotation of halo velocities happens before and is not part of this file.
-/

namespace Verif.Dss

/-- One level of one component of the working array `pDataUpdate`, indexed
`(iA, iB)` as in src/atm/GridCSGLL.cpp:571.  Indices are integers and the array
is total; that the loops stay inside the allocated array is `C58_inside`. -/
abbrev Field := Int → Int → ℝ

/-- A store into the array, `pDataUpdate(i,j,k) = v`
(src/atm/GridCSGLL.cpp:571). -/
def put (u : Field) (i j : Int) (v : ℝ) : Field :=
  fun a b => if a = i ∧ b = j then v else u a b

/-- `for (int n = lo; n < hi; n++) u = f(n, u)` — the shape of every loop of
src/atm/GridCSGLL.cpp:558-719. -/
def loop (lo hi : Int) (f : Int → Field → Field) (u : Field) : Field :=
  (List.range (hi - lo).toNat).foldl (fun v (n : Nat) => f (lo + n) v) u

/-- The two statements of the alpha average,
src/atm/GridCSGLL.cpp:571-576 (also 601-606, 632-637) and
src/atm/GridCartesianGLL.cpp:627-631. -/
noncomputable def pairA (iA j : Int) (u : Field) : Field :=
  let v := put u iA j ((1 / 2) * (u iA j + u (iA - 1) j))
  put v (iA - 1) j (v iA j)

/-- The two statements of the beta average,
src/atm/GridCSGLL.cpp:655-660 (also 683-687, 711-716) and
src/atm/GridCartesianGLL.cpp:644-648. -/
noncomputable def pairB (iB i : Int) (u : Field) : Field :=
  let v := put u i iB ((1 / 2) * (u i iB + u i (iB - 1)))
  put v i (iB - 1) (v i iB)

/-- What the averaging reads from the patch: the halo width
(`box.GetHaloElements()`), the horizontal order, and the number of elements in
each direction (src/atm/GridCSGLL.cpp:451-452), and which of the four corner
neighbours do not exist (`… == InvalidPanel`, src/atm/GridCSGLL.cpp:475-483). -/
structure Patch where
  halo : Int
  order : Int
  elemA : Int
  elemB : Int
  noTopRight : Bool
  noTopLeft : Bool
  noBottomLeft : Bool
  noBottomRight : Bool

/-- `box.GetAInteriorBegin()`, `box.GetBInteriorBegin()`: the halo width
(src/atm/PatchBox.h GetAInteriorBegin, GetBInteriorBegin). -/
def Patch.beginning (P : Patch) : Int := P.halo

/-- `box.GetAInteriorEnd()`: halo plus interior width, the interior being
`elemA` elements of `order` nodes (src/atm/PatchBox.h GetAInteriorEnd;
element counts src/atm/GridPatchGLL.h GetElementCountA). -/
def Patch.endA (P : Patch) : Int := P.halo + P.elemA * P.order

/-- `box.GetBInteriorEnd()`, as for alpha. -/
def Patch.endB (P : Patch) : Int := P.halo + P.elemB * P.order

/-- Two if the neighbour is missing, else nothing: `jEnd -= 2`, `jBegin += 2`
(src/atm/GridCSGLL.cpp:590-595 and alike). -/
def skip (b : Bool) : Int := if b then 2 else 0

/-- Loop nest 1 of src/atm/GridCSGLL.cpp:558-641: the patch interior, the left
edge and the right edge. -/
noncomputable def alphaPass (P : Patch) (u : Field) : Field :=
  let jBegin := P.beginning - 1
  let jEnd := P.endB + 1
  let u1 := loop 1 P.elemA
    (fun a => loop jBegin jEnd (pairA (a * P.order + P.halo))) u
  let u2 := loop (jBegin + skip P.noBottomLeft) (jEnd - skip P.noTopLeft)
    (pairA P.halo) u1
  loop (jBegin + skip P.noBottomRight) (jEnd - skip P.noTopRight)
    (pairA (P.elemA * P.order + P.halo)) u2

/-- Loop nest 2 of src/atm/GridCSGLL.cpp:643-721: the patch interior, the
bottom edge and the top edge. -/
noncomputable def betaPass (P : Patch) (u : Field) : Field :=
  let iBegin := P.beginning - 1
  let iEnd := P.endA + 1
  let u1 := loop 1 P.elemB
    (fun b => loop iBegin iEnd (pairB (b * P.order + P.halo))) u
  let u2 := loop (iBegin + skip P.noBottomLeft) (iEnd - skip P.noBottomRight)
    (pairB P.halo) u1
  loop (iBegin + skip P.noTopLeft) (iEnd - skip P.noTopRight)
    (pairB (P.elemB * P.order + P.halo)) u2

/-- One of the four corner blocks of loop nest 3: the node at `(iA, iB)` becomes
a third of the sum of itself and of the halo nodes at `(iA + dA, iB)` and
`(iA, iB + dB)`. -/
noncomputable def corner (missing : Bool) (iA iB dA dB : Int) (u : Field) : Field :=
  if missing then
    put u iA iB ((1 / 3) * (u iA iB + u (iA + dA) iB + u iA (iB + dB)))
  else u

/-- Loop nest 3 of src/atm/GridCSGLL.cpp:723-778, in the order top right
(727-738), top left (740-751), bottom left (753-764), bottom right (766-777). -/
noncomputable def cornerPass (P : Patch) (u : Field) : Field :=
  let u1 := corner P.noTopRight (P.endA - 1) (P.endB - 1) 1 1 u
  let u2 := corner P.noTopLeft P.beginning (P.endB - 1) (-1) 1 u1
  let u3 := corner P.noBottomLeft P.beginning P.beginning (-1) (-1) u2
  corner P.noBottomRight (P.endA - 1) P.beginning 1 (-1) u3

/-- `GridCSGLL::ApplyDSS` on one patch, one component and one level, after the
exchange (src/atm/GridCSGLL.cpp:558-778). -/
noncomputable def dss (P : Patch) (u : Field) : Field :=
  cornerPass P (betaPass P (alphaPass P u))

/-- `GridCartesianGLL::ApplyDSS` on one patch, one component and one level,
after the exchange and the boundary conditions
(src/atm/GridCartesianGLL.cpp:614-651): `a` runs over `0 … nElementCountA`
inclusive, with no corner special cases. -/
noncomputable def dssCartesian (P : Patch) (u : Field) : Field :=
  let u1 := loop 0 (P.elemA + 1)
    (fun a => loop (P.beginning - 1) (P.endB + 1) (pairA (a * P.order + P.halo))) u
  loop 0 (P.elemB + 1)
    (fun b => loop (P.beginning - 1) (P.endA + 1) (pairB (b * P.order + P.halo))) u1

/-- The topography derivative on the Cartesian grid: `nComponents` is 2
(src/atm/GridCartesianGLL.cpp:544-545) but both turns of the component loop
attach to the start of the same two-level array (606-611), so each level is
averaged twice. -/
noncomputable def dssCartesianTopography (P : Patch) (u : Field) : Field :=
  dssCartesian P (dssCartesian P u)

end Verif.Dss
