import Verif.Dss.Model
import Verif.Panel.Model
import Verif.Sphere.Model
import Verif.Vert.Model

/-!
# Velocities across panel edges

Models, for one patch of the cubed sphere and one level,

* the panels around a patch, constructor of `GridPatchCSGLL`
  (src/atm/GridPatchCSGLL.cpp:52-145),
* its node coordinates, `GridPatchCSGLL::InitializeCoordinateData`
  (src/atm/GridPatchCSGLL.cpp:178-221),
* `GridPatchCSGLL::TransformHaloVelocities` (src/atm/GridPatchCSGLL.cpp:1783-1924)
  and `TransformTopographyDeriv` (1928-2010),
* what `GridCSGLL::ApplyDSS` makes of the two components
  (src/atm/GridCSGLL.cpp:434-784).

Exact real arithmetic replaces floating point.  The levels `k` are independent of
one another.  A thrown exception and an output left unset are both `none`.
-/

namespace Verif.Halo

open Verif.Exchange (Dir)
open Verif.Panel (relativeCoord invalidPanel Rel)
open Verif.Sphere (vecPanelTrans coVecPanelTrans)
open Verif.Vert (repeatedNode)

/-- A patch of the cubed sphere: the panel, its resolution in elements, the order,
the halo width (`PatchBox`, src/atm/PatchBox.h), the first element and the number of
elements in each direction. -/
structure Placed where
  panel : Int
  res : Int
  order : Int
  halo : Int
  eA : Int
  eB : Int
  elemA : Int
  elemB : Int

/-- `box.GetAGlobalInteriorBegin()` (src/atm/PatchBox.h). -/
def Placed.beginA (B : Placed) : Int := B.eA * B.order
/-- `box.GetBGlobalInteriorBegin()`. -/
def Placed.beginB (B : Placed) : Int := B.eB * B.order
/-- `box.GetAGlobalInteriorEnd()`. -/
def Placed.endA (B : Placed) : Int := B.eA * B.order + B.elemA * B.order
/-- `box.GetBGlobalInteriorEnd()`. -/
def Placed.endB (B : Placed) : Int := B.eB * B.order + B.elemB * B.order

/-- `m_ixNeighborPanel`, filled by the constructor through `RelativeCoord`
(src/atm/GridPatchCSGLL.cpp:63-145). -/
def Placed.neighbour (B : Placed) (d : Dir) : Option Int :=
  let at_ (i j : Int) := (relativeCoord (B.order * B.res) B.panel i j).map Rel.panel
  match d with
  | .right => at_ B.endA B.beginB
  | .top => at_ B.beginA B.endB
  | .left => at_ (B.beginA - 1) B.beginB
  | .bottom => at_ B.beginA (B.beginB - 1)
  | .topRight => at_ B.endA B.endB
  | .topLeft => at_ (B.beginA - 1) B.endB
  | .bottomLeft => at_ (B.beginA - 1) (B.beginB - 1)
  | .bottomRight => at_ B.endA (B.beginB - 1)
  | _ => none

/-- What `ApplyDSS` reads of the patch (src/atm/GridCSGLL.cpp:446-483): which corner
neighbours are `InvalidPanel`. -/
def Placed.patch (B : Placed) : Dss.Patch where
  halo := B.halo
  order := B.order
  elemA := B.elemA
  elemB := B.elemB
  noTopRight := B.neighbour .topRight == some invalidPanel
  noTopLeft := B.neighbour .topLeft == some invalidPanel
  noBottomLeft := B.neighbour .bottomLeft == some invalidPanel
  noBottomRight := B.neighbour .bottomRight == some invalidPanel

/-- One node coordinate: the tangent of the angle from
`GridSpacingGaussLobattoRepeated` with element width a quarter turn over the
resolution, starting at minus an eighth turn (src/atm/GridPatchCSGLL.cpp:180-187,
213-215). `x` are the Gauss-Lobatto points of one element. -/
noncomputable def coordinate (order res : Int) (x : Nat → ℝ) (g : Int) : Option ℝ :=
  match repeatedNode order x (0.5 * Real.pi / res) (-0.25 * Real.pi) g with
  | .ok v => some (Real.tan v)
  | _ => none

/-- `m_dXNode[i]`: array index `i` is global index `i - halo` from the first interior
one (`GetAGlobalBegin`, src/atm/GridPatchCSGLL.cpp:185-187). -/
noncomputable def Placed.xNode (B : Placed) (x : Nat → ℝ) (i : Int) : Option ℝ :=
  coordinate B.order B.res x (B.beginA - B.halo + i)

/-- `m_dYNode[j]` (src/atm/GridPatchCSGLL.cpp:192-194, 218-220). -/
noncomputable def Placed.yNode (B : Placed) (x : Nat → ℝ) (j : Int) : Option ℝ :=
  coordinate B.order B.res x (B.beginB - B.halo + j)

/-- The compile-time choice of the velocity components: the default, or
`PROGNOSTIC_CONTRAVARIANT_MOMENTA` (src/atm/GridPatchCSGLL.cpp:1817-1833). -/
inductive Momenta
  | covariant
  | contravariant

/-- The transform called for the choice (src/atm/GridPatchCSGLL.cpp:1818-1832). -/
noncomputable def panelTrans (m : Momenta) (src dst : Int) (v : ℝ × ℝ) (X Y : ℝ) : Option (ℝ × ℝ) :=
  match m with
  | .covariant => coVecPanelTrans src dst v.1 v.2 X Y
  | .contravariant => vecPanelTrans src dst v.1 v.2 X Y

/-- One level of the two velocity components (or the two topography derivatives). -/
abbrev Pair := Int → Int → ℝ × ℝ

/-- The call at one node, which overwrites both components there
(src/atm/GridPatchCSGLL.cpp:1826-1832). -/
noncomputable def transNode (m : Momenta) (B : Placed) (x : Nat → ℝ) (src : Int) (i j : Int) (V : Pair) :
    Option Pair := do
  let X ← B.xNode x i
  let Y ← B.yNode x j
  let v ← panelTrans m src B.panel (V i j) X Y
  return fun a b => if a = i ∧ b = j then v else V a b

/-- `for (int n = lo; n < hi; n++)` with a body that may throw. -/
def loopM (lo hi : Int) (f : Int → Pair → Option Pair) (V : Pair) : Option Pair :=
  (List.range (hi - lo).toNat).foldlM (fun W (n : Nat) => f (lo + n) W) V

/-- `box.GetAInteriorBegin()` and `GetBInteriorBegin()`, as array indices. -/
def Placed.first (B : Placed) : Int := B.halo
/-- `box.GetAInteriorEnd()`. -/
def Placed.lastA (B : Placed) : Int := B.halo + B.elemA * B.order
/-- `box.GetBInteriorEnd()`. -/
def Placed.lastB (B : Placed) : Int := B.halo + B.elemB * B.order

/-- Across the right edge (src/atm/GridPatchCSGLL.cpp:1808-1836). -/
noncomputable def transRight (m : Momenta) (B : Placed) (x : Nat → ℝ) (V : Pair) : Option Pair := do
  let q ← B.neighbour .right
  if q ≠ B.panel then loopM (B.first - 1) (B.lastB + 1) (fun j => transNode m B x q B.lastA j) V
  else return V

/-- Across the top edge (src/atm/GridPatchCSGLL.cpp:1838-1865). -/
noncomputable def transTop (m : Momenta) (B : Placed) (x : Nat → ℝ) (V : Pair) : Option Pair := do
  let q ← B.neighbour .top
  if q ≠ B.panel then loopM (B.first - 1) (B.lastA + 1) (fun i => transNode m B x q i B.lastB) V
  else return V

/-- Across the left edge (src/atm/GridPatchCSGLL.cpp:1867-1894). -/
noncomputable def transLeft (m : Momenta) (B : Placed) (x : Nat → ℝ) (V : Pair) : Option Pair := do
  let q ← B.neighbour .left
  if q ≠ B.panel then loopM (B.first - 1) (B.lastB + 1) (fun j => transNode m B x q (B.first - 1) j) V
  else return V

/-- Across the bottom edge (src/atm/GridPatchCSGLL.cpp:1896-1923). -/
noncomputable def transBottom (m : Momenta) (B : Placed) (x : Nat → ℝ) (V : Pair) : Option Pair := do
  let q ← B.neighbour .bottom
  if q ≠ B.panel then loopM (B.first - 1) (B.lastA + 1) (fun i => transNode m B x q i (B.first - 1)) V
  else return V

/-- `GridPatchCSGLL::TransformHaloVelocities`, src/atm/GridPatchCSGLL.cpp:1783-1924, at one
level: right, top, left, bottom. -/
noncomputable def transformHalo (m : Momenta) (B : Placed) (x : Nat → ℝ) (V : Pair) : Option Pair := do
  let V ← transRight m B x V
  let V ← transTop m B x V
  let V ← transLeft m B x V
  transBottom m B x V

/-- `GridPatchCSGLL::TransformTopographyDeriv`, src/atm/GridPatchCSGLL.cpp:1928-2010: the same
loops over the two entries of the topography derivative, always with the covariant transform. -/
noncomputable def transformTopographyDeriv (B : Placed) (x : Nat → ℝ) (V : Pair) : Option Pair :=
  transformHalo .covariant B x V

/-- The averaging of both components, one after the other (src/atm/GridCSGLL.cpp:504-778). -/
noncomputable def average (P : Dss.Patch) (V : Pair) : Pair :=
  let u := Dss.dss P (fun i j => (V i j).1)
  let v := Dss.dss P (fun i j => (V i j).2)
  fun i j => (u i j, v i j)

/-- `GridCSGLL::ApplyDSS` with `DataType_State` for the velocities of one patch after the
exchange, src/atm/GridCSGLL.cpp:454-457, 504-778. -/
noncomputable def applyDSS (m : Momenta) (B : Placed) (x : Nat → ℝ) (V : Pair) : Option Pair := do
  let V ← transformHalo m B x V
  return average B.patch V

/-- `GridCSGLL::ApplyDSS` with `DataType_TopographyDeriv`, src/atm/GridCSGLL.cpp:458-463, 504-778: the two
derivatives are the two levels of one component. -/
noncomputable def applyDSSTopography (B : Placed) (x : Nat → ℝ) (V : Pair) : Option Pair := do
  let V ← transformTopographyDeriv B x V
  return average B.patch V

end Verif.Halo
