/-
Model of the vertical stretching functions (src/atm/VerticalStretch.h), of the horizontal grid spacings
(src/atm/GridSpacing.cpp) and of the initialisation of the vertical coordinate (src/atm/GridGLL.cpp).

Simplifications: `double` is the real numbers.  Arrays of points and weights are functions of the index, read only where
the code reads them.  `/` and `%` on `int` are C's, which round towards zero.
-/
import Verif.Quad.Model

namespace Verif.Vert

/-! ### Stretching -/

/-- `VerticalStretchUniform`, VerticalStretch.h:59-66: the stretched coordinate and the derivative. -/
noncomputable def stretchUniform (eta : ℝ) : ℝ × ℝ := (eta, 1)

/-- `VerticalStretchCubic`, VerticalStretch.h:81-98. -/
noncomputable def stretchCubic (eta : ℝ) : ℝ × ℝ :=
  let s1 : ℝ := 0.1
  let s2 : ℝ := 2.0
  (s1 * eta + (3.0 - 2.0 * s1 - s2) * eta * eta + (-2.0 + s1 + s2) * eta * eta * eta,
    s1 + 2.0 * (3.0 - 2.0 * s1 - s2) * eta + 3.0 * (-2.0 + s1 + s2) * eta * eta)

open Classical in
/-- `VerticalStretchPiecewiseLinear`, VerticalStretch.h:114-126. -/
noncomputable def stretchPiecewise (eta : ℝ) : ℝ × ℝ :=
  if eta < 2.0 / 3.0 then (0.5 * eta, 0.5) else (2.0 * (eta - 2.0 / 3.0) + 1.0 / 3.0, 2.0)

/-! ### Spacing -/

/-- A coordinate, an exception, or an access outside an array. -/
inductive Res where
  | ok (v : ℝ)
  | exc
  | ub

/-- `GridSpacingUniform::GetNode`, GridSpacing.cpp:46-48. -/
noncomputable def uniformNode (delta zero : ℝ) (ix : Int) : ℝ := zero + (ix + 0.5) * delta

/-- `GridSpacingUniform::GetEdge`, GridSpacing.cpp:53-55. -/
noncomputable def uniformEdge (delta zero : ℝ) (ix : Int) : ℝ := zero + ix * delta

/-- The common body of `GetNode` and `GetEdge`: `period` is the divisor, `order` the number added to the remainder of a
negative index and the bound of the check, `g` the points of one element.

`GridSpacingGaussLobatto`, GridSpacing.cpp:93-130, has period one less than the order; the repeated spacing,
GridSpacing.cpp:180-217, and the mixed one, GridSpacing.cpp:263-301, have the order as period. -/
noncomputable def spacingAt (period order : Int) (g : Nat → ℝ) (delta zero : ℝ) (ix : Int) : Res :=
  let e := ix.tdiv period
  let s := ix.tmod period
  let e' := if ix < 0 then e - 1 else e
  let s' := if ix < 0 then order + s else s
  if s' ≥ order then .exc else .ok (zero + delta * e' + g s'.toNat)

/-- `GridSpacingGaussLobatto::GetNode` and `GetEdge`. -/
noncomputable def gllNode (order : Int) (g : Nat → ℝ) (delta zero : ℝ) (ix : Int) : Res :=
  spacingAt (order - 1) order g delta zero ix

/-- `GridSpacingGaussLobattoRepeated::GetNode` and `GetEdge`; and those of `GridSpacingMixedGaussLobatto`, with the
Gauss points for nodes and the Gauss-Lobatto points for edges. -/
noncomputable def repeatedNode (order : Int) (g : Nat → ℝ) (delta zero : ℝ) (ix : Int) : Res :=
  spacingAt order order g delta zero ix

/-- Reading entry `i` of an array of `n` weights. -/
def readArray (n : Int) (w : Nat → ℝ) (i : Int) : Res := if 0 ≤ i ∧ i < n then .ok (w i.toNat) else .ub

/-- `GridSpacingGaussLobatto::GetNodeNormArea` and `GetEdgeNormArea`, GridSpacing.cpp:134-154. -/
noncomputable def gllArea (order : Int) (w : Nat → ℝ) (ix : Int) : Res :=
  let s := ix.tmod (order - 1)
  if s = 0 then .ok (2 * w 0) else readArray order w s

/-- `GridSpacingGaussLobattoRepeated::GetNodeNormArea` and `GetEdgeNormArea`, GridSpacing.cpp:221-233, and
`GridSpacingMixedGaussLobatto::GetNodeNormArea`, 305-309. -/
def repeatedArea (order : Int) (w : Nat → ℝ) (ix : Int) : Res := readArray order w (ix.tmod order)

/-- `GridSpacingMixedGaussLobatto::GetEdgeNormArea`, GridSpacing.cpp:313-321.  The array has `order + 1` weights. -/
noncomputable def mixedEdgeArea (order : Int) (w : Nat → ℝ) (ix : Int) : Res :=
  let s := ix.tmod order
  if s = 0 then .ok (2 * w 0) else readArray (order + 1) w s

/-! ### Levels

`n` is the number of nodes in a finite element (`nNodesPerFiniteElement`), `m` the number of finite elements, `g`, `w`
the Gauss points and weights on [0, 1] and `gl`, `wl` the Gauss-Lobatto ones. -/

/-- Coordinates and weights. -/
structure Column where
  eta : Nat → ℝ
  area : Nat → ℝ

/-- The loop `m_…NormArea[a * p] *= 2.0` for `1 ≤ a < m`, GridGLL.cpp:417-419 and 500-502. -/
noncomputable def doubleShared (p : Nat) (area : Nat → ℝ) : Nat → (Nat → ℝ)
  | 0 => area
  | 1 => area
  | m + 2 =>
    let prev := doubleShared p area (m + 1)
    fun k => if k = (m + 1) * p then prev k * 2 else prev k

/-- One array written by `(points[k % p] + k / p) * Δ`, `weights[k % p] * Δ`, with `Δ = 1 / m`, GridGLL.cpp:408-416,
485-491 and 493-499. -/
noncomputable def uniformColumn (p m : Nat) (g w : Nat → ℝ) : Column where
  eta k := (g (k % p) + ((k / p : ℕ) : ℝ)) * (1 / (m : ℝ))
  area k := w (k % p) * (1 / (m : ℝ))

/-- Levels without stretching (LEV, LOR and CPH staggering), GridGLL.cpp:485-491. -/
noncomputable def uniformLevels (n m : Nat) (g w : Nat → ℝ) : Column := uniformColumn n m g w

/-- Interfaces without stretching, GridGLL.cpp:493-502. -/
noncomputable def uniformInterfaces (n m : Nat) (gl wl : Nat → ℝ) : Column :=
  let c := uniformColumn n m gl wl
  ⟨c.eta, doubleShared n c.area m⟩

/-- Levels of the INT staggering without stretching, GridGLL.cpp:407-419. -/
noncomputable def uniformLevelsInt (n m : Nat) (gl wl : Nat → ℝ) : Column :=
  let c := uniformColumn (n - 1) m gl wl
  ⟨c.eta, doubleShared (n - 1) c.area m⟩

/-- Writing the `count` points of element `a`, GridGLL.cpp:525-529 (`count = n`, `p = n`, overwriting the weight),
531-535 (`count = n + 1`, `p = n`, adding to it) and 440-444 (`count = n`, `p = n - 1`, adding). -/
noncomputable def writeElement (p count : Nat) (g w : Nat → ℝ) (add : Bool) (eta0 delta : ℝ) (a : Nat) (c : Column) :
    Column :=
  (List.range count).foldl (fun c k =>
    let kx := a * p + k
    ⟨Function.update c.eta kx (eta0 + g k * delta),
      Function.update c.area kx ((if add then c.area kx else 0) + w k * delta)⟩) c

/-- The state of the loop over elements with stretching: the bounds of the element and the arrays. -/
structure LoopState where
  eta0 : ℝ
  eta1 : ℝ
  col : Column

/-- One pass of the loop over elements, GridGLL.cpp:437-453 and 521-544.  `F` is the stretching function. -/
noncomputable def stretchStep (F : ℝ → ℝ) (m p count : Nat) (g w : Nat → ℝ) (add : Bool) (s : LoopState) (a : Nat) :
    LoopState :=
  ⟨s.eta1, F (((a + 2 : ℕ) : ℝ) * (1 / (m : ℝ))), writeElement p count g w add s.eta0 (s.eta1 - s.eta0) a s.col⟩

/-- The loop over elements with stretching, GridGLL.cpp:424-453 and 507-544.  The weights are zeroed first; `init` is
what the coordinates held before.  Levels and interfaces are written in the same loop to different arrays; here each
array has its own. -/
noncomputable def stretched (F : ℝ → ℝ) (m p count : Nat) (g w : Nat → ℝ) (add : Bool) (init : Nat → ℝ) : Column :=
  ((List.range m).foldl (stretchStep F m p count g w add) ⟨0, F (1 / (m : ℝ)), ⟨init, fun _ => 0⟩⟩).col

/-- Levels with stretching (LEV, LOR and CPH staggering). -/
noncomputable def stretchedLevels (F : ℝ → ℝ) (n m : Nat) (g w : Nat → ℝ) (init : Nat → ℝ) : Column :=
  stretched F m n n g w false init

/-- Interfaces with stretching. -/
noncomputable def stretchedInterfaces (F : ℝ → ℝ) (n m : Nat) (gl wl : Nat → ℝ) (init : Nat → ℝ) : Column :=
  stretched F m n (n + 1) gl wl true init

/-- Levels of the INT staggering with stretching. -/
noncomputable def stretchedLevelsInt (F : ℝ → ℝ) (n m : Nat) (gl wl : Nat → ℝ) (init : Nat → ℝ) : Column :=
  stretched F m (n - 1) n gl wl true init

/-- Points and weights on [0, 1] as functions of the index, from `GaussQuadrature::GetPoints(n, 0.0, 1.0, …)`,
GridGLL.cpp:468-469. -/
noncomputable def gaussRule (roots : Nat → List ℝ) (n : Nat) : (Nat → ℝ) × (Nat → ℝ) :=
  let r := Quad.rescale 0 1 ((Quad.gaussPoints roots n).getD ([], []))
  (fun k => r.1.getD k 0, fun k => r.2.getD k 0)

/-- The same from `GaussLobattoQuadrature::GetPoints(n, 0.0, 1.0, …)`, GridGLL.cpp:396-397 and 475-476. -/
noncomputable def lobattoRule (roots : Nat → List ℝ) (n : Nat) : (Nat → ℝ) × (Nat → ℝ) :=
  let r := Quad.rescale 0 1 ((Quad.lobattoPoints roots n).getD ([], []))
  (fun k => r.1.getD k 0, fun k => r.2.getD k 0)

/-- What the initialisation ends in: an exception, a division by zero, or the arrays of levels and, unless the staggering
is INT, of interfaces. -/
inductive Init where
  | exc
  | ub
  | ok (levels : Column) (interfaces : Option Column)

/-- `GridGLL::InitializeVerticalCoordinate`, GridGLL.cpp:368-553, for a three-dimensional equation set with at least one
level.  `gauss` and `lobatto` give the points and weights on [0, 1] for a number of points, both quadratures refuse zero
points and Gauss-Lobatto one point; `init` is what the coordinate arrays held.  `order` is `m_nVerticalOrder`, `levels`
is `m_nRElements`, `F` the stretching function if there is one.  The copies of lines 549-551 and the part of the base
class are left out. -/
noncomputable def initVertical (gauss lobatto : Nat → (Nat → ℝ) × (Nat → ℝ)) (finiteVolume int : Bool) (order levels : Nat)
    (F : Option (ℝ → ℝ)) (init : Nat → ℝ) : Init :=
  let n := if finiteVolume then 1 else order
  if int then
    if n = 1 then .ub
    else if n = 0 then .exc
    else if (levels - 1) % (n - 1) ≠ 0 then .exc
    else
      let m := (levels - 1) / (n - 1)
      let (gl, wl) := lobatto n
      match F with
      | none => .ok (uniformLevelsInt n m gl wl) none
      | some F => .ok (stretchedLevelsInt F n m gl wl init) none
  else
    if n = 0 then .ub
    else if levels % n ≠ 0 then .exc
    else
      let m := levels / n
      let (g, w) := gauss n
      let (gl, wl) := lobatto (n + 1)
      match F with
      | none => .ok (uniformLevels n m g w) (some (uniformInterfaces n m gl wl))
      | some F => .ok (stretchedLevels F n m g w init) (some (stretchedInterfaces F n m gl wl init))

end Verif.Vert
