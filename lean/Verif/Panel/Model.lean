/-
Model of the panel topology of the cubed sphere: `Direction.cpp`, the index and direction tables of
`CubedSphereTrans.h`, and the `GetOpposingDirection` functions of the two grids.

Simplifications: `int` unbounded.  Calls that throw give `none`; output parameters become a result record.
-/
import Verif.Exchange.Model

namespace Verif.Panel

open Verif.Exchange (Dir)

/-- `DirectionOpposite`, src/atm/Direction.cpp:23-59. -/
def directionOpposite : Dir → Dir
  | .unreachable => .unreachable
  | .middle => .middle
  | .right => .left
  | .top => .bottom
  | .left => .right
  | .bottom => .top
  | .topRight => .bottomLeft
  | .topLeft => .bottomRight
  | .bottomLeft => .topRight
  | .bottomRight => .topLeft

/-- `DirectionIncrement`, src/atm/Direction.cpp:63-104; throws for the unreachable direction. -/
def directionIncrement (d : Dir) (n : Int × Int) : Option (Int × Int) :=
  match d with
  | .unreachable => none
  | .middle => some n
  | .right => some (n.1 + 1, n.2)
  | .top => some (n.1, n.2 + 1)
  | .left => some (n.1 - 1, n.2)
  | .bottom => some (n.1, n.2 - 1)
  | .topRight => some (n.1 + 1, n.2 + 1)
  | .topLeft => some (n.1 - 1, n.2 + 1)
  | .bottomLeft => some (n.1 - 1, n.2 - 1)
  | .bottomRight => some (n.1 + 1, n.2 - 1)

/-- `RelativePanel`, src/atm/CubedSphereTrans.h:318-460: the panel across an edge and the direction back. -/
def relativePanel (p : Int) (d : Dir) : Option (Int × Dir) :=
  if p = 0 then
    match d with
    | .right => some (1, .left)
    | .top => some (4, .bottom)
    | .left => some (3, .right)
    | .bottom => some (5, .top)
    | _ => none
  else if p = 1 then
    match d with
    | .right => some (2, .left)
    | .top => some (4, .right)
    | .left => some (0, .right)
    | .bottom => some (5, .right)
    | _ => none
  else if p = 2 then
    match d with
    | .right => some (3, .left)
    | .top => some (4, .top)
    | .left => some (1, .right)
    | .bottom => some (5, .bottom)
    | _ => none
  else if p = 3 then
    match d with
    | .right => some (0, .left)
    | .top => some (4, .left)
    | .left => some (2, .right)
    | .bottom => some (5, .left)
    | _ => none
  else if p = 4 then
    match d with
    | .right => some (1, .top)
    | .top => some (2, .top)
    | .left => some (3, .top)
    | .bottom => some (0, .top)
    | _ => none
  else if p = 5 then
    match d with
    | .right => some (1, .bottom)
    | .top => some (0, .bottom)
    | .left => some (3, .bottom)
    | .bottom => some (2, .bottom)
    | _ => none
  else none

/-- The `dest` outputs of `RelativeCoord`. -/
structure Rel where
  panel : Int
  ix : Int
  jx : Int
  switchAB : Bool
  switchPar : Bool
  switchPerp : Bool
  deriving DecidableEq, Repr

/-- `CubedSphereTrans::InvalidPanel`, src/atm/Direction.h:25. -/
def invalidPanel : Int := -1

/-- `CubedSphereTrans::RelativeCoord`, src/atm/CubedSphereTrans.h:481-724.  For a panel outside 0..5 the outputs
are left unset (`none`). -/
def relativeCoord (N p ix jx : Int) : Option Rel :=
  if 0 ≤ jx ∧ 0 ≤ ix ∧ jx < N ∧ ix < N then some ⟨p, ix, jx, false, false, false⟩
  else if (ix < 0 ∨ N ≤ ix) ∧ (jx < 0 ∨ N ≤ jx) then some ⟨invalidPanel, -1, -1, false, false, false⟩
  else if p = 0 then
    if N ≤ ix then some ⟨1, ix - N, jx, false, false, false⟩
    else if N ≤ jx then some ⟨4, ix, jx - N, false, false, false⟩
    else if ix < 0 then some ⟨3, ix + N, jx, false, false, false⟩
    else some ⟨5, ix, jx + N, false, false, false⟩
  else if p = 1 then
    if N ≤ ix then some ⟨2, ix - N, jx, false, false, false⟩
    else if N ≤ jx then some ⟨4, 2 * N - 1 - jx, ix, true, false, true⟩
    else if ix < 0 then some ⟨0, ix + N, jx, false, false, false⟩
    else some ⟨5, N + jx, N - 1 - ix, true, true, false⟩
  else if p = 2 then
    if N ≤ ix then some ⟨3, ix - N, jx, false, false, false⟩
    else if N ≤ jx then some ⟨4, N - ix - 1, 2 * N - 1 - jx, false, true, true⟩
    else if ix < 0 then some ⟨1, ix + N, jx, false, false, false⟩
    else some ⟨5, N - ix - 1, -jx - 1, false, true, true⟩
  else if p = 3 then
    if N ≤ ix then some ⟨0, ix - N, jx, false, false, false⟩
    else if N ≤ jx then some ⟨4, jx - N, N - ix - 1, true, true, false⟩
    else if ix < 0 then some ⟨2, ix + N, jx, false, false, false⟩
    else some ⟨5, -jx - 1, ix, true, false, true⟩
  else if p = 4 then
    if N ≤ ix then some ⟨1, jx, 2 * N - 1 - ix, true, false, true⟩
    else if N ≤ jx then some ⟨2, N - 1 - ix, 2 * N - 1 - jx, false, true, true⟩
    else if ix < 0 then some ⟨3, N - 1 - jx, ix + N, true, true, false⟩
    else some ⟨0, ix, jx + N, false, false, false⟩
  else if p = 5 then
    if N ≤ ix then some ⟨1, N - 1 - jx, ix - N, true, true, false⟩
    else if N ≤ jx then some ⟨0, ix, jx - N, false, false, false⟩
    else if ix < 0 then some ⟨3, jx, -ix - 1, true, false, true⟩
    else some ⟨2, N - 1 - ix, -jx - 1, false, true, true⟩
  else none

/-- `PanelFromDirection`, src/atm/CubedSphereTrans.h:729-784 (panels below 0 are taken as equatorial, with C's
remainder). -/
def panelFromDirection (p : Int) (d : Dir) : Option Int :=
  if p < 4 then
    match d with
    | .middle => some p
    | .right => some ((p + 1).tmod 4)
    | .top => some 4
    | .left => some ((p + 3).tmod 4)
    | .bottom => some 5
    | _ => none
  else if p = 4 then
    match d with
    | .middle => some 4
    | .right => some 1
    | .top => some 2
    | .left => some 3
    | .bottom => some 0
    | _ => none
  else if p = 5 then
    match d with
    | .middle => some 5
    | .right => some 1
    | .top => some 0
    | .left => some 3
    | .bottom => some 2
    | _ => none
  else none

/-- `DirectionFromPanel`, src/atm/CubedSphereTrans.h:793-893. -/
def directionFromPanel (p q : Int) : Option Dir :=
  if p = 0 then
    if q = 0 then some .middle
    else if q = 1 then some .right
    else if q = 2 then some .unreachable
    else if q = 3 then some .left
    else if q = 4 then some .top
    else if q = 5 then some .bottom
    else none
  else if p = 1 then
    if q = 0 then some .left
    else if q = 1 then some .middle
    else if q = 2 then some .right
    else if q = 3 then some .unreachable
    else if q = 4 then some .top
    else if q = 5 then some .bottom
    else none
  else if p = 2 then
    if q = 0 then some .unreachable
    else if q = 1 then some .left
    else if q = 2 then some .middle
    else if q = 3 then some .right
    else if q = 4 then some .top
    else if q = 5 then some .bottom
    else none
  else if p = 3 then
    if q = 0 then some .right
    else if q = 1 then some .unreachable
    else if q = 2 then some .left
    else if q = 3 then some .middle
    else if q = 4 then some .top
    else if q = 5 then some .bottom
    else none
  else if p = 4 then
    if q = 0 then some .bottom
    else if q = 1 then some .right
    else if q = 2 then some .top
    else if q = 3 then some .left
    else if q = 4 then some .middle
    else if q = 5 then some .unreachable
    else none
  else if p = 5 then
    if q = 0 then some .top
    else if q = 1 then some .right
    else if q = 2 then some .bottom
    else if q = 3 then some .left
    else if q = 4 then some .unreachable
    else if q = 5 then some .middle
    else none
  else none

/-- `OpposingDirection`, src/atm/CubedSphereTrans.h:898-1203. -/
def opposingDirection (p q : Int) (d : Dir) : Option Dir :=
  if d = .unreachable then some .unreachable
  else if d = .middle then (if p = q then some .middle else none)
  else if p = q then some (directionOpposite d)
  else if p = 0 then
    match d with
    | .right => some .left
    | .top => some .bottom
    | .left => some .right
    | .bottom => some .top
    | .topRight => if q = 1 then some .bottomLeft else if q = 4 then some .bottomLeft else none
    | .topLeft => if q = 3 then some .bottomRight else if q = 4 then some .bottomRight else none
    | .bottomLeft => if q = 3 then some .topRight else if q = 5 then some .topRight else none
    | .bottomRight => if q = 1 then some .topLeft else if q = 5 then some .topLeft else none
    | _ => none
  else if p = 1 then
    match d with
    | .right => some .left
    | .top => some .right
    | .left => some .right
    | .bottom => some .right
    | .topRight => if q = 4 then some .bottomRight else if q = 2 then some .bottomLeft else none
    | .topLeft => if q = 4 then some .topRight else if q = 0 then some .bottomRight else none
    | .bottomLeft => if q = 5 then some .bottomRight else if q = 0 then some .topRight else none
    | .bottomRight => if q = 5 then some .topRight else if q = 2 then some .topLeft else none
    | _ => none
  else if p = 2 then
    match d with
    | .right => some .left
    | .top => some .top
    | .left => some .right
    | .bottom => some .bottom
    | .topRight => if q = 4 then some .topRight else if q = 3 then some .bottomLeft else none
    | .topLeft => if q = 4 then some .topLeft else if q = 1 then some .bottomRight else none
    | .bottomLeft => if q = 5 then some .bottomLeft else if q = 1 then some .topRight else none
    | .bottomRight => if q = 5 then some .bottomRight else if q = 3 then some .topLeft else none
    | _ => none
  else if p = 3 then
    match d with
    | .right => some .left
    | .top => some .left
    | .left => some .right
    | .bottom => some .left
    | .topRight => if q = 4 then some .topLeft else if q = 0 then some .bottomLeft else none
    | .topLeft => if q = 4 then some .bottomLeft else if q = 2 then some .bottomRight else none
    | .bottomLeft => if q = 5 then some .topLeft else if q = 2 then some .topRight else none
    | .bottomRight => if q = 5 then some .bottomLeft else if q = 0 then some .topLeft else none
    | _ => none
  else if p = 4 then
    match d with
    | .right => some .top
    | .top => some .top
    | .left => some .top
    | .bottom => some .top
    | .topRight => if q = 1 then some .topLeft else if q = 2 then some .topRight else none
    | .topLeft => if q = 2 then some .topLeft else if q = 3 then some .topRight else none
    | .bottomLeft => if q = 3 then some .topLeft else if q = 0 then some .topRight else none
    | .bottomRight => if q = 0 then some .topLeft else if q = 1 then some .topRight else none
    | _ => none
  else if p = 5 then
    match d with
    | .right => some .bottom
    | .top => some .bottom
    | .left => some .bottom
    | .bottom => some .bottom
    | .topRight => if q = 1 then some .bottomRight else if q = 0 then some .bottomLeft else none
    | .topLeft => if q = 0 then some .bottomRight else if q = 3 then some .bottomLeft else none
    | .bottomLeft => if q = 3 then some .bottomRight else if q = 2 then some .bottomLeft else none
    | .bottomRight => if q = 2 then some .bottomRight else if q = 1 then some .bottomLeft else none
    | _ => none
  else none

/-- `fSwitchParallel` of `GridCSGLL::GetOpposingDirection`, src/atm/GridCSGLL.cpp:383-406. -/
def switchParallel (p q : Int) : Bool :=
  if p = 1 ∧ q = 5 then true
  else if p = 2 ∧ 3 < q then true
  else if p = 3 ∧ q = 4 then true
  else if p = 4 ∧ (q = 2 ∨ q = 3) then true
  else if p = 5 ∧ (q = 2 ∨ q = 1) then true
  else false

/-- `fSwitchPerpendicular` of `GridCSGLL::GetOpposingDirection`, src/atm/GridCSGLL.cpp:408-431. -/
def switchPerpendicular (p q : Int) : Bool :=
  if p = 1 ∧ q = 4 then true
  else if p = 2 ∧ 3 < q then true
  else if p = 3 ∧ q = 5 then true
  else if p = 4 ∧ (q = 1 ∨ q = 2) then true
  else if p = 5 ∧ (q = 3 ∨ q = 2) then true
  else false

/-- `GridCSGLL::GetOpposingDirection`, src/atm/GridCSGLL.cpp:364-432: opposing direction and the two flags. -/
def csOpposing (p q : Int) (d : Dir) : Option (Dir × Bool × Bool) :=
  if p < 0 ∨ 5 < p then none
  else if q < 0 ∨ 5 < q then none
  else (opposingDirection p q d).map fun o => (o, switchParallel p q, switchPerpendicular p q)

/-- `GridCartesianGLL::GetOpposingDirection`, src/atm/GridCartesianGLL.cpp:463-504.  For the directions Middle and
Unreachable the output direction is left unset (`none` here). -/
def cartOpposing (p q : Int) (d : Dir) : Option (Dir × Bool × Bool) :=
  if p < 0 ∨ 5 < p then none
  else if q < 0 ∨ 5 < q then none
  else if q ≠ p then none
  else
    match d with
    | .middle | .unreachable => none
    | d => some (directionOpposite d, false, false)

end Verif.Panel
