/-
Model of the coordinate and vector conversions of the cubed sphere (src/atm/CubedSphereTrans.cpp and .h).

Simplifications: `double` is the real numbers, with exact arithmetic, square roots and trigonometric functions;
`M_PI` is π, `DBL_EPSILON` is 2^-52.  Division by zero has no special value here, so statements exclude it.  A call
that throws gives `none`; output parameters are the result.
-/
import Mathlib.Analysis.SpecialFunctions.Trigonometric.Arctan
import Mathlib.Analysis.SpecialFunctions.Complex.Arg

namespace Verif.Sphere

open Real

/-- Rotation of panel-centred coordinates to global ones: the first switch of `XYZFromXYP` and `XYPFromXYP`,
CubedSphereTrans.cpp:43-82 and 107-146. -/
def toGlobal (p : Int) (sx sy sz : ℝ) : Option (ℝ × ℝ × ℝ) :=
  if p = 0 then some (sz, sx, sy)
  else if p = 1 then some (-sx, sz, sy)
  else if p = 2 then some (-sz, -sx, sy)
  else if p = 3 then some (sx, -sz, sy)
  else if p = 4 then some (-sy, sx, sz)
  else if p = 5 then some (sy, sx, -sz)
  else none

/-- The second switch of `XYPFromXYP`, CubedSphereTrans.cpp:149-187, and the panel assignments of `XYPFromRLL`,
CubedSphereTrans.cpp:326-360. -/
def toLocal (p : Int) (xx yy zz : ℝ) : Option (ℝ × ℝ × ℝ) :=
  if p = 0 then some (yy, zz, xx)
  else if p = 1 then some (-xx, zz, yy)
  else if p = 2 then some (-yy, zz, -xx)
  else if p = 3 then some (xx, zz, -yy)
  else if p = 4 then some (yy, -xx, zz)
  else if p = 5 then some (yy, xx, -zz)
  else none

/-- `XYZFromXYP`, CubedSphereTrans.cpp:25-83. -/
noncomputable def xyzFromXYP (X Y : ℝ) (p : Int) : Option (ℝ × ℝ × ℝ) :=
  let sz := 1 / √(1 + X * X + Y * Y)
  let sx := sz * X
  let sy := sz * Y
  toGlobal p sx sy sz

/-- `XYPFromXYP`, CubedSphereTrans.cpp:87-196. -/
noncomputable def xypFromXYP (X Y : ℝ) (src dst : Int) : Option (ℝ × ℝ) :=
  let sz := 1 / √(1 + X * X + Y * Y)
  let sx := sz * X
  let sy := sz * Y
  match toGlobal src sx sy sz with
  | none => none
  | some (xx, yy, zz) =>
    match toLocal dst xx yy zz with
    | none => none
    | some (sx, sy, sz) => if sz ≤ 0 then none else some (sx / sz, sy / sz)

/-- `atan2`. -/
noncomputable def atan2 (y x : ℝ) : ℝ := Complex.arg ⟨x, y⟩

/-- `DBL_EPSILON`. -/
noncomputable def dblEpsilon : ℝ := 1 / 2 ^ 52

/-- `lon < 0` mapped up, CubedSphereTrans.cpp:262-265. -/
noncomputable def wrapLon (lon : ℝ) : ℝ := if lon < 0 then lon + 2 * π else lon

/-- Longitude on the north polar panel, CubedSphereTrans.cpp:234-240. -/
noncomputable def northLon (X Y : ℝ) : ℝ :=
  if |X| > dblEpsilon then atan2 X (-Y) else if Y ≤ 0 then 0 else π

/-- Longitude on the south polar panel, CubedSphereTrans.cpp:246-252. -/
noncomputable def southLon (X Y : ℝ) : ℝ :=
  if |X| > dblEpsilon then atan2 X Y else if Y > 0 then 0 else π

/-- `RLLFromXYP`, CubedSphereTrans.cpp:200-266: (longitude, latitude). -/
noncomputable def rllFromXYP (X Y : ℝ) (p : Int) : Option (ℝ × ℝ) :=
  if p = 0 then some (wrapLon (arctan X), arctan (Y / √(1 + X * X)))
  else if p = 1 then some (wrapLon (arctan X + 1 / 2 * π), arctan (Y / √(1 + X * X)))
  else if p = 2 then some (wrapLon (arctan X + π), arctan (Y / √(1 + X * X)))
  else if p = 3 then some (wrapLon (arctan X + 3 / 2 * π), arctan (Y / √(1 + X * X)))
  else if p = 4 then some (wrapLon (northLon X Y), 1 / 2 * π - arctan (√(X * X + Y * Y)))
  else if p = 5 then some (wrapLon (southLon X Y), -(1 / 2 * π) + arctan (√(X * X + Y * Y)))
  else none

/-- `RLLFromABP`, CubedSphereTrans.cpp:270-278. -/
noncomputable def rllFromABP (A B : ℝ) (p : Int) : Option (ℝ × ℝ) := rllFromXYP (tan A) (tan B) p

/-- Choice of the panel in `XYPFromRLL`, CubedSphereTrans.cpp:289-324: later checks overwrite earlier ones. -/
noncomputable def panelOf (xx yy zz : ℝ) : Int :=
  let pm := max |xx| (max |yy| |zz|)
  let p := 6
  let p := if pm = |xx| then (if xx > 0 then 0 else 2) else p
  let p := if pm = |yy| then (if yy > 0 then 1 else 3) else p
  let p := if pm = |zz| then (if zz > 0 then 4 else 5) else p
  p

/-- `XYPFromRLL`, CubedSphereTrans.cpp:282-367: (X, Y, panel). -/
noncomputable def xypFromRLL (lon lat : ℝ) : Option (ℝ × ℝ × Int) :=
  let xx := cos lon * cos lat
  let yy := sin lon * cos lat
  let zz := sin lat
  match toLocal (panelOf xx yy zz) xx yy zz with
  | none => none
  | some (sx, sy, sz) => some (sx / sz, sy / sz, panelOf xx yy zz)

/-- `ABPFromRLL`, CubedSphereTrans.cpp:371-381. -/
noncomputable def abpFromRLL (lon lat : ℝ) : Option (ℝ × ℝ × Int) :=
  match xypFromRLL lon lat with
  | none => none
  | some (X, Y, p) => some (arctan X, arctan Y, p)

/-- The test for the pole of a polar panel, CubedSphereTrans.cpp:399, 563 and 655. -/
noncomputable def atPole (X Y : ℝ) (p : Int) : Prop := p > 3 ∧ |X| < 1 / 10 ^ 13 ∧ |Y| < 1 / 10 ^ 13

/-- Latitude on an equatorial panel. -/
noncomputable def latEq (X Y : ℝ) : ℝ := arctan (Y / √(1 + X * X))

/-- Latitude on the north polar panel. -/
noncomputable def latNorth (X Y : ℝ) : ℝ := 1 / 2 * π - arctan (√(X * X + Y * Y))

/-- Latitude on the south polar panel. -/
noncomputable def latSouth (X Y : ℝ) : ℝ := -(1 / 2 * π) + arctan (√(X * X + Y * Y))

open Classical in
/-- `VecTransABPFromRLL`, CubedSphereTrans.cpp:385-467: (alpha, beta) components from (lon, lat) components. -/
noncomputable def vecABPFromRLL (X Y : ℝ) (p : Int) (ulon ulat : ℝ) : Option (ℝ × ℝ) :=
  let D := 1 + X * X + Y * Y
  if atPole X Y p then some (if p = 4 then (ulon, ulat) else (-ulon, ulat))
  else if p = 0 ∨ p = 1 ∨ p = 2 ∨ p = 3 then
    let ulon := ulon / cos (latEq X Y)
    some (ulon, X * Y / (1 + Y * Y) * ulon + D / ((1 + Y * Y) * √(1 + X * X)) * ulat)
  else if p = 4 then
    let ulon := ulon / cos (latNorth X Y)
    let R := √(X * X + Y * Y)
    some (-Y / (1 + X * X) * ulon - D * X / ((1 + X * X) * R) * ulat,
      X / (1 + Y * Y) * ulon - D * Y / ((1 + Y * Y) * R) * ulat)
  else if p = 5 then
    let ulon := ulon / cos (latSouth X Y)
    let R := √(X * X + Y * Y)
    some (Y / (1 + X * X) * ulon + D * X / ((1 + X * X) * R) * ulat,
      -X / (1 + Y * Y) * ulon + D * Y / ((1 + Y * Y) * R) * ulat)
  else none

/-- `VecTransRLLFromABP`, CubedSphereTrans.cpp:471-545: (lon, lat) components from (alpha, beta) components. -/
noncomputable def vecRLLFromABP (X Y : ℝ) (p : Int) (ua ub : ℝ) : Option (ℝ × ℝ) :=
  let D := 1 + X * X + Y * Y
  if p = 0 ∨ p = 1 ∨ p = 2 ∨ p = 3 then
    let ulon := ua
    let ulat := -X * Y * √(1 + X * X) / D * ua + (1 + Y * Y) * √(1 + X * X) / D * ub
    some (ulon * cos (latEq X Y), ulat)
  else if p = 4 then
    let R := √(X * X + Y * Y)
    let ulon := -Y * (1 + X * X) / (R * R) * ua + X * (1 + Y * Y) / (R * R) * ub
    let ulat := -X * (1 + X * X) / (D * R) * ua - Y * (1 + Y * Y) / (D * R) * ub
    some (ulon * cos (latNorth X Y), ulat)
  else if p = 5 then
    let R := √(X * X + Y * Y)
    let ulon := Y * (1 + X * X) / (R * R) * ua - X * (1 + Y * Y) / (R * R) * ub
    let ulat := X * (1 + X * X) / (D * R) * ua + Y * (1 + Y * Y) / (D * R) * ub
    some (ulon * cos (latSouth X Y), ulat)
  else none

open Classical in
/-- `CoVecTransABPFromRLL`, CubedSphereTrans.cpp:549-636. -/
noncomputable def coVecABPFromRLL (X Y : ℝ) (p : Int) (ulon ulat : ℝ) : Option (ℝ × ℝ) :=
  let D := 1 + X * X + Y * Y
  if atPole X Y p then some (if p = 4 then (ulon, ulat) else (-ulon, ulat))
  else if p = 0 ∨ p = 1 ∨ p = 2 ∨ p = 3 then
    let ulon := ulon / cos (latEq X Y)
    some ((1 + X * X) / D * ulon - X * Y * √(1 + X * X) / D * ulat, √(1 + X * X) * (1 + Y * Y) / D * ulat)
  else if p = 4 then
    let ulon := ulon / cos (latNorth X Y)
    let R := √(X * X + Y * Y)
    some (-Y * (1 + X * X) / D * ulon - X * (1 + X * X) / (D * R) * ulat,
      X * (1 + Y * Y) / D * ulon - Y * (1 + Y * Y) / (D * R) * ulat)
  else if p = 5 then
    let ulon := ulon / cos (latSouth X Y)
    let R := √(X * X + Y * Y)
    some (Y * (1 + X * X) / D * ulon + X * (1 + X * X) / (D * R) * ulat,
      -X * (1 + Y * Y) / D * ulon + Y * (1 + Y * Y) / (D * R) * ulat)
  else none

open Classical in
/-- `CoVecTransRLLFromABP`, CubedSphereTrans.cpp:640-729 (the south polar case uses the northern latitude). -/
noncomputable def coVecRLLFromABP (X Y : ℝ) (p : Int) (ua ub : ℝ) : Option (ℝ × ℝ) :=
  let D := 1 + X * X + Y * Y
  if atPole X Y p then some (if p = 4 then (ua, ub) else (-ua, ub))
  else if p = 0 ∨ p = 1 ∨ p = 2 ∨ p = 3 then
    let ulon := D / (1 + X * X) * ua + D * X * Y / (1 + X * X) / (1 + Y * Y) * ub
    let ulat := D / √(1 + X * X) / (1 + Y * Y) * ub
    some (ulon * cos (latEq X Y), ulat)
  else if p = 4 then
    let R2 := X * X + Y * Y
    let R := √R2
    let ulon := -D * Y / (1 + X * X) / R2 * ua + D * X / (1 + Y * Y) / R2 * ub
    let ulat := -D * X / (1 + X * X) / R * ua - D * Y / (1 + Y * Y) / R * ub
    some (ulon * cos (latNorth X Y), ulat)
  else if p = 5 then
    let R2 := X * X + Y * Y
    let R := √R2
    let ulon := D * Y / (1 + X * X) / R2 * ua - D * X / (1 + Y * Y) / R2 * ub
    let ulat := D * X / (1 + X * X) / R * ua + D * Y / (1 + Y * Y) / R * ub
    some (ulon * cos (latNorth X Y), ulat)
  else none

/-! ### Panel to panel transforms of vector and covector components -/

/-- `VecToP2FromP1`, CubedSphereTrans.h:1423-1432. -/
noncomputable def vecToP2FromP1 (a b X Y : ℝ) : ℝ × ℝ :=
  let b := Y * (1 + X * X) / (X * (1 + Y * Y)) * a - (X * X + Y * Y) / (X * (1 + Y * Y)) * b
  (a, b)

/-- `VecToP1FromP2`, CubedSphereTrans.h:1438-1447. -/
noncomputable def vecToP1FromP2 (a b X Y : ℝ) : ℝ × ℝ :=
  let b := Y * (1 + X * X) / (X * (1 + Y * Y)) * a + (X * X + Y * Y) / (X * (1 + Y * Y)) * b
  (a, b)

/-- `VecToP5FromP1`, CubedSphereTrans.h:1453-1462. -/
noncomputable def vecToP5FromP1 (a b X Y : ℝ) : ℝ × ℝ :=
  let a := -(X * X + Y * Y) / (Y * (X * X + 1)) * a + X * (1 + Y * Y) / (Y * (X * X + 1)) * b
  (a, b)

/-- `VecToP1FromP5`, CubedSphereTrans.h:1468-1477. -/
noncomputable def vecToP1FromP5 (a b X Y : ℝ) : ℝ × ℝ :=
  let a := (X * X + Y * Y) / (Y * (1 + X * X)) * a + X * (1 + Y * Y) / (Y * (1 + X * X)) * b
  (a, b)

/-- `VecToP5FromP2`, CubedSphereTrans.h:1483-1496. -/
noncomputable def vecToP5FromP2 (a b X Y : ℝ) : ℝ × ℝ :=
  let t := b
  let b := (X * X + Y * Y) / (X * (1 + Y * Y)) * a - (Y * (X * X + 1)) / (X * (1 + Y * Y)) * b
  let a := -t
  (a, b)

/-- `VecToP2FromP5`, CubedSphereTrans.h:1502-1515. -/
noncomputable def vecToP2FromP5 (a b X Y : ℝ) : ℝ × ℝ :=
  let t := a
  let a := -(X * (1 + Y * Y)) / (Y * (1 + X * X)) * a + (X * X + Y * Y) / (Y * (1 + X * X)) * b
  let b := -t
  (a, b)

/-- `VecToP5FromP3`, CubedSphereTrans.h:1521-1532. -/
noncomputable def vecToP5FromP3 (a b X Y : ℝ) : ℝ × ℝ :=
  let a := -(X * X + Y * Y) / (Y * (X * X + 1)) * a - X * (1 + Y * Y) / (Y * (X * X + 1)) * b
  let b := -b
  (a, b)

/-- `VecToP3FromP5`, CubedSphereTrans.h:1538-1549. -/
noncomputable def vecToP3FromP5 (a b X Y : ℝ) : ℝ × ℝ :=
  let a := -(X * X + Y * Y) / (Y * (X * X + 1)) * a - X * (Y * Y + 1) / (Y * (X * X + 1)) * b
  let b := -b
  (a, b)

/-- `VecToP5FromP4`, CubedSphereTrans.h:1555-1568. -/
noncomputable def vecToP5FromP4 (a b X Y : ℝ) : ℝ × ℝ :=
  let t := b
  let b := (X * X + Y * Y) / (X * (1 + Y * Y)) * a + Y * (X * X + 1) / (X * (1 + Y * Y)) * b
  let a := t
  (a, b)

/-- `VecToP4FromP5`, CubedSphereTrans.h:1574-1587. -/
noncomputable def vecToP4FromP5 (a b X Y : ℝ) : ℝ × ℝ :=
  let t := a
  let a := (X * (1 + Y * Y)) / (Y * (1 + X * X)) * a - (X * X + Y * Y) / (Y * (1 + X * X)) * b
  let b := t
  (a, b)

/-- `VecToP6FromP1`, CubedSphereTrans.h:1593-1602. -/
noncomputable def vecToP6FromP1 (a b X Y : ℝ) : ℝ × ℝ :=
  let a := (X * X + Y * Y) / (Y * (1 + X * X)) * a + X * (1 + Y * Y) / (Y * (1 + X * X)) * b
  (a, b)

/-- `VecToP1FromP6`, CubedSphereTrans.h:1608-1617. -/
noncomputable def vecToP1FromP6 (a b X Y : ℝ) : ℝ × ℝ :=
  let a := -(X * X + Y * Y) / (Y * (1 + X * X)) * a + X * (1 + Y * Y) / (Y * (1 + X * X)) * b
  (a, b)

/-- `VecToP6FromP2`, CubedSphereTrans.h:1623-1636. -/
noncomputable def vecToP6FromP2 (a b X Y : ℝ) : ℝ × ℝ :=
  let t := b
  let b := -(X * X + Y * Y) / (X * (1 + Y * Y)) * a + (Y * (1 + X * X)) / (X * (1 + Y * Y)) * b
  let a := t
  (a, b)

/-- `VecToP2FromP6`, CubedSphereTrans.h:1642-1655. -/
noncomputable def vecToP2FromP6 (a b X Y : ℝ) : ℝ × ℝ :=
  let t := a
  let a := (X * (1 + Y * Y)) / (Y * (1 + X * X)) * a + (X * X + Y * Y) / (Y * (1 + X * X)) * b
  let b := t
  (a, b)

/-- `VecToP6FromP3`, CubedSphereTrans.h:1661-1672. -/
noncomputable def vecToP6FromP3 (a b X Y : ℝ) : ℝ × ℝ :=
  let a := (X * X + Y * Y) / (Y * (1 + X * X)) * a - (X * (1 + Y * Y)) / (Y * (1 + X * X)) * b
  let b := -b
  (a, b)

/-- `VecToP3FromP6`, CubedSphereTrans.h:1678-1689. -/
noncomputable def vecToP3FromP6 (a b X Y : ℝ) : ℝ × ℝ :=
  let a := (X * X + Y * Y) / (Y * (X * X + 1)) * a - X * (Y * Y + 1) / (Y * (X * X + 1)) * b
  let b := -b
  (a, b)

/-- `VecToP6FromP4`, CubedSphereTrans.h:1695-1708. -/
noncomputable def vecToP6FromP4 (a b X Y : ℝ) : ℝ × ℝ :=
  let t := b
  let b := -(X * X + Y * Y) / (X * (1 + Y * Y)) * a - (Y * (1 + X * X)) / (X * (1 + Y * Y)) * b
  let a := -t
  (a, b)

/-- `VecToP4FromP6`, CubedSphereTrans.h:1714-1727. -/
noncomputable def vecToP4FromP6 (a b X Y : ℝ) : ℝ × ℝ :=
  let t := a
  let a := -(X * (1 + Y * Y)) / (Y * (1 + X * X)) * a - (Y * Y + X * X) / (Y * (1 + X * X)) * b
  let b := -t
  (a, b)

/-- `CoVecToP2FromP1`, CubedSphereTrans.h:1841-1859. -/
noncomputable def coVecToP2FromP1 (a b X Y : ℝ) : ℝ × ℝ :=
  let m := (X * X + Y * Y)
  let a := a + Y * (1 + X * X) / m * b
  let b := -X * (1 + Y * Y) / m * b
  (a, b)

/-- `CoVecToP1FromP2`, CubedSphereTrans.h:1865-1883. -/
noncomputable def coVecToP1FromP2 (a b X Y : ℝ) : ℝ × ℝ :=
  let m := (X * X + Y * Y)
  let a := a - Y * (1 + X * X) / m * b
  let b := X * (1 + Y * Y) / m * b
  (a, b)

/-- `CoVecToP5FromP1`, CubedSphereTrans.h:1889-1907. -/
noncomputable def coVecToP5FromP1 (a b X Y : ℝ) : ℝ × ℝ :=
  let m := (X * X + Y * Y)
  let b := X * (1 + Y * Y) / m * a + b
  let a := -Y * (1 + X * X) / m * a
  (a, b)

/-- `CoVecToP1FromP5`, CubedSphereTrans.h:1913-1931. -/
noncomputable def coVecToP1FromP5 (a b X Y : ℝ) : ℝ × ℝ :=
  let m := (X * X + Y * Y)
  let b := -X * (1 + Y * Y) / m * a + b
  let a := Y * (1 + X * X) / m * a
  (a, b)

/-- `CoVecToP5FromP2`, CubedSphereTrans.h:1937-1958. -/
noncomputable def coVecToP5FromP2 (a b X Y : ℝ) : ℝ × ℝ :=
  let m := (X * X + Y * Y)
  let t := a
  let a := -Y * (1 + X * X) / m * a - b
  let b := X * (1 + Y * Y) / m * t
  (a, b)

/-- `CoVecToP2FromP5`, CubedSphereTrans.h:1964-1985. -/
noncomputable def coVecToP2FromP5 (a b X Y : ℝ) : ℝ × ℝ :=
  let m := (X * X + Y * Y)
  let t := b
  let b := -a - X * (1 + Y * Y) / m * b
  let a := Y * (1 + X * X) / m * t
  (a, b)

/-- `CoVecToP5FromP3`, CubedSphereTrans.h:1991-2008. -/
noncomputable def coVecToP5FromP3 (a b X Y : ℝ) : ℝ × ℝ :=
  let m := (X * X + Y * Y)
  let b := X * (1 + Y * Y) / m * a - b
  let a := -Y * (1 + X * X) / m * a
  (a, b)

/-- `CoVecToP3FromP5`, CubedSphereTrans.h:2014-2031. -/
noncomputable def coVecToP3FromP5 (a b X Y : ℝ) : ℝ × ℝ :=
  let m := (X * X + Y * Y)
  let b := X * (1 + Y * Y) / m * a - b
  let a := -Y * (1 + X * X) / m * a
  (a, b)

/-- `CoVecToP5FromP4`, CubedSphereTrans.h:2037-2056. -/
noncomputable def coVecToP5FromP4 (a b X Y : ℝ) : ℝ × ℝ :=
  let m := (X * X + Y * Y)
  let t := a
  let a := -Y * (1 + X * X) / m * a + b
  let b := X * (1 + Y * Y) / m * t
  (a, b)

/-- `CoVecToP4FromP5`, CubedSphereTrans.h:2062-2082. -/
noncomputable def coVecToP4FromP5 (a b X Y : ℝ) : ℝ × ℝ :=
  let m := (X * X + Y * Y)
  let t := b
  let b := a + X * (1 + Y * Y) / m * b
  let a := -Y * (1 + X * X) / m * t
  (a, b)

/-- `CoVecToP6FromP1`, CubedSphereTrans.h:2088-2103. -/
noncomputable def coVecToP6FromP1 (a b X Y : ℝ) : ℝ × ℝ :=
  let m := (X * X + Y * Y)
  let b := -X * (1 + Y * Y) / m * a + b
  let a := Y * (1 + X * X) / m * a
  (a, b)

/-- `CoVecToP1FromP6`, CubedSphereTrans.h:2109-2124. -/
noncomputable def coVecToP1FromP6 (a b X Y : ℝ) : ℝ × ℝ :=
  let m := (X * X + Y * Y)
  let b := X * (1 + Y * Y) / m * a + b
  let a := -Y * (1 + X * X) / m * a
  (a, b)

/-- `CoVecToP6FromP2`, CubedSphereTrans.h:2130-2149. -/
noncomputable def coVecToP6FromP2 (a b X Y : ℝ) : ℝ × ℝ :=
  let m := (X * X + Y * Y)
  let t := a
  let a := Y * (1 + X * X) / m * a + b
  let b := -X * (1 + Y * Y) / m * t
  (a, b)

/-- `CoVecToP2FromP6`, CubedSphereTrans.h:2155-2174. -/
noncomputable def coVecToP2FromP6 (a b X Y : ℝ) : ℝ × ℝ :=
  let m := (X * X + Y * Y)
  let t := b
  let b := a - X * (1 + Y * Y) / m * b
  let a := Y * (1 + X * X) / m * t
  (a, b)

/-- `CoVecToP6FromP3`, CubedSphereTrans.h:2180-2197. -/
noncomputable def coVecToP6FromP3 (a b X Y : ℝ) : ℝ × ℝ :=
  let m := (X * X + Y * Y)
  let b := -X * (1 + Y * Y) / m * a - b
  let a := Y * (1 + X * X) / m * a
  (a, b)

/-- `CoVecToP3FromP6`, CubedSphereTrans.h:2203-2220. -/
noncomputable def coVecToP3FromP6 (a b X Y : ℝ) : ℝ × ℝ :=
  let m := (X * X + Y * Y)
  let b := -X * (1 + Y * Y) / m * a - b
  let a := Y * (1 + X * X) / m * a
  (a, b)

/-- `CoVecToP6FromP4`, CubedSphereTrans.h:2226-2245. -/
noncomputable def coVecToP6FromP4 (a b X Y : ℝ) : ℝ × ℝ :=
  let m := (X * X + Y * Y)
  let t := a
  let a := Y * (1 + X * X) / m * a - b
  let b := -X * (1 + Y * Y) / m * t
  (a, b)

/-- `CoVecToP4FromP6`, CubedSphereTrans.h:2251-2270. -/
noncomputable def coVecToP4FromP6 (a b X Y : ℝ) : ℝ × ℝ :=
  let m := (X * X + Y * Y)
  let t := b
  let b := -a + X * (1 + Y * Y) / m * b
  let a := -Y * (1 + X * X) / m * t
  (a, b)


/-- `VecPanelTrans`, CubedSphereTrans.h:1333-1405.  `%` is C's remainder. -/
noncomputable def vecPanelTrans (src dst : Int) (a b X Y : ℝ) : Option (ℝ × ℝ) :=
  if dst < 4 ∧ src < 4 then
    if (dst + 7 - src).tmod 4 = 0 then some (vecToP2FromP1 a b X Y)
    else if (dst + 5 - src).tmod 4 = 0 then some (vecToP1FromP2 a b X Y)
    else none
  else if src = 4 then
    if dst = 0 then some (vecToP1FromP5 a b X Y)
    else if dst = 1 then some (vecToP2FromP5 a b X Y)
    else if dst = 2 then some (vecToP3FromP5 a b X Y)
    else if dst = 3 then some (vecToP4FromP5 a b X Y)
    else none
  else if dst = 4 then
    if src = 0 then some (vecToP5FromP1 a b X Y)
    else if src = 1 then some (vecToP5FromP2 a b X Y)
    else if src = 2 then some (vecToP5FromP3 a b X Y)
    else if src = 3 then some (vecToP5FromP4 a b X Y)
    else none
  else if src = 5 then
    if dst = 0 then some (vecToP1FromP6 a b X Y)
    else if dst = 1 then some (vecToP2FromP6 a b X Y)
    else if dst = 2 then some (vecToP3FromP6 a b X Y)
    else if dst = 3 then some (vecToP4FromP6 a b X Y)
    else none
  else if dst = 5 then
    if src = 0 then some (vecToP6FromP1 a b X Y)
    else if src = 1 then some (vecToP6FromP2 a b X Y)
    else if src = 2 then some (vecToP6FromP3 a b X Y)
    else if src = 3 then some (vecToP6FromP4 a b X Y)
    else none
  else none

/-- `CoVecPanelTrans`, CubedSphereTrans.h:1751-1823.  `%` is C's remainder. -/
noncomputable def coVecPanelTrans (src dst : Int) (a b X Y : ℝ) : Option (ℝ × ℝ) :=
  if dst < 4 ∧ src < 4 then
    if (dst + 7 - src).tmod 4 = 0 then some (coVecToP2FromP1 a b X Y)
    else if (dst + 5 - src).tmod 4 = 0 then some (coVecToP1FromP2 a b X Y)
    else none
  else if src = 4 then
    if dst = 0 then some (coVecToP1FromP5 a b X Y)
    else if dst = 1 then some (coVecToP2FromP5 a b X Y)
    else if dst = 2 then some (coVecToP3FromP5 a b X Y)
    else if dst = 3 then some (coVecToP4FromP5 a b X Y)
    else none
  else if dst = 4 then
    if src = 0 then some (coVecToP5FromP1 a b X Y)
    else if src = 1 then some (coVecToP5FromP2 a b X Y)
    else if src = 2 then some (coVecToP5FromP3 a b X Y)
    else if src = 3 then some (coVecToP5FromP4 a b X Y)
    else none
  else if src = 5 then
    if dst = 0 then some (coVecToP1FromP6 a b X Y)
    else if dst = 1 then some (coVecToP2FromP6 a b X Y)
    else if dst = 2 then some (coVecToP3FromP6 a b X Y)
    else if dst = 3 then some (coVecToP4FromP6 a b X Y)
    else none
  else if dst = 5 then
    if src = 0 then some (coVecToP6FromP1 a b X Y)
    else if src = 1 then some (coVecToP6FromP2 a b X Y)
    else if src = 2 then some (coVecToP6FromP3 a b X Y)
    else if src = 3 then some (coVecToP6FromP4 a b X Y)
    else none
  else none

end Verif.Sphere
