/-
Specification vocabulary for the cubed sphere: the six faces of the cube, central projection of a face onto the
unit sphere, tangent vectors, and longitude-latitude coordinates.
-/
import Mathlib.Analysis.SpecialFunctions.Trigonometric.Arctan

namespace Verif.Sphere

open Real

/-- Vectors of three-dimensional space. -/
abbrev Vec3 : Type := ℝ × ℝ × ℝ

/-- Inner product. -/
def dot (u v : Vec3) : ℝ := u.1 * v.1 + u.2.1 * v.2.1 + u.2.2 * v.2.2

/-- The six panels. -/
def IsPanel (p : Int) : Prop := p = 0 ∨ p = 1 ∨ p = 2 ∨ p = 3 ∨ p = 4 ∨ p = 5

/-- Centre of a face of the cube. -/
def centre (p : Int) : Vec3 :=
  if p = 0 then (1, 0, 0) else if p = 1 then (0, 1, 0) else if p = 2 then (-1, 0, 0)
  else if p = 3 then (0, -1, 0) else if p = 4 then (0, 0, 1) else (0, 0, -1)

/-- First (eastward, on the equatorial faces) axis of a face. -/
def axisA (p : Int) : Vec3 :=
  if p = 0 then (0, 1, 0) else if p = 1 then (-1, 0, 0) else if p = 2 then (0, -1, 0)
  else if p = 3 then (1, 0, 0) else (0, 1, 0)

/-- Second (northward, on the equatorial faces) axis of a face. -/
def axisB (p : Int) : Vec3 :=
  if p = 0 ∨ p = 1 ∨ p = 2 ∨ p = 3 then (0, 0, 1) else if p = 4 then (-1, 0, 0) else (1, 0, 0)

/-- Central projection onto the unit sphere of the point with coordinates `(X, Y)` on face `p` of the cube. -/
noncomputable def image (p : Int) (X Y : ℝ) : Vec3 :=
  (1 / √(1 + X * X + Y * Y)) • (centre p + X • axisA p + Y • axisB p)

/-- Derivative of the point of the sphere by the equiangular coordinate alpha = arctan X; see `C34_tangent`. -/
noncomputable def tangentA (p : Int) (X Y : ℝ) : Vec3 :=
  ((1 + X * X) * (1 / √(1 + X * X + Y * Y)) ^ 3) •
    ((1 + Y * Y) • axisA p + (-(X * Y)) • axisB p + (-X) • centre p)

/-- Derivative of the point of the sphere by the equiangular coordinate beta = arctan Y; see `C34_tangent`. -/
noncomputable def tangentB (p : Int) (X Y : ℝ) : Vec3 :=
  ((1 + Y * Y) * (1 / √(1 + X * X + Y * Y)) ^ 3) •
    ((-(X * Y)) • axisA p + (1 + X * X) • axisB p + (-Y) • centre p)

/-- The physical vector with panel components `(a, b)` at `(X, Y)` of panel `p`. -/
noncomputable def physical (p : Int) (X Y a b : ℝ) : Vec3 := a • tangentA p X Y + b • tangentB p X Y

/-- The point of the unit sphere at a longitude and latitude. -/
noncomputable def lonlat (lon lat : ℝ) : Vec3 := (cos lon * cos lat, sin lon * cos lat, sin lat)

/-- Unit vector to the east. -/
noncomputable def east (lon : ℝ) : Vec3 := (-sin lon, cos lon, 0)

/-- Unit vector to the north. -/
noncomputable def north (lon lat : ℝ) : Vec3 := (-(cos lon * sin lat), -(sin lon * sin lat), cos lat)

/-- The physical vector with components `ulon` to the east and `ulat` to the north. -/
noncomputable def wind (lon lat ulon ulat : ℝ) : Vec3 := ulon • east lon + ulat • north lon lat

/-- Two panels sharing an edge. -/
def Adjacent (p q : Int) : Prop :=
  IsPanel p ∧ IsPanel q ∧ p ≠ q ∧ dot (centre p) (centre q) = 0

end Verif.Sphere
