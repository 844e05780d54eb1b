import Mathlib.Analysis.SpecialFunctions.Trigonometric.Basic
import Mathlib.Analysis.SpecialFunctions.Trigonometric.Deriv
import Mathlib.Analysis.SpecialFunctions.Sqrt
import Mathlib.Analysis.SpecialFunctions.ExpDeriv

/-!
# The toy chemistry of chlorine

Models test/dcmip2016/interface/Terminator.f90 and `TerminatorPhysics::Perform` (test/dcmip2016/TerminatorPhysics.cpp).

Simplifications: `double` and `real(8)` are the real numbers, and the constant of Terminator.f90:16 and `M_PI` are the
number they stand for.  Quotients by zero and square roots of negative numbers are zero (the code gives an infinity or
NaN); the properties exclude them.
-/

namespace Verif.Physics

open Real

/-- How a process may fail: by an exception, or by reading or writing outside of an array. -/
inductive Fault where
  | exception
  | outside

/-- `k1_lat_center` and `k1_lon_center`, test/dcmip2016/interface/Terminator.f90:19-20. -/
noncomputable def latCenter : ℝ := 20 * (Real.pi / 180)
/-- See `latCenter`. -/
noncomputable def lonCenter : ℝ := 300 * (Real.pi / 180)

/-- `k1` of `k_vals`, test/dcmip2016/interface/Terminator.f90:28-42. -/
noncomputable def photolysis (lat lon : ℝ) : ℝ :=
  1 * max 0 (sin lat * sin latCenter + cos lat * cos latCenter * cos (lon - lonCenter))

/-- `k2` of `k_vals`, test/dcmip2016/interface/Terminator.f90:38. -/
noncomputable def recombination : ℝ := 1

/-- `el` of `tendency_Terminator`, test/dcmip2016/interface/Terminator.f90:75-79. -/
noncomputable def el (det k2 dt : ℝ) : ℝ :=
  if |det * k2 * dt| > 1e-16 then (1 - exp (-4 * k2 * det * dt)) / det / dt else 4 * k2

/-- The arithmetic of `tendency_Terminator` after the rates are known, test/dcmip2016/interface/Terminator.f90:69-82:
the tendencies of chlorine and of its molecules. -/
noncomputable def tendencyOf (k1 k2 cl cl2 dt : ℝ) : ℝ × ℝ :=
  let r := k1 / (4 * k2)
  let cly := cl + 2 * cl2
  let det := sqrt (r * r + 2 * r * cly)
  let expdt := exp (-4 * k2 * det * dt)
  let f := -el det k2 dt * (cl - det + r) * (cl + det + r) / (1 + expdt + dt * el det k2 dt * (cl + r))
  (f, -f / 2)

/-- `tendency_Terminator`, test/dcmip2016/interface/Terminator.f90:48-86.  Latitude and longitude in degrees. -/
noncomputable def tendency (lat lon cl cl2 dt : ℝ) : ℝ × ℝ :=
  tendencyOf (photolysis (lat * (Real.pi / 180)) (lon * (Real.pi / 180))) recombination cl cl2 dt

/-- `cly_constant`, test/dcmip2016/interface/Terminator.f90:15. -/
noncomputable def clyConstant : ℝ := 4e-6

/-- `initial_value_Terminator`, test/dcmip2016/interface/Terminator.f90:92-119. -/
noncomputable def initialValue (lat lon : ℝ) : ℝ × ℝ :=
  let r := photolysis (lat * (Real.pi / 180)) (lon * (Real.pi / 180)) / (4 * recombination)
  let det := sqrt (r * r + 2 * clyConstant * r)
  (det - r, clyConstant / 2 - (det - r) / 2)

/-- What happens to the two tracers of one point, test/dcmip2016/TerminatorPhysics.cpp:110-133.  Latitude and longitude
in radians. -/
noncomputable def react (lat lon rho dt : ℝ) (cl cl2 : ℝ) : ℝ × ℝ :=
  let f := tendency (lat * 180 / Real.pi) (lon * 180 / Real.pi) (cl / rho) (cl2 / rho) dt
  (cl + dt * rho * f.1, cl2 + dt * rho * f.2)

/-- What is needed of a patch: total widths, number of levels and of tracers, the interior of its box, latitude and
longitude of its columns and the array of the state. -/
structure Site where
  na : Nat
  nb : Nat
  levels : Nat
  tracers : Nat
  aBegin : Nat
  aEnd : Nat
  bBegin : Nat
  bEnd : Nat
  lat : Nat → Nat → ℝ
  lon : Nat → Nat → ℝ
  state : Nat → ℝ

/-- Where `array[c][x][y][z]` is in the memory of an array of the patch, src/base/DataArray4D.h:507-527; the sizes are
those of src/atm/GridPatch.cpp:344-348,379-383. -/
def Site.place (P : Site) (c x y z : Nat) : Nat := ((c * P.na + x) * P.nb + y) * P.levels + z

/-- One pass of the loops, test/dcmip2016/TerminatorPhysics.cpp:110-133, for the given values of `k`, `i` and `j`; the
subscripts are in the order of the code. -/
noncomputable def reactAt (P : Site) (dt : ℝ) (k i j : Nat) (m : Nat → ℝ) : Except Fault (Nat → ℝ) :=
  if P.place 4 k i j < 5 * P.na * P.nb * P.levels ∧ P.place 3 k i j < P.tracers * P.na * P.nb * P.levels ∧
      P.place 4 k i j < P.tracers * P.na * P.nb * P.levels ∧ i < P.na ∧ j < P.nb then
    let y := react (P.lat i j) (P.lon i j) (P.state (P.place 4 k i j)) dt (m (P.place 3 k i j)) (m (P.place 4 k i j))
    let m1 := fun a => if a = P.place 3 k i j then y.1 else m a
    .ok (fun a => if a = P.place 4 k i j then y.2 else m1 a)
  else .error .outside

/-- The values of a loop variable that runs from `b` to below `e`. -/
def upTo (b e : Nat) : List Nat := (List.range (e - b)).map (b + ·)

/-- The values of the three loop variables of `TerminatorPhysics::Perform`, test/dcmip2016/TerminatorPhysics.cpp:106-108,
in their order. -/
def Site.loops (P : Site) : List (Nat × Nat × Nat) :=
  (upTo 0 P.levels).flatMap fun k => (upTo P.aBegin P.aEnd).flatMap fun i => (upTo P.bBegin P.bEnd).map fun j => (k, i, j)

/-- `TerminatorPhysics::Perform` for one patch, test/dcmip2016/TerminatorPhysics.cpp:85-137.  The memory is that of the
array of tracers. -/
noncomputable def perform (P : Site) (dt : ℝ) (m : Nat → ℝ) : Except Fault (Nat → ℝ) :=
  if P.tracers ≤ 4 then .error .exception
  else P.loops.foldlM (fun m t => reactAt P dt t.1 t.2.1 t.2.2 m) m

end Verif.Physics
