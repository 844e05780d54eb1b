import Verif.Physics.Simple
import Verif.Sphere.Model
import Verif.Thermo.Constants

/-!
# The process that calls the simple physics

Models `DCMIPPhysics::Perform` (test/dcmip2016/DCMIPPhysics.cpp:154-408) for one patch with user data and potential
temperature on levels, with the formulation the program is shipped with.

Simplifications: real numbers; the work arrays are functions of the level; `none` stands for an exception and for `stop`.
-/

namespace Verif.Physics

open Real Thermo

/-- What the process reads and does not change: number of levels, interior of the patch, heights of levels and
interfaces, latitude, tangents of the coordinates of the nodes, panel, physical constants, time step and the choices. -/
structure Moist where
  levels : Nat
  aBegin : Nat
  aEnd : Nat
  bBegin : Nat
  bEnd : Nat
  height : Nat → Nat → Nat → ℝ
  iface : Nat → Nat → Nat → ℝ
  lat : Nat → Nat → ℝ
  X : Nat → ℝ
  Y : Nat → ℝ
  panel : Int
  phys : Constants
  dt : ℝ
  test : Int
  pblType : Int
  precType : Int

/-- `m_dU` and `m_dV`, test/dcmip2016/DCMIPPhysics.cpp:252-266. -/
noncomputable def Moist.eastward (P : Moist) (s : Fields) (i j k : Nat) : Option (ℝ × ℝ) :=
  Sphere.coVecRLLFromABP (P.X i) (P.Y j) P.panel (s.state 0 i j k / P.phys.earthRadius)
    (s.state 1 i j k / P.phys.earthRadius)

/-- The column without what the subroutine changes, test/dcmip2016/DCMIPPhysics.cpp:237,268-275,303-313. -/
noncomputable def Moist.setting (P : Moist) (s : Fields) (i j : Nat) : Setting :=
  { test := P.test
    nz := P.levels
    rho := fun k => s.state 4 i j k - s.tracer 0 i j k - s.tracer 1 i j k - s.tracer 2 i j k
    dt := P.dt
    z := fun k => P.height i j k
    zi := fun k => P.iface i j k
    lat := P.lat i j
    pblType := P.pblType
    precType := P.precType }

/-- What the subroutine changes, test/dcmip2016/DCMIPPhysics.cpp:240-300. -/
noncomputable def Moist.column (P : Moist) (s : Fields) (i j : Nat) : Column :=
  { u := fun k => ((P.eastward s i j k).getD (0, 0)).1
    v := fun k => ((P.eastward s i j k).getD (0, 0)).2
    p := fun k => pressureFromRhoTheta P.phys (s.state 4 i j k * thetaV s i j k)
    qv := fun k => ratio (s.tracer 0 i j k) (s.state 4 i j k)
    qc := fun k => ratio (s.tracer 1 i j k) (s.state 4 i j k)
    qr := fun k => ratio (s.tracer 2 i j k) (s.state 4 i j k) }

/-- The covariant components from the wind, test/dcmip2016/DCMIPPhysics.cpp:389-400. -/
noncomputable def Moist.along (P : Moist) (i j : Nat) (u v : ℝ) : Option (ℝ × ℝ) :=
  (Sphere.coVecABPFromRLL (P.X i) (P.Y j) P.panel u v).map fun w => (w.1 * P.phys.earthRadius, w.2 * P.phys.earthRadius)

open Classical in
/-- One column, test/dcmip2016/DCMIPPhysics.cpp:237-401.  The loops over levels write each entry of the column once. -/
noncomputable def moistColumn (P : Moist) (s : Fields) (i j : Nat) : Option Fields :=
  if ∃ k < P.levels, P.eastward s i j k = none then none
  else
    match simplePhysics (P.setting s i j) (P.column s i j) with
    | none => none
    | some (c, precl) =>
      if ∃ k < P.levels, P.along i j (c.u k) (c.v k) = none then none
      else
        let rho := fun k => moist ((P.setting s i j).rho k) (c.qv k) (c.qc k) (c.qr k)
        let tv := fun k => c.p k / (rho k * P.phys.r)
        let w := fun k => (P.along i j (c.u k) (c.v k)).getD (0, 0)
        some
          { state := fun n x y k => if x = i ∧ y = j ∧ k < P.levels then
              (if n = 4 then rho k else if n = 2 then tv k * (P.phys.p0 / c.p k) ^ P.phys.kappa * rho k
                else if n = 0 then (w k).1 else if n = 1 then (w k).2 else s.state n x y k)
              else s.state n x y k
            tracer := fun n x y k => if x = i ∧ y = j ∧ k < P.levels then
              (if n = 0 then c.qv k * rho k else if n = 1 then c.qc k * rho k else if n = 2 then c.qr k * rho k
                else s.tracer n x y k) else s.tracer n x y k
            fallen := fun x y => if x = i ∧ y = j then s.fallen x y + precl * P.dt else s.fallen x y }

/-- The columns of the interior in the order of the loops, test/dcmip2016/DCMIPPhysics.cpp:216-217. -/
def Moist.columns (P : Moist) : List (Nat × Nat) :=
  ((List.range (P.aEnd - P.aBegin)).map (P.aBegin + ·)).flatMap fun i =>
    ((List.range (P.bEnd - P.bBegin)).map (P.bBegin + ·)).map fun j => (i, j)

/-- `DCMIPPhysics::Perform` for one patch, test/dcmip2016/DCMIPPhysics.cpp:154-408. -/
noncomputable def moistPerform (P : Moist) (s : Fields) : Option Fields :=
  P.columns.foldlM (fun s t => moistColumn P s t.1 t.2) s

end Verif.Physics
