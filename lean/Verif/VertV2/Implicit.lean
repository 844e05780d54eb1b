/-
Model of the implicit step of one column of method `v2` (src/atm/VerticalDynamicsFEMV2.cpp, `StepImplicit`).

Simplifications: as in `Column.lean` and `Vdyn/Implicit.lean`, whose band solver and `writeSoln` are used; `StepImplicit` (1342-1658) and
the width of the band (166-206) are word for word those of VerticalDynamicsFEM.cpp but for the functions called.  Density times potential
temperature is on levels and vertical velocity on interfaces; for other staggerings another Jacobian is built (3380-3971), which is not
modelled.
-/
import Verif.VertV2.Column
import Verif.Vdyn.Implicit

namespace Verif.ColumnV2

open Verif.Column Verif.Vdyn

/-- `m_dSoln` of a column, VerticalDynamicsFEMV2.cpp:1449-1597: `none` is an exception. -/
noncomputable def newtonStep (solve : BandSolver) (S : Setup) (G : Metric) (D : Data) (M : Memory) : Option (Nat → ℝ) :=
  let M := setupColumn S D M
  match offDiagonals S with
  | some d =>
    (dgbsv solve (3 * (S.levels + 1)) (3 * d + 1) d (store d (jacobianUpdates S G M M.state)) (residual S G M M.state)).map
      fun s i => M.state i - s i
  | none => none

/-- The update of the dynamics of one column, VerticalDynamicsFEMV2.cpp:1449-1657: `D` is the initial data, `U` the column of the data to
update. -/
noncomputable def implicitColumn (solve : BandSolver) (S : Setup) (G : Metric) (D : Data) (M : Memory) (U : Vdyn.State) :
    Option Vdyn.State :=
  (newtonStep solve S G D M).map fun s => writeSoln S s U

end Verif.ColumnV2
