import Mathlib.Analysis.SpecialFunctions.Trigonometric.Inverse

/-!
# Angles and areas of gnomonic grids
-/

namespace Verif.Metric

open Real

/-- `CubedSphereTrans::GnomonicGridAngle`, src/atm/CubedSphereTrans.h:275-280. -/
noncomputable def gridAngle (X Y : ℝ) : ℝ :=
  arccos (-X * Y / (√(1 + X * X) * √(1 + Y * Y)))

/-- `CubedSphereTrans::GnomonicElementArea`, src/atm/CubedSphereTrans.h:293-305. -/
noncomputable def elementArea (X dX Y dY R : ℝ) : ℝ :=
  R * R * (gridAngle X Y - gridAngle (X + dX) Y - gridAngle X (Y + dY) + gridAngle (X + dX) (Y + dY))

end Verif.Metric
