import Mathlib.Analysis.SpecialFunctions.Pow.Real

/-!
# Physical constants

Models `PhysicalConstants` (src/atm/PhysicalConstants.h).  Simplification: `double` is the real numbers; `log` is
applied to positive numbers only in the properties (in the code it gives NaN or infinity otherwise).
-/

namespace Verif.Thermo

/-- The quantities that can be set, src/atm/PhysicalConstants.h:35-95. -/
inductive Quantity where
  | earthRadius
  | g
  | omega
  | alpha
  | r
  | cp
  | t0
  | p0
  | rhoWater
  | rvap
  | mvap
  | lvap
deriving DecidableEq

/-- The members, src/atm/PhysicalConstants.h:35-113; the last three are derived. -/
structure Constants where
  earthRadius : ℝ
  g : ℝ
  omega : ℝ
  alpha : ℝ
  r : ℝ
  cp : ℝ
  t0 : ℝ
  p0 : ℝ
  rhoWater : ℝ
  rvap : ℝ
  mvap : ℝ
  lvap : ℝ
  kappa : ℝ
  gamma : ℝ
  scaling : ℝ

/-- `RecalculateKappa`, src/atm/PhysicalConstants.h:360-362. -/
noncomputable def recalculateKappa (c : Constants) : Constants := { c with kappa := c.r / c.cp }

/-- `RecalculateGamma`, src/atm/PhysicalConstants.h:367-369. -/
noncomputable def recalculateGamma (c : Constants) : Constants := { c with gamma := c.cp / (c.cp - c.r) }

/-- `RecalculatePressureScaling`, src/atm/PhysicalConstants.h:374-376. -/
noncomputable def recalculateScaling (c : Constants) : Constants :=
  { c with scaling := c.p0 * (c.r / c.p0) ^ c.gamma }

/-- The constructor, src/atm/PhysicalConstants.h:120-137. -/
noncomputable def initial : Constants :=
  recalculateScaling (recalculateGamma (recalculateKappa
    { earthRadius := 6371220, g := 9.80616, omega := 0.0000729212, alpha := 0, r := 287, cp := 1004.5, t0 := 300,
      p0 := 100000, rhoWater := 1000, rvap := 461.5, mvap := 0.608, lvap := 2500000, kappa := 0, gamma := 0,
      scaling := 0 }))

/-- The setters, src/atm/PhysicalConstants.h:261-354. -/
noncomputable def set (q : Quantity) (x : ℝ) (c : Constants) : Constants :=
  match q with
  | .earthRadius => { c with earthRadius := x }
  | .g => { c with g := x }
  | .omega => { c with omega := x }
  | .alpha => { c with alpha := x }
  | .r => recalculateScaling (recalculateGamma (recalculateKappa { c with r := x }))
  | .cp => recalculateScaling (recalculateGamma (recalculateKappa { c with cp := x }))
  | .t0 => { c with t0 := x }
  | .p0 => recalculateScaling { c with p0 := x }
  | .rhoWater => { c with rhoWater := x }
  | .rvap => { c with rvap := x }
  | .mvap => { c with mvap := x }
  | .lvap => { c with lvap := x }

/-- The getters, src/atm/PhysicalConstants.h:143-232. -/
def get (q : Quantity) (c : Constants) : ℝ :=
  match q with
  | .earthRadius => c.earthRadius
  | .g => c.g
  | .omega => c.omega
  | .alpha => c.alpha
  | .r => c.r
  | .cp => c.cp
  | .t0 => c.t0
  | .p0 => c.p0
  | .rhoWater => c.rhoWater
  | .rvap => c.rvap
  | .mvap => c.mvap
  | .lvap => c.lvap

/-- `GetCv`, src/atm/PhysicalConstants.h:187-189. -/
noncomputable def getCv (c : Constants) : ℝ := c.cp - c.r

/-- The object after a history of calls of setters. -/
noncomputable def after (calls : List (Quantity × ℝ)) : Constants :=
  calls.foldl (fun c s => set s.1 s.2 c) initial

/-- `PressureFromRhoTheta`, src/atm/PhysicalConstants.h:382-384. -/
noncomputable def pressureFromRhoTheta (c : Constants) (x : ℝ) : ℝ := c.scaling * Real.exp (Real.log x * c.gamma)

/-- `RhoThetaFromPressure`, src/atm/PhysicalConstants.h:389-391. -/
noncomputable def rhoThetaFromPressure (c : Constants) (p : ℝ) : ℝ := Real.exp (Real.log (p / c.scaling) / c.gamma)

/-- `ExnerPressureFromRhoTheta`, src/atm/PhysicalConstants.h:397-399. -/
noncomputable def exnerFromRhoTheta (c : Constants) (x : ℝ) : ℝ :=
  c.cp * Real.exp (c.r / (c.cp - c.r) * Real.log (c.r / c.p0 * x))

/-- `RhoThetaFromExnerPressure`, src/atm/PhysicalConstants.h:405-407. -/
noncomputable def rhoThetaFromExner (c : Constants) (e : ℝ) : ℝ :=
  c.p0 / c.r * Real.exp ((c.cp - c.r) / c.r * Real.log (e / c.cp))

/-- `ExnerPressureFromPressure`, src/atm/PhysicalConstants.h:413-415. -/
noncomputable def exnerFromPressure (c : Constants) (p : ℝ) : ℝ :=
  c.cp * Real.exp (c.r / c.cp * Real.log (p / c.p0))

/-- `PressureFromExnerPressure`, src/atm/PhysicalConstants.h:420-422. -/
noncomputable def pressureFromExner (c : Constants) (e : ℝ) : ℝ :=
  c.p0 * Real.exp (c.cp / c.r * Real.log (e / c.cp))

end Verif.Thermo
