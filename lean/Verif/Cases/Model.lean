import Mathlib.Analysis.SpecialFunctions.Trigonometric.Basic
import Mathlib.Analysis.SpecialFunctions.Sqrt
import Verif.Thermo.Constants

/-!
# The states of the nonhydrostatic test cases

Models `EvaluateReferenceState` and `EvaluatePointwiseState` of the classes in test/nonhydro_xz and
test/nonhydro_sphere.  Simplifications: `double` is the real numbers; `pow` is the real power, which the properties
apply to positive bases only (the code gives NaN for other bases and fractional exponents); a quotient by zero is zero
(the code gives an infinity or NaN), and the properties exclude it; what the functions of the test cases do not set is
not mentioned (`BaroclinicWaveJWTest` leaves the entries 1 and 3 as the caller had them).
-/

namespace Verif.Cases

open Verif.Thermo Real

/-- The five entries of `dState` of the nonhydrostatic equations, src/atm/EquationSet.cpp: velocities, potential
temperature, vertical velocity and density. -/
structure Air where
  u : ℝ
  v : ℝ
  theta : ℝ
  w : ℝ
  rho : ℝ

/-! ### Bubbles and the density current -/

/-- The Exner pressure of air of constant potential temperature,
test/nonhydro_xz/ThermalBubbleCartesianTest.cpp:211-212. -/
noncomputable def neutralExner (c : Constants) (thetaBar z : ℝ) : ℝ := -c.g / (c.cp * thetaBar) * z + 1

/-- `EvaluateReferenceState` of the bubbles and of the density current,
test/nonhydro_xz/ThermalBubbleCartesianTest.cpp:190-218; the text is the same in RobertBubbleCartesianTest.cpp:185-213,
DensityCurrentCartesianTest.cpp:239-267 and ThermalBubbleCartesian3DTest.cpp:199-227. -/
noncomputable def neutral (c : Constants) (thetaBar z : ℝ) : Air :=
  { u := 0
    v := 0
    w := 0
    theta := thetaBar
    rho := c.p0 / (c.r * thetaBar) * neutralExner c thetaBar z ^ (getCv c / c.r) }

/-- The parameters of a bubble: amplitude, centre, radius and the number used for pi (a command line option whose
default is 3.14159265), test/nonhydro_xz/ThermalBubbleCartesian3DTest.cpp:83-111. -/
structure Bubble where
  thetaBar : ℝ
  thetaC : ℝ
  rC : ℝ
  xC : ℝ
  yC : ℝ
  zC : ℝ
  piC : ℝ

/-- The profile of a bubble over the distance from its centre,
test/nonhydro_xz/ThermalBubbleCartesianTest.cpp:177-184. -/
noncomputable def bubbleProfile (b : Bubble) (rp : ℝ) : ℝ :=
  if rp ≤ b.rC then 0.5 * b.thetaC * (1 + cos (b.piC * rp / b.rC)) else if rp > b.rC then 0 else 1

/-- `EvaluateTPrime`, test/nonhydro_xz/ThermalBubbleCartesianTest.cpp:166-185 and RobertBubbleCartesianTest.cpp:161-180. -/
noncomputable def bubbleTPrime (b : Bubble) (x z : ℝ) : ℝ :=
  bubbleProfile b (sqrt ((x - b.xC) * (x - b.xC) + (z - b.zC) * (z - b.zC)))

/-- `EvaluateTPrime` in three dimensions, test/nonhydro_xz/ThermalBubbleCartesian3DTest.cpp:173-194. -/
noncomputable def bubble3TPrime (b : Bubble) (x y z : ℝ) : ℝ :=
  bubbleProfile b (sqrt ((x - b.xC) * (x - b.xC) + (y - b.yC) * (y - b.yC) + (z - b.zC) * (z - b.zC)))

/-- `EvaluateTPrime` of the density current, test/nonhydro_xz/DensityCurrentCartesianTest.cpp:214-234. -/
noncomputable def currentTPrime (b : Bubble) (x z exner : ℝ) : ℝ :=
  let rp := sqrt ((x - b.xC) * (x - b.xC) / (4000 * 4000) + (z - b.zC) * (z - b.zC) / (2000 * 2000))
  if rp ≤ b.rC then 0.5 * b.thetaC * (1 + cos (b.piC * rp)) / exner else if rp > b.rC then 0 else 1

/-- `EvaluatePointwiseState` of the bubbles in a slice, test/nonhydro_xz/ThermalBubbleCartesianTest.cpp:223-253 and
RobertBubbleCartesianTest.cpp:218-248. -/
noncomputable def bubble (c : Constants) (b : Bubble) (z x : ℝ) : Air :=
  { u := 0
    v := 0
    w := 0
    theta := b.thetaBar + bubbleTPrime b x z
    rho := c.p0 / (c.r * b.thetaBar) * neutralExner c b.thetaBar z ^ (getCv c / c.r) }

/-- `EvaluatePointwiseState` of the bubble in three dimensions,
test/nonhydro_xz/ThermalBubbleCartesian3DTest.cpp:232-262. -/
noncomputable def bubble3 (c : Constants) (b : Bubble) (z x y : ℝ) : Air :=
  { u := 0
    v := 0
    w := 0
    theta := b.thetaBar + bubble3TPrime b x y z
    rho := c.p0 / (c.r * b.thetaBar) * neutralExner c b.thetaBar z ^ (getCv c / c.r) }

/-- `EvaluatePointwiseState` of the density current, test/nonhydro_xz/DensityCurrentCartesianTest.cpp:272-302. -/
noncomputable def current (c : Constants) (b : Bubble) (z x : ℝ) : Air :=
  { u := 0
    v := 0
    w := 0
    theta := b.thetaBar + currentTPrime b x z (neutralExner c b.thetaBar z)
    rho := c.p0 / (c.r * b.thetaBar) * neutralExner c b.thetaBar z ^ (getCv c / c.r) }

/-! ### Uniform stratification -/

/-- The potential temperature of uniform stratification, test/nonhydro_xz/NonHydroMountainCartesianTest.cpp:271. -/
noncomputable def stratifiedTheta (c : Constants) (nbar theta0 z : ℝ) : ℝ := theta0 * exp (nbar * nbar / c.g * z)

/-- The Exner pressure of uniform stratification, test/nonhydro_xz/NonHydroMountainCartesianTest.cpp:288-290. -/
noncomputable def stratifiedExner (c : Constants) (nbar theta0 z : ℝ) : ℝ :=
  c.g * c.g / (c.cp * theta0 * nbar * nbar) * (exp (-nbar * nbar / c.g * z) - 1) + 1

/-- `EvaluatePointwiseState`, test/nonhydro_xz/NonHydroMountainCartesianTest.cpp:304-339 and
ScharMountainCartesianTest.cpp:281-316; also `EvaluateReferenceState` of InertialGravityCartesianXZTest.cpp:246-275. -/
noncomputable def stratified (c : Constants) (u0 nbar theta0 z : ℝ) : Air :=
  { u := u0
    v := 0
    w := 0
    theta := stratifiedTheta c nbar theta0 z
    rho := c.p0 / (c.r * stratifiedTheta c nbar theta0 z) * stratifiedExner c nbar theta0 z ^ (getCv c / c.r) }

open Classical in
/-- `EvaluateReferenceState` of the mountain waves, test/nonhydro_xz/NonHydroMountainCartesianTest.cpp:257-299 and
ScharMountainCartesianTest.cpp:234-276. -/
noncomputable def mountainReference (c : Constants) (u0 nbar theta0 z : ℝ) : Air :=
  if c.g = 0 then { u := u0, v := 0, w := 0, theta := 300 * c.p0 ^ (c.r / c.cp), rho := c.p0 / (c.r * 300) }
  else stratified c u0 nbar theta0 z

/-- `EvaluateTPrime` of the inertia gravity wave, test/nonhydro_xz/InertialGravityCartesianXZTest.cpp:227-241. -/
noncomputable def inertiaTPrime (thetaC piC hC xC aC x z : ℝ) : ℝ :=
  thetaC * sin (piC * z / hC) / (1 + (x - xC) / aC * ((x - xC) / aC))

/-- `EvaluatePointwiseState` of the inertia gravity wave,
test/nonhydro_xz/InertialGravityCartesianXZTest.cpp:280-314. -/
noncomputable def inertia (c : Constants) (u0 nbar theta0 thetaC piC hC xC aC z x : ℝ) : Air :=
  { stratified c u0 nbar theta0 z with
    theta := stratifiedTheta c nbar theta0 z + inertiaTPrime thetaC piC hC xC aC x z }

/-- `EvaluateReferenceState` and `EvaluatePointwiseState` of the hydrostatic mountain,
test/nonhydro_xz/HydrostaticMountainCartesianTest.cpp:217-288. -/
noncomputable def hydrostaticMountain (c : Constants) (t0 u0 z : ℝ) : Air :=
  let nbar := c.g / sqrt (c.cp * t0)
  let thetaBar := t0 * exp (nbar * nbar / c.g * z)
  { u := u0
    v := 0
    w := 0
    theta := thetaBar
    rho := c.p0 / (c.r * thetaBar) * exp (-c.g / (c.cp * t0) * z) ^ (getCv c / c.r) }

/-! ### The sphere -/

/-- The state of air of given pressure and density,
test/nonhydro_sphere/HeldSuarezTest.cpp:140-145 and the same lines of the other tests of that directory. -/
noncomputable def ofPressure (c : Constants) (u p rho : ℝ) : Air :=
  { u := u, v := 0, theta := rhoThetaFromPressure c p / rho, w := 0, rho := rho }

/-- `EvaluateReferenceState`, test/nonhydro_sphere/HeldSuarezTest.cpp:127-146. -/
noncomputable def heldSuarez (c : Constants) (t0 z : ℝ) : Air :=
  let h := c.r * t0 / c.g
  let p := c.p0 * exp (-z / h)
  ofPressure c 0 p (p / c.g / h)

/-- `EvaluateReferenceState`, test/nonhydro_sphere/BaldaufGravityWaveTest.cpp:113-134. -/
noncomputable def baldaufReference (c : Constants) (t0 z : ℝ) : Air :=
  let p := c.p0 * exp (-c.g * z / c.r / t0)
  ofPressure c 0 p (p / (c.r * t0))

/-- `EvaluatePointwiseState`, test/nonhydro_sphere/BaldaufGravityWaveTest.cpp:139-191. -/
noncomputable def baldauf (c : Constants) (t0 magnitude ztop z lat : ℝ) : Air :=
  let p := c.p0 * exp (-c.g * z / (c.r * t0))
  let rho := p / (c.r * t0)
  let t := p / (rho * c.r) + magnitude * exp (-100 * lat * lat) * sin (π * z / ztop)
  ofPressure c 0 p (p / (c.r * t))

/-- The temperature `dG`, test/nonhydro_sphere/InertiaGravityWaveTest.cpp:167. -/
noncomputable def gravityTemperature (c : Constants) (n : ℝ) : ℝ := c.g * c.g / (n * n * c.cp)

/-- The surface temperature, test/nonhydro_sphere/InertiaGravityWaveTest.cpp:169-175. -/
noncomputable def surfaceTemperature (c : Constants) (n u0 teq lat : ℝ) : ℝ :=
  gravityTemperature c n + (teq - gravityTemperature c n) *
    exp (-u0 * n * n / 4 / (c.g * c.g) * (u0 + 2 * c.omega * c.earthRadius) * (cos (2 * lat) - 1))

/-- The surface pressure, test/nonhydro_sphere/InertiaGravityWaveTest.cpp:180-188. -/
noncomputable def surfacePressure (c : Constants) (n u0 teq lat : ℝ) : ℝ :=
  c.p0 * exp (u0 / (4 * gravityTemperature c n * c.r) * (u0 + 2 * c.omega * c.earthRadius) * (cos (2 * lat) - 1)) *
    (surfaceTemperature c n u0 teq lat / teq) ^ (1 / c.kappa)

/-- The pressure, test/nonhydro_sphere/InertiaGravityWaveTest.cpp:190-194. -/
noncomputable def wavePressure (c : Constants) (n u0 teq z lat : ℝ) : ℝ :=
  surfacePressure c n u0 teq lat *
    (gravityTemperature c n / surfaceTemperature c n u0 teq lat * exp (-n * n * z / c.g) + 1 -
      gravityTemperature c n / surfaceTemperature c n u0 teq lat) ^ (1 / c.kappa)

open Classical in
/-- `EvaluateReferenceState`, test/nonhydro_sphere/InertiaGravityWaveTest.cpp:158-210; `none` is the exception. -/
noncomputable def inertiaGravity (c : Constants) (n u0 teq z lat : ℝ) : Option Air :=
  let p := wavePressure c n u0 teq z lat
  let t := gravityTemperature c n +
    (surfaceTemperature c n u0 teq lat - gravityTemperature c n) * exp (n * n * z / c.g)
  if p < 0 then none else some (ofPressure c (u0 * cos lat) p (p / (c.r * t)))

/-- `EvaluateReferenceState`, test/nonhydro_sphere/MountainRossby3DTest.cpp:189-218; `EvaluatePointwiseState`, 223-233,
is the same. -/
noncomputable def mountainRossby (c : Constants) (t0 u0 pp z lat : ℝ) : Air :=
  let p := pp * exp (-u0 / (2 * c.r * t0) * (sin lat * sin lat - 1) * (u0 + 2 * c.omega * c.earthRadius) -
    c.g * z / (c.r * t0))
  ofPressure c (u0 * cos lat) p (p / (c.r * t0))

/-- `EvaluateReferenceState`, test/nonhydro_sphere/MountainWaveSphereTest.cpp:170-202; `EvaluatePointwiseState`,
207-217, is the same. -/
noncomputable def mountainWave (c : Constants) (t0 u0 z lat : ℝ) : Air :=
  let h := c.r * t0 / c.g
  let fr2 := u0 * u0 / (c.g * h)
  let invRo := 2 * c.earthRadius * c.omega / u0
  let p := c.p0 * exp (-z / h) * exp (-0.5 * fr2 * (1 + invRo) * sin lat * sin lat)
  ofPressure c (u0 * cos lat) p (p / (c.g * h))

/-- The temperature, test/nonhydro_sphere/ScharMountainSphereTest.cpp:230-234. -/
noncomputable def scharTemperature (c : Constants) (teq ueq cs lat : ℝ) : ℝ :=
  teq * (1 - cs * ueq * ueq / c.g * (sin lat * sin lat))

/-- `EvaluateReferenceState`, test/nonhydro_sphere/ScharMountainSphereTest.cpp:222-254; `EvaluatePointwiseState`,
259-269, is the same. -/
noncomputable def schar (c : Constants) (teq ueq cs z lat : ℝ) : Air :=
  let t := scharTemperature c teq ueq cs lat
  let p := c.p0 * exp (-ueq * ueq / (2 * c.r * teq) * (sin lat * sin lat) - c.g * z / (c.r * t))
  ofPressure c (ueq * cos lat * sqrt (2 * teq / t * cs * z + t / teq)) p (p / (c.r * t))

/-- `EvaluateReferenceState`, test/nonhydro_sphere/StationaryMountainFlowTest.cpp:185-210; `EvaluatePointwiseState`,
215-225, is the same. -/
noncomputable def stationary (c : Constants) (t0 lapse z : ℝ) : Air :=
  let t := t0 - lapse * z
  let p := c.p0 * (1 - lapse / t0 * z) ^ (c.g / (c.r * lapse))
  ofPressure c 0 p (p / (c.r * t))

/-! ### The baroclinic wave -/

/-- The parameters, test/nonhydro_sphere/BaroclinicWaveUMJSTest.cpp:46-72. -/
structure Wave where
  t0E : ℝ
  t0P : ℝ
  b : ℝ
  k : ℝ
  lapse : ℝ

/-- The values the constructor gives, test/nonhydro_sphere/BaroclinicWaveUMJSTest.cpp:152-156. -/
noncomputable def Wave.standard : Wave := { t0E := 310, t0P := 240, b := 2, k := 3, lapse := 0.005 }

namespace Wave

variable (q : Wave) (c : Constants)

/-- `dT0`, test/nonhydro_sphere/BaroclinicWaveUMJSTest.cpp:370. -/
noncomputable def t0 : ℝ := 0.5 * (q.t0E + q.t0P)

/-- `dConstA`, test/nonhydro_sphere/BaroclinicWaveUMJSTest.cpp:372. -/
noncomputable def constA : ℝ := 1 / q.lapse

/-- `dConstB`, test/nonhydro_sphere/BaroclinicWaveUMJSTest.cpp:374. -/
noncomputable def constB : ℝ := (q.t0 - q.t0P) / (q.t0 * q.t0P)

/-- `dConstC`, test/nonhydro_sphere/BaroclinicWaveUMJSTest.cpp:376-377. -/
noncomputable def constC : ℝ := 0.5 * (q.k + 2) * (q.t0E - q.t0P) / (q.t0E * q.t0P)

/-- `dScaledZ`, test/nonhydro_sphere/BaroclinicWaveUMJSTest.cpp:379-382. -/
noncomputable def scaled (z : ℝ) : ℝ := z / (q.b * (c.r * q.t0 / c.g))

/-- `dTau1`, test/nonhydro_sphere/BaroclinicWaveUMJSTest.cpp:385-390. -/
noncomputable def tau1 (z : ℝ) : ℝ :=
  q.constA * q.lapse / q.t0 * exp (q.lapse / q.t0 * z) +
    q.constB * (1 - 2 * q.scaled c z * q.scaled c z) * exp (-q.scaled c z * q.scaled c z)

/-- `dTau2`, test/nonhydro_sphere/BaroclinicWaveUMJSTest.cpp:392-394. -/
noncomputable def tau2 (z : ℝ) : ℝ :=
  q.constC * (1 - 2 * q.scaled c z * q.scaled c z) * exp (-q.scaled c z * q.scaled c z)

/-- `dIntTau1`, test/nonhydro_sphere/BaroclinicWaveUMJSTest.cpp:396-398. -/
noncomputable def intTau1 (z : ℝ) : ℝ :=
  q.constA * (exp (q.lapse / q.t0 * z) - 1) + q.constB * z * exp (-q.scaled c z * q.scaled c z)

/-- `dIntTau2`, test/nonhydro_sphere/BaroclinicWaveUMJSTest.cpp:400-401. -/
noncomputable def intTau2 (z : ℝ) : ℝ := q.constC * z * exp (-q.scaled c z * q.scaled c z)

/-- `dRRatio`, test/nonhydro_sphere/BaroclinicWaveUMJSTest.cpp:404-409. -/
noncomputable def ratio (deep : Bool) (z : ℝ) : ℝ := if deep then (z + c.earthRadius) / c.earthRadius else 1

/-- `dInteriorTerm`, test/nonhydro_sphere/BaroclinicWaveUMJSTest.cpp:411-412. -/
noncomputable def interior (deep : Bool) (z lat : ℝ) : ℝ :=
  (ratio c deep z * cos lat) ^ q.k - q.k / (q.k + 2) * (ratio c deep z * cos lat) ^ (q.k + 2)

/-- `dTemperature`, test/nonhydro_sphere/BaroclinicWaveUMJSTest.cpp:415-417. -/
noncomputable def temperature (deep : Bool) (z lat : ℝ) : ℝ :=
  1 / (ratio c deep z * ratio c deep z) / (q.tau1 c z - q.tau2 c z * q.interior c deep z lat)

/-- `dPressure`, test/nonhydro_sphere/BaroclinicWaveUMJSTest.cpp:420-422. -/
noncomputable def pressure (deep : Bool) (z lat : ℝ) : ℝ :=
  c.p0 * exp (-c.g / c.r * (q.intTau1 c z - q.intTau2 c z * q.interior c deep z lat))

/-- `EvaluateReferenceState`, test/nonhydro_sphere/BaroclinicWaveUMJSTest.cpp:358-452. -/
noncomputable def reference (deep : Bool) (z lat : ℝ) : Air :=
  ofPressure c 0 (q.pressure c deep z lat) (q.pressure c deep z lat / (c.r * q.temperature c deep z lat))

/-- `dBigU`, test/nonhydro_sphere/BaroclinicWaveUMJSTest.cpp:529-534. -/
noncomputable def bigU (deep : Bool) (z lat : ℝ) : ℝ :=
  c.g / c.earthRadius * q.k * q.intTau2 c z *
    ((ratio c deep z * cos lat) ^ (q.k - 1) - (ratio c deep z * cos lat) ^ (q.k + 1)) * q.temperature c deep z lat

/-- `dRCosLat`, test/nonhydro_sphere/BaroclinicWaveUMJSTest.cpp:536-541. -/
noncomputable def rCosLat (deep : Bool) (z lat : ℝ) : ℝ :=
  if deep then (z + c.earthRadius) * cos lat else c.earthRadius * cos lat

/-- The discriminant, test/nonhydro_sphere/BaroclinicWaveUMJSTest.cpp:543-550. -/
noncomputable def discriminant (deep : Bool) (z lat : ℝ) : ℝ :=
  c.omega * rCosLat c deep z lat * (c.omega * rCosLat c deep z lat) + rCosLat c deep z lat * q.bigU c deep z lat

open Classical in
/-- `EvaluatePointwiseState`, test/nonhydro_sphere/BaroclinicWaveUMJSTest.cpp:457-572, without perturbation (the type
`PerturbationType_None`, whose perturbation is zero, 306-310); `none` is the exception. -/
noncomputable def state (deep : Bool) (z lat : ℝ) : Option Air :=
  if q.discriminant c deep z lat < 0 then none
  else
    some (ofPressure c (-(c.omega * rCosLat c deep z lat) + sqrt (q.discriminant c deep z lat))
      (q.pressure c deep z lat) (q.pressure c deep z lat / (c.r * q.temperature c deep z lat)))

end Wave

end Verif.Cases
