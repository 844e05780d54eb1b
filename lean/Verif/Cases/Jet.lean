import Mathlib.Analysis.SpecialFunctions.Log.Basic
import Verif.Cases.Model

/-!
# Test cases whose state is given in pressure coordinates

Models test/nonhydro_sphere/BaroclinicWaveJWTest.cpp and test/nonhydro_xz/Baroclinic3DCartesianTest.cpp (and its variant
with a ridge): geopotential and temperature over the pressure coordinate `eta`, Newton's iteration for `eta` at a given
height, and the state.  Simplifications: those of Verif/Cases/Model.lean; the entries 1 and 3 of the state, which
`BaroclinicWaveJWTest` does not set, are zero.
-/

namespace Verif.Cases

open Verif.Thermo Real

open Classical in
/-- `EtaFromRLL`, test/nonhydro_sphere/BaroclinicWaveJWTest.cpp:297-345, and Baroclinic3DCartesianTest.cpp:327-374, for a
given function that computes geopotential and temperature; the result is `eta` and what is left in `dTemperature`.
`none` is the exception after the last iteration (the check of the range of `eta` behind it is never reached). -/
noncomputable def newton (c : Constants) (column : ℝ → ℝ × ℝ) (z : ℝ) : Nat → ℝ → Option (ℝ × ℝ)
  | 0, _ => none
  | n + 1, eta =>
    let geopotential := (column eta).1
    let temperature := (column eta).2
    let f := -c.g * z + geopotential
    let diffF := -c.r / eta * temperature
    let newEta := eta - f / diffF
    if |eta - newEta| < 1e-13 then some (newEta, temperature) else newton c column z n newEta

/-- The state from `eta` and temperature, test/nonhydro_sphere/BaroclinicWaveJWTest.cpp:373-381 and
Baroclinic3DCartesianTest.cpp:408-417. -/
noncomputable def ofEta (c : Constants) (u eta temperature : ℝ) : Air :=
  ofPressure c u (c.p0 * eta) (c.p0 * eta / (c.r * temperature))

/-! ### The sphere -/

/-- The parameters, test/nonhydro_sphere/BaroclinicWaveJWTest.cpp:36-84. -/
structure Jet where
  eta0 : ℝ
  tropopause : ℝ
  t0 : ℝ
  deltaT : ℝ
  lapse : ℝ
  u0 : ℝ

/-- Their values, test/nonhydro_sphere/BaroclinicWaveJWTest.cpp:118-123. -/
noncomputable def Jet.standard : Jet :=
  { eta0 := 0.252, tropopause := 0.2, t0 := 288, deltaT := 4.8e5, lapse := 0.005, u0 := 35 }

namespace Jet

variable (q : Jet) (c : Constants)

/-- `dAuxEta`, test/nonhydro_sphere/BaroclinicWaveJWTest.cpp:220. -/
noncomputable def aux (eta : ℝ) : ℝ := 0.5 * π * (eta - q.eta0)

/-- `dRefProfile1`, test/nonhydro_sphere/BaroclinicWaveJWTest.cpp:244-246 (and 192-194). -/
noncomputable def profile1 (eta lat : ℝ) : ℝ :=
  q.u0 * cos (q.aux eta) ^ (1.5 : ℝ) * (-2 * sin lat ^ 6 * (cos lat ^ 2 + 1 / 3) + 10 / 63)

/-- `dRefProfile2`, test/nonhydro_sphere/BaroclinicWaveJWTest.cpp:248-250 (and 196-198). -/
noncomputable def profile2 (lat : ℝ) : ℝ :=
  c.earthRadius * c.omega * (8 / 5 * cos lat ^ 3 * (sin lat ^ 2 + 2 / 3) - 0.25 * π)

/-- `EvaluateTopography`, test/nonhydro_sphere/BaroclinicWaveJWTest.cpp:170-206. -/
noncomputable def topography (lat : ℝ) : ℝ :=
  let auxEta := 0.5 * π * (1 - q.eta0)
  q.u0 * cos auxEta ^ (1.5 : ℝ) * (q.u0 * cos auxEta ^ (1.5 : ℝ) *
    (-2 * sin lat ^ 6 * (cos lat ^ 2 + 1 / 3) + 10 / 63) + profile2 c lat) / c.g

/-- `dAvgTemperature`, test/nonhydro_sphere/BaroclinicWaveJWTest.cpp:222-229. -/
noncomputable def avgTemperature (eta : ℝ) : ℝ :=
  q.t0 * eta ^ (c.r * q.lapse / c.g) + if eta < q.tropopause then q.deltaT * (q.tropopause - eta) ^ (5 : ℝ) else 0

/-- `dAvgGeopotential`, test/nonhydro_sphere/BaroclinicWaveJWTest.cpp:260-284. -/
noncomputable def avgGeopotential (eta : ℝ) : ℝ :=
  q.t0 * c.g / q.lapse * (1 - eta ^ (c.r * q.lapse / c.g)) - if eta < q.tropopause then c.r * q.deltaT *
    ((log (eta / q.tropopause) + 137 / 60) * q.tropopause ^ 5 - 5 * q.tropopause ^ 4 * eta +
      5 * q.tropopause ^ 3 * eta ^ 2 - 10 / 3 * q.tropopause ^ 2 * eta ^ 3 + 5 / 4 * q.tropopause * eta ^ 4 -
        1 / 5 * eta ^ 5) else 0

/-- The temperature of `CalculateGeopotentialTemperature`, test/nonhydro_sphere/BaroclinicWaveJWTest.cpp:252-258. -/
noncomputable def temperature (eta lat : ℝ) : ℝ :=
  q.avgTemperature c eta + 0.75 * eta * π * q.u0 / c.r * sin (q.aux eta) * sqrt (cos (q.aux eta)) *
    (2 * q.profile1 eta lat + profile2 c lat)

/-- The geopotential of `CalculateGeopotentialTemperature`, test/nonhydro_sphere/BaroclinicWaveJWTest.cpp:286-288. -/
noncomputable def geopotential (eta lat : ℝ) : ℝ :=
  q.avgGeopotential c eta + q.u0 * cos (q.aux eta) ^ (1.5 : ℝ) * (q.profile1 eta lat + profile2 c lat)

/-- The wind, test/nonhydro_sphere/BaroclinicWaveJWTest.cpp:368-370. -/
noncomputable def wind (eta lat : ℝ) : ℝ :=
  q.u0 * cos (0.5 * π * (eta - q.eta0)) ^ (1.5 : ℝ) * sin (2 * lat) * sin (2 * lat)

/-- `EvaluateReferenceState`, test/nonhydro_sphere/BaroclinicWaveJWTest.cpp:351-382. -/
noncomputable def reference (z lat : ℝ) : Option Air :=
  (newton c (fun eta => (q.geopotential c eta lat, q.temperature c eta lat)) z 25 1e-7).map
    fun r => ofEta c (q.wind r.1 lat) r.1 r.2

end Jet

/-! ### The channel -/

/-- The parameters, test/nonhydro_xz/Baroclinic3DCartesianTest.cpp:31-98; the channel reaches from `ymin` to `ymax`. -/
structure Channel where
  b : ℝ
  u0 : ℝ
  lapse : ℝ
  t0 : ℝ
  refLat : ℝ
  ymin : ℝ
  ymax : ℝ

/-- The values set in the constructor and by default, test/nonhydro_xz/Baroclinic3DCartesianTest.cpp:127-141, 486-490. -/
noncomputable def Channel.standard : Channel :=
  { b := 2, u0 := 35, lapse := 0.005, t0 := 288, refLat := 45 / 180 * π, ymin := 0, ymax := 6000000 }

namespace Channel

variable (q : Channel) (c : Constants)

/-- `m_dY0`, test/nonhydro_xz/Baroclinic3DCartesianTest.cpp:141. -/
noncomputable def y0 : ℝ := 0.5 * (q.ymax - q.ymin)

/-- `dLy`, test/nonhydro_xz/Baroclinic3DCartesianTest.cpp:289. -/
noncomputable def ly : ℝ := q.ymax - q.ymin

/-- `df0`, test/nonhydro_xz/Baroclinic3DCartesianTest.cpp:285. -/
noncomputable def f0 : ℝ := 2 * c.omega * sin q.refLat

/-- `dbeta0`, test/nonhydro_xz/Baroclinic3DCartesianTest.cpp:287; the variant with a ridge adds the height to the radius,
Baroclinic3DCartesianRidgeTest.cpp:310. -/
noncomputable def beta (radius : ℝ) : ℝ := 2 * c.omega * cos q.refLat / radius

/-- The second part of `dXYGeopotential`, without the factor 0.5 times `dbeta0`,
test/nonhydro_xz/Baroclinic3DCartesianTest.cpp:304-307. -/
noncomputable def bowl (y : ℝ) : ℝ :=
  y * y - q.ly * y / π * sin (2 * π * y / q.ly) - 0.5 * q.ly * q.ly / (π * π) * cos (2 * π * y / q.ly) -
    q.ly * q.ly / 3 - 0.5 * q.ly * q.ly / (π * π)

/-- `dXYGeopotential`, test/nonhydro_xz/Baroclinic3DCartesianTest.cpp:300-307. -/
noncomputable def across (radius y : ℝ) : ℝ :=
  0.5 * q.u0 * ((q.f0 c - q.beta c radius * q.y0) * (y - q.y0 - q.y0 / π * sin (2 * π * y / q.ly)) +
    0.5 * q.beta c radius * q.bowl y)

/-- `dExpDecay`, test/nonhydro_xz/Baroclinic3DCartesianTest.cpp:309. -/
noncomputable def decay (eta : ℝ) : ℝ := exp (-(log eta / q.b) * (log eta / q.b))

/-- The geopotential of `CalculateGeopotentialTemperature`, test/nonhydro_xz/Baroclinic3DCartesianTest.cpp:295-315. -/
noncomputable def geopotential (radius eta y : ℝ) : ℝ :=
  q.t0 * c.g / q.lapse * (1 - eta ^ (c.r * q.lapse / c.g)) + q.across c radius y * log eta * q.decay eta

/-- The temperature of `CalculateGeopotentialTemperature`, test/nonhydro_xz/Baroclinic3DCartesianTest.cpp:291-319. -/
noncomputable def temperature (radius eta y : ℝ) : ℝ :=
  q.t0 * eta ^ (c.r * q.lapse / c.g) +
    q.across c radius y / c.r * (2 / (q.b * q.b) * log eta * log eta - 1) * q.decay eta

/-- The wind, test/nonhydro_xz/Baroclinic3DCartesianTest.cpp:396-400. -/
noncomputable def wind (eta y : ℝ) : ℝ := -q.u0 * sin (π * y / q.ly) * sin (π * y / q.ly) * log eta * q.decay eta

/-- `EvaluateReferenceState`, test/nonhydro_xz/Baroclinic3DCartesianTest.cpp:380-418. -/
noncomputable def reference (z y : ℝ) : Option Air :=
  (newton c (fun eta => (q.geopotential c c.earthRadius eta y, q.temperature c c.earthRadius eta y)) z 50 1e-5).map
    fun r => ofEta c (q.wind r.1 y) r.1 r.2

/-- `EvaluateReferenceState` of the variant with a ridge, test/nonhydro_xz/Baroclinic3DCartesianRidgeTest.cpp:402-441. -/
noncomputable def ridgeReference (z y : ℝ) : Option Air :=
  (newton c (fun eta => (q.geopotential c (c.earthRadius + z) eta y, q.temperature c (c.earthRadius + z) eta y)) z 100
    1e-5).map fun r => ofEta c (q.wind r.1 y) r.1 r.2

end Channel

end Verif.Cases
