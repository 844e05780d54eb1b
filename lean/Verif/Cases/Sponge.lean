import Mathlib.Analysis.SpecialFunctions.Trigonometric.Basic
import Mathlib.Analysis.SpecialFunctions.Trigonometric.Inverse
import Mathlib.Analysis.SpecialFunctions.Exp
import Mathlib.Analysis.SpecialFunctions.Sqrt

/-!
# Sponge layers, mountains and perturbations of the test cases

Models `EvaluateRayleighStrength`, `EvaluateTopography` and the perturbations of the classes in test/nonhydro_xz,
test/nonhydro_sphere and test/shallowwater_sphere.  Simplifications: `double` is the real numbers, `M_PI` is the number it
stands for, and a quotient by zero is zero (the code gives an infinity or NaN).  The argument of `acos` is a cosine by the
law of spherical trigonometry; with rounding it may exceed one in the code, which gives NaN.
-/

namespace Verif.Cases

open Real

/-- `m_dGDim`, the box of a test case on a plane, test/nonhydro_xz/DensityCurrentCartesianTest.cpp:97-103. -/
structure Box where
  x0 : ℝ
  x1 : ℝ
  y0 : ℝ
  y1 : ℝ
  z0 : ℝ
  z1 : ℝ

/-- The constants of `EvaluateRayleighStrength`, test/nonhydro_xz/DensityCurrentCartesianTest.cpp:181-183. -/
structure Layers where
  strength : ℝ
  depth : ℝ
  width : ℝ

/-- The profile of a layer, test/nonhydro_xz/DensityCurrentCartesianTest.cpp:191. -/
noncomputable def ramp (strength norm : ℝ) : ℝ := 0.5 * strength * (1 + cos (π * norm))

/-- `dNuDepth`, test/nonhydro_xz/DensityCurrentCartesianTest.cpp:185,189-192, and the whole of
`EvaluateRayleighStrength` in test/nonhydro_sphere/BaroclinicWaveUMJSTest.cpp:205-221, MountainRossby3DTest.cpp:161-177 and
MountainWaveSphereTest.cpp:142-158. -/
noncomputable def capLayer (L : Layers) (top z : ℝ) : ℝ :=
  if z > top - L.depth then ramp L.strength ((top - z) / L.depth) else 0

/-- `dNuRight`, test/nonhydro_xz/DensityCurrentCartesianTest.cpp:186,193-196. -/
noncomputable def rightLayer (L : Layers) (b : Box) (x : ℝ) : ℝ :=
  if x > b.x1 - L.width then ramp L.strength ((b.x1 - x) / L.width) else 0

/-- `dNuLeft`, test/nonhydro_xz/DensityCurrentCartesianTest.cpp:187,197-200. -/
noncomputable def leftLayer (L : Layers) (b : Box) (x : ℝ) : ℝ :=
  if x < b.x0 + L.width then ramp L.strength ((x - b.x0) / L.width) else 0

/-- The choice among the three, test/nonhydro_xz/DensityCurrentCartesianTest.cpp:202-208. -/
noncomputable def strongest (depth right left : ℝ) : ℝ :=
  if depth ≥ right ∧ depth ≥ left then depth else if right ≥ left then right else left

/-- `EvaluateRayleighStrength`, test/nonhydro_xz/DensityCurrentCartesianTest.cpp:176-209; the same text in
Baroclinic3DCartesianRidgeTest.cpp:235-269, InertialGravityCartesianXZTest.cpp:178-211,
NonHydroMountainCartesianTest.cpp:210-245, ScharMountainCartesianTest.cpp:194-229 and
ShearJetMtnWave2DCartesianTest.cpp:311-346. -/
noncomputable def boxSponge (L : Layers) (b : Box) (z x : ℝ) : ℝ :=
  strongest (capLayer L b.z1 z) (rightLayer L b x) (leftLayer L b x)

/-- `dNuLeft` of the hydrostatic mountain, test/nonhydro_xz/HydrostaticMountainCartesianTest.cpp:183,193-196. -/
noncomputable def leftTurned (L : Layers) (b : Box) (x : ℝ) : ℝ :=
  if x < b.x0 + L.width then ramp L.strength (1 - (x - b.x0) / L.width) else 0

/-- `EvaluateRayleighStrength`, test/nonhydro_xz/HydrostaticMountainCartesianTest.cpp:172-205. -/
noncomputable def hydrostaticSponge (L : Layers) (b : Box) (z x : ℝ) : ℝ :=
  strongest (capLayer L b.z1 z) (rightLayer L b x) (leftTurned L b x)

/-- `EvaluateRayleighStrength`, test/nonhydro_xz/Baroclinic3DCartesianTest.cpp:213-247. -/
noncomputable def channelSponge (L : Layers) (b : Box) (z x y : ℝ) : ℝ :=
  strongest (capLayer L b.z1 z)
    (if x > b.y1 - L.width then ramp L.strength ((b.y1 - y) / L.width) else 0)
    (if x < b.y0 + L.width then ramp L.strength ((y - b.y0) / L.width) else 0)

/-- `EvaluateRayleighStrength`, test/nonhydro_sphere/ScharMountainSphereTest.cpp:194-210. -/
noncomputable def sineSponge (zh top tau z : ℝ) : ℝ :=
  (if z > zh then sin (π / 2 * ((z - zh) / (top - zh))) * sin (π / 2 * ((z - zh) / (top - zh))) else 0) / tau

/-- `EvaluateRayleighStrength`, test/nonhydro_sphere/HeldSuarezTest.cpp:304-320. -/
noncomputable def heldSuarezSponge (zh top tau z : ℝ) : ℝ :=
  0 * (if z > zh then sin (π / 2 * ((z - zh) / (top - zh))) * sin (π / 2 * ((z - zh) / (top - zh))) else 0) / tau

/-! The constants and boxes of the tests with layers. -/

/-- test/nonhydro_xz/DensityCurrentCartesianTest.cpp:97-103,181-183. -/
noncomputable def densityLayers : Layers × Box := (⟨8e-3, 1400, 1000⟩, ⟨0, 25600, -100, 100, 0, 6400⟩)
/-- test/nonhydro_xz/Baroclinic3DCartesianRidgeTest.cpp:144-149,240-242. -/
noncomputable def ridgeLayers : Layers × Box := (⟨1e-3, 5000, 2e6⟩, ⟨0, 30000000, 0, 6000000, 0, 30000⟩)
/-- test/nonhydro_xz/InertialGravityCartesianXZTest.cpp:111-116,183-185. -/
noncomputable def inertialLayers : Layers × Box := (⟨8e-3, 0, 2000⟩, ⟨0, 300000, -100000, 100000, 0, 10000⟩)
/-- test/nonhydro_xz/NonHydroMountainCartesianTest.cpp:118-123,215-218. -/
noncomputable def nonhydroLayers : Layers × Box := (⟨1e-2, 5000, 5000⟩, ⟨0, 120000, -100, 100, 0, 30000⟩)
/-- test/nonhydro_xz/ScharMountainCartesianTest.cpp:111-116,199-202. -/
noncomputable def scharLayers : Layers × Box := (⟨5e-3, 5000, 5000⟩, ⟨-25000, 25000, -200, 200, 0, 21000⟩)
/-- test/nonhydro_xz/ShearJetMtnWave2DCartesianTest.cpp:187-192,316-319. -/
noncomputable def shearLayers : Layers × Box := (⟨1e-2, 5000, 5000⟩, ⟨-40000, 40000, -500, 500, 0, 30000⟩)
/-- test/nonhydro_xz/HydrostaticMountainCartesianTest.cpp:97-102,177-179. -/
noncomputable def hydrostaticLayers : Layers × Box := (⟨8e-3, 10000, 20000⟩, ⟨0, 240000, -1000, 1000, 0, 30000⟩)
/-- test/nonhydro_xz/Baroclinic3DCartesianTest.cpp:130-135,218-220. -/
noncomputable def channelLayers : Layers × Box := (⟨5e-3, 5000, 5e7⟩, ⟨0, 30000000, 0, 6000000, 0, 30000⟩)
/-- test/nonhydro_sphere/BaroclinicWaveUMJSTest.cpp:210-211, with no sides. -/
noncomputable def umjsLayer : Layers := ⟨5e-1, 8000, 0⟩
/-- test/nonhydro_sphere/MountainRossby3DTest.cpp:166-167. -/
noncomputable def rossbyLayer : Layers := ⟨4e-3, 10000, 0⟩
/-- test/nonhydro_sphere/MountainWaveSphereTest.cpp:147-148. -/
noncomputable def waveLayer : Layers := ⟨8e-3, 6000, 0⟩

/-! ### Mountains -/

/-- `EvaluateTopography`, test/nonhydro_xz/HydrostaticMountainCartesianTest.cpp:150-160. -/
noncomputable def agnesi (h0 a xC x : ℝ) : ℝ := h0 / (1 + (x - xC) / a * ((x - xC) / a))

/-- `EvaluateTopography`, test/nonhydro_xz/NonHydroMountainCartesianTest.cpp:186-198. -/
noncomputable def broadAgnesi (h0 a xC x : ℝ) : ℝ :=
  h0 / (1 + (x - xC) / a * ((x - xC) / a) * ((x - xC) / a) * ((x - xC) / a))

/-- `EvaluateTopography`, test/nonhydro_xz/Baroclinic3DCartesianRidgeTest.cpp:209-223, with the factor one left out. -/
noncomputable def ridge (h0 a xC x : ℝ) : ℝ :=
  let xLoc := 2 * xC
  h0 / (1 + exp ((x - xLoc) / a * ((x - xLoc) / a)))

/-- `EvaluateTopography`, test/nonhydro_xz/ScharMountainCartesianTest.cpp:178-189 and
ShearJetMtnWave2DCartesianTest.cpp:272-283. -/
noncomputable def scharRange (h0 a l x : ℝ) : ℝ := h0 * exp (-x / a * x / a) * cos (π * x / l) * cos (π * x / l)

/-- The distance along a great circle in radians, test/nonhydro_sphere/StationaryMountainFlowTest.cpp:142-143. -/
noncomputable def greatCircle (latC lonC lon lat : ℝ) : ℝ :=
  arccos (sin latC * sin lat + cos latC * cos lat * cos (lon - lonC))

/-- `EvaluateTopography`, test/nonhydro_sphere/MountainRossby3DTest.cpp:134-149. -/
noncomputable def gaussianMountain (radius h0 d latC lonC lon lat : ℝ) : ℝ :=
  let r := radius * greatCircle latC lonC lon lat
  h0 * exp (-r * r / (d * d))

/-- `EvaluateTopography`, test/nonhydro_sphere/ScharMountainSphereTest.cpp:165-182. -/
noncomputable def scharSphere (radius h0 d xi latC lonC lon lat : ℝ) : ℝ :=
  let r := radius * greatCircle latC lonC lon lat
  h0 * exp (-r * r / (d * d)) * cos (π * r / xi) * cos (π * r / xi)

/-- `EvaluateTopography`, test/nonhydro_sphere/StationaryMountainFlowTest.cpp:135-155. -/
noncomputable def bellMountain (h0 rM zeta latC lonC lon lat : ℝ) : ℝ :=
  let r := greatCircle latC lonC lon lat
  let bell := if r ≥ rM then 0 else 0.5 * (1 + cos (π * r / rM))
  h0 * bell * cos (π * r / zeta) * cos (π * r / zeta)

/-- `EvaluateTopography`, test/nonhydro_sphere/MountainWaveSphereTest.cpp:117-130; the kind is the value of the
enumeration, and other values throw. -/
noncomputable def waveSix (lon lat : ℝ) : ℝ := 10 * sin (6 * lon) * cos lat * cos lat

/-- `EvaluateTopography`, test/shallowwater_sphere/MountainRossbyTest.cpp:113-129. -/
noncomputable def coneMountain (h0 rC lonC latC lon lat : ℝ) : ℝ :=
  let r2 := (lon - lonC) * (lon - lonC) + (lat - latC) * (lat - latC)
  let r := if r2 > rC * rC then rC else sqrt r2
  h0 * (1 - r / rC)

/-! ### Perturbations of the wind -/

/-- `EvaluateUPrime`, test/nonhydro_xz/Baroclinic3DCartesianTest.cpp:252-266. -/
noncomputable def gustPlane (up l xC yC x y : ℝ) : ℝ :=
  up * exp (-((x - xC) * (x - xC) + (y - yC) * (y - yC)) / (l * l))

/-- The parameters of the perturbation, test/nonhydro_sphere/BaroclinicWaveUMJSTest.cpp:74-109,157-163. -/
structure Gust where
  u0 : ℝ
  up : ℝ
  r : ℝ
  expR : ℝ
  lon : ℝ
  lat : ℝ
  z : ℝ

/-- `dPertTaper`, test/nonhydro_sphere/BaroclinicWaveUMJSTest.cpp:266-274 and 321-330. -/
noncomputable def taper (zP z : ℝ) : ℝ :=
  if z < zP then 1 - 3 * z * z / (zP * zP) + 2 * z * z * z / (zP * zP * zP) else 0

/-- `EvaluateStreamFunction`, test/nonhydro_sphere/BaroclinicWaveUMJSTest.cpp:248-289, after the check of the type. -/
noncomputable def streamFunction (q : Gust) (z lon lat : ℝ) : ℝ :=
  let r := greatCircle q.lat q.lon lon lat / q.r
  let c := if r < 1 then cos (0.5 * π * r) else 0
  q.u0 * q.r * taper q.z z * c * c * c * c

/-- The types of perturbation, test/nonhydro_sphere/BaroclinicWaveUMJSTest.cpp:31-35. -/
inductive GustType where
  | none
  | exp
  | streamFn

/-- `EvaluatePointwisePerturbation`, test/nonhydro_sphere/BaroclinicWaveUMJSTest.cpp:294-353: the wind to the east and
to the north. -/
noncomputable def gustSphere (q : Gust) (kind : GustType) (z lon lat : ℝ) : ℝ × ℝ :=
  match kind with
  | .none => (0, 0)
  | .exp =>
    let r := greatCircle q.lat q.lon lon lat / q.expR
    (if r < 1 then q.up * taper q.z z * Real.exp (-r * r) else 0, 0)
  | .streamFn =>
    let eps : ℝ := 1e-5
    (-1 / (2 * eps) * (streamFunction q z lon (lat + eps) - streamFunction q z lon (lat - eps)),
      1 / (2 * eps * cos lat) * (streamFunction q z (lon + eps) lat - streamFunction q z (lon - eps) lat))

end Verif.Cases
