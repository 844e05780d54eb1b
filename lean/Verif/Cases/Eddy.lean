/-
The shallow water eddy test case
(test/shallowwater_sphere/ShallowWaterEddyTest.cpp) over the real numbers, without
rotation of the grid.  Its parameters (lines 84-93), intervals and places of the
quadrature (lines 206-233) are those of the barotropic instability test case.
-/
import Verif.Cases.Instability
namespace Verif.Cases.Eddy

open Real Instability

/-- EvaluateUPrime (ShallowWaterEddyTest.cpp:164-184): the profile of the other test case, at the size of the latitude. -/
noncomputable def eddyWind (lat : ℝ) : Option ℝ := wind |lat|

/-- dH over places (ShallowWaterEddyTest.cpp:223-240). -/
noncomputable def eddyTotal (radius omega : ℝ) (L : List ℝ) : Option ℝ :=
  L.foldl (fun acc x => acc.bind fun s => (eddyWind x).map fun u => s + (2 * radius * omega * sin x + u * tan x) * u) (some 0)

/-- The rate of rotation set by EvaluatePhysicalConstants (ShallowWaterEddyTest.cpp:114). -/
noncomputable def eddyOmega : ℝ := 0

/-- EvaluatePointwiseState (ShallowWaterEddyTest.cpp:189-284) with dAlpha = 0. -/
noncomputable def eddyState (radius g lon lat : ℝ) : Point :=
  open Classical in
  let lonE := if lon > π then lon - 2 * π else lon
  if lonE < -π ∨ lonE > π then .thrown
  else
    match eddyTotal radius eddyOmega (places lat), eddyWind lat with
    | some dH, some up =>
      let h := h0 - dH * (0.5 * (latX lat 1 - latX lat 0)) / g
      let h := h + 120 * cos lat * exp (-(lonE * lonE / (1 / 3 * (1 / 3))))
        * exp (-((π / 4 - lat) * (π / 4 - lat) / (1 / 15 * (1 / 15))))
      let v := -up * sin 0 * sin lon / cos lat
      let u := if |cos lonE| < 1 / 10 ^ 13 then up else (v * sin lat * sin lonE + up * cos lon) / cos lonE
      .state u v h
    | _, _ => .notFinite

end Verif.Cases.Eddy
