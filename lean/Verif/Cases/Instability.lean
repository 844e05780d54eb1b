/-
The barotropically unstable jet on the sphere
(test/shallowwater_sphere/BarotropicInstabilityTest.cpp) over the real numbers:
the state without rotation of the grid (the default, dAlpha = 0), coordinates and
wind with it.
-/
import Mathlib.Analysis.SpecialFunctions.Trigonometric.Basic
import Mathlib.Analysis.SpecialFunctions.Trigonometric.Deriv
import Mathlib.Analysis.SpecialFunctions.Exp
import Mathlib.Analysis.SpecialFunctions.Trigonometric.Inverse
import Mathlib.Analysis.Real.Pi.Bounds
import Mathlib.Algebra.Order.Floor.Defs

namespace Verif.Cases.Instability

open Real

/-- m_dTheta0 (BarotropicInstabilityTest.cpp:89). -/
noncomputable def theta0 : ℝ := π / 7

/-- m_dTheta1 (BarotropicInstabilityTest.cpp:90). -/
noncomputable def theta1 : ℝ := π / 2 - theta0

/-- m_dU0 (BarotropicInstabilityTest.cpp:87). -/
noncomputable def u0 : ℝ := 80

/-- m_dH0 (BarotropicInstabilityTest.cpp:86). -/
noncomputable def h0 : ℝ := 10158.18617045463179

/-- EvaluateUPrime (BarotropicInstabilityTest.cpp:163-182); `none`: infinite.  At the southern edge the exponent is one by
zero by a negative number, minus infinity, whose exponential is zero; at the northern edge it is a positive number by
zero, plus infinity. -/
noncomputable def wind (lat : ℝ) : Option ℝ :=
  open Classical in
  if lat < theta0 then some 0
  else if lat > theta1 then some 0
  else if lat = theta0 then some 0
  else if lat = theta1 then none
  else
    let normalizer := exp (-4 / (theta1 - theta0) / (theta1 - theta0))
    let up := exp (1 / (lat - theta0) / (lat - theta1))
    some (u0 / normalizer * up)

/-- nIntervals (BarotropicInstabilityTest.cpp:204-209). -/
noncomputable def intervals (lat : ℝ) : Nat :=
  let k := ⌊(lat + 0.5 * π) / 0.01⌋₊
  if k < 1 then 1 else k

/-- dLatX (BarotropicInstabilityTest.cpp:212-218). -/
noncomputable def latX (lat : ℝ) (i : Nat) : ℝ := -0.5 * π + (lat + 0.5 * π) / (intervals lat : ℝ) * (i : ℝ)

/-- dXeval (BarotropicInstabilityTest.cpp:227-230). -/
noncomputable def place (lat : ℝ) (i : Nat) (m : ℝ) : ℝ :=
  0.5 * (latX lat (i + 1) + latX lat i) + m * sqrt (1 / 3) * 0.5 * (latX lat (i + 1) - latX lat i)

/-- All places in the order of the loops (BarotropicInstabilityTest.cpp:225-230). -/
noncomputable def places (lat : ℝ) : List ℝ := (List.range (intervals lat)).flatMap fun i => [place lat i (-1), place lat i 1]

/-- The sum dH over places (BarotropicInstabilityTest.cpp:220-237), `radius` and `omega` of the Earth. -/
noncomputable def total (radius omega : ℝ) (L : List ℝ) : Option ℝ :=
  L.foldl (fun acc x => acc.bind fun s => (wind x).map fun u => s + (2 * radius * omega * sin x + u * tan x) * u) (some 0)

/-- What the evaluation of the state at a point does. -/
inductive Point where
  | thrown
  | notFinite
  | state (u v h : ℝ)

/-- EvaluatePointwiseState (BarotropicInstabilityTest.cpp:187-291) with dAlpha = 0, where the point in rotated coordinates
is the point (lines 136-140); printing left out. -/
noncomputable def evaluate (radius omega g lon lat : ℝ) : Point :=
  open Classical in
  let lonE := if lon > π then lon - 2 * π else lon
  if lonE < -π ∨ lonE > π then .thrown
  else
    match total radius omega (places lat), wind lat with
    | some dH, some up =>
      let h := h0 - dH * (0.5 * (latX lat 1 - latX lat 0)) / g
      let h := h + 120 * cos lat * exp (-(lonE * lonE / (1 / 3 * (1 / 3))))
        * exp (-((π / 4 - lat) * (π / 4 - lat) / (1 / 15 * (1 / 15))))
      let v := -up * sin 0 * sin lon / cos lat
      let u := if |cos lonE| < 1 / 10 ^ 13 then up else (v * sin lat * sin lonE + up * cos lon) / cos lonE
      .state u v h
    | _, _ => .notFinite

/-- dLatP (BarotropicInstabilityTest.cpp:143-144). -/
noncomputable def turnedLat (alpha lon lat : ℝ) : ℝ := arcsin (sin lat * cos alpha - cos lat * cos lon * sin alpha)

/-- dLonP (BarotropicInstabilityTest.cpp:146-157). -/
noncomputable def turnedLon (alpha lon lat : ℝ) : ℝ :=
  open Classical in
  let l := arcsin (sin lon * cos lat / cos (turnedLat alpha lon lat))
  let temp := cos alpha * cos lon * cos lat + sin alpha * sin lat
  let l := if temp < 0 then π - l else l
  if l < 0 then l + 2 * π else l

/-- dUlon and dUlat (BarotropicInstabilityTest.cpp:259-277) where EvaluateUPrime has returned `up`; the turn taken off the
longitude at line 244 changes no sine or cosine. -/
noncomputable def turnedWind (alpha lon lat up : ℝ) : ℝ × ℝ :=
  open Classical in
  let v := -up * sin alpha * sin (turnedLon alpha lon lat) / cos lat
  let u :=
    if |cos lon| < 1 / 10 ^ 13 then
      if |alpha| > 1 / 10 ^ 13 then
        if cos lon > 0 then -v * cos lat / tan alpha else v * cos lat / tan alpha
      else up
    else (v * sin lat * sin lon + up * cos (turnedLon alpha lon lat)) / cos lon
  (u, v)

end Verif.Cases.Instability
