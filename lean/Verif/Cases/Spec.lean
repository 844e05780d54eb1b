import Mathlib.Analysis.Calculus.Deriv.Basic
import Verif.Thermo.ConstantsProps
import Verif.Cases.Model

/-!
# Vocabulary for the states of the test cases
-/

namespace Verif.Cases

open Verif.Thermo

/-- Constants of a gas whose derived members fit the others (what every history of calls of the setters gives, C85). -/
structure Proper (c : Constants) : Prop where
  r : 0 < c.r
  cp : c.r < c.cp
  p0 : 0 < c.p0
  kappa : c.kappa = c.r / c.cp
  gamma : c.gamma = c.cp / (c.cp - c.r)
  scaling : c.scaling = c.p0 * (c.r / c.p0) ^ (c.cp / (c.cp - c.r))

/-- The pressure of air by the equation of state: `p0 (r rho theta / p0) ^ (cp / cv)`. -/
noncomputable def pressure (c : Constants) (a : Air) : ℝ :=
  c.p0 * (c.r * (a.rho * a.theta) / c.p0) ^ (c.cp / (c.cp - c.r))

/-- The air has the temperature `t`: pressure is density times gas constant times temperature, and all are positive. -/
structure Has (c : Constants) (t : ℝ) (a : Air) : Prop where
  rho : 0 < a.rho
  theta : 0 < a.theta
  warm : 0 < t
  gas : pressure c a = a.rho * c.r * t

/-- Hydrostatic balance of a column at height `z`: the derivative of pressure is minus weight. -/
def Hydrostatic (c : Constants) (column : ℝ → Air) (z : ℝ) : Prop :=
  HasDerivAt (fun z => pressure c (column z)) (-((column z).rho * c.g)) z

/-- Balance of a zonal flow along a meridian in a shallow atmosphere at latitude `lat`: centrifugal and Coriolis force
and the gradient of pressure add up to zero (the momentum equation in the direction of north, divided by density). -/
def Meridional (c : Constants) (meridian : ℝ → Air) (lat : ℝ) : Prop :=
  ∃ slope, HasDerivAt (fun lat => pressure c (meridian lat)) slope lat ∧
    (meridian lat).u ^ 2 * Real.tan lat / c.earthRadius + 2 * c.omega * Real.sin lat * (meridian lat).u +
      slope / ((meridian lat).rho * c.earthRadius) = 0

/-- Balance of a flow along a channel in the plane at the place `y` across it, with the Coriolis parameter `f` there. -/
def Crosswise (c : Constants) (f : ℝ) (channel : ℝ → Air) (y : ℝ) : Prop :=
  ∃ slope, HasDerivAt (fun y => pressure c (channel y)) slope y ∧
    f * (channel y).u + slope / (channel y).rho = 0

/-- The same for a test case that may give up: it does not at this height and near it. -/
def HydrostaticNear (c : Constants) (column : ℝ → Option Air) (z : ℝ) : Prop :=
  ∃ air : ℝ → Air, (∀ᶠ x in nhds z, column x = some (air x)) ∧ Hydrostatic c air z

/-- The same for a test case that may give up: it does not at this latitude and near it. -/
def MeridionalNear (c : Constants) (meridian : ℝ → Option Air) (lat : ℝ) : Prop :=
  ∃ air : ℝ → Air, (∀ᶠ x in nhds lat, meridian x = some (air x)) ∧ Meridional c air lat

/-- Balance of a zonal flow in a deep atmosphere at height `z` and latitude `lat`, in the vertical direction and along
the meridian: gravity decreases with the square of the distance from the centre, the centrifugal and the Coriolis force
also act upwards, and lengths grow with that distance. -/
def Deep (c : Constants) (air : ℝ → ℝ → Air) (z lat : ℝ) : Prop :=
  ∃ up north, HasDerivAt (fun z => Cases.pressure c (air z lat)) up z ∧
    HasDerivAt (fun lat => Cases.pressure c (air z lat)) north lat ∧
    up / (air z lat).rho + c.g * (c.earthRadius / (c.earthRadius + z)) ^ 2 =
      (air z lat).u ^ 2 / (c.earthRadius + z) + 2 * c.omega * Real.cos lat * (air z lat).u ∧
    (air z lat).u ^ 2 * Real.tan lat / (c.earthRadius + z) + 2 * c.omega * Real.sin lat * (air z lat).u +
      north / ((air z lat).rho * (c.earthRadius + z)) = 0

/-- The temperature of the inertia gravity wave on the sphere, of buoyancy frequency `n` at all places and in balance
with a wind of speed `u0` at the equator. -/
noncomputable def buoyant (c : Constants) (n u0 teq z lat : ℝ) : ℝ :=
  c.g ^ 2 / (n ^ 2 * c.cp) + (teq - c.g ^ 2 / (n ^ 2 * c.cp)) *
    Real.exp (n ^ 2 / c.g * z +
      u0 * n ^ 2 / (2 * c.g ^ 2) * (u0 + 2 * c.omega * c.earthRadius) * Real.sin lat ^ 2)

/-- Parameters of the baroclinic wave like those the constructor sets: the equator is warmer than the poles, though
not three times as warm. -/
structure Wave.Mild (q : Wave) : Prop where
  pole : 0 < q.t0P
  order : q.t0P ≤ q.t0E
  gap : q.t0E < 3 * q.t0P
  lapse : 0 < q.lapse
  k : 0 < q.k

/-- The air does not move. -/
def AtRest (a : Air) : Prop := a.u = 0 ∧ a.v = 0 ∧ a.w = 0

end Verif.Cases
